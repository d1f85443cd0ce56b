import Verif.Model.Validate
/-! # Specification of a validation run

The checks that are carried out on a block, in their order, each with the key it is reported under and its result. -/
namespace Verif.Spec
open Validate
variable [CaseFold]

/-- One check that has been carried out: the key it is reported under, its name, its result. -/
structure Event where
  key : Str
  check : Str
  outcome : Outcome

/-- The result is a failure. -/
def Fails : Outcome → Prop
  | .bad _ => True
  | _ => False

instance : DecidablePred Fails
  | .good => .isFalse (fun h => h)
  | .skip => .isFalse (fun h => h)
  | .bad _ => .isTrue trivial

/-- Checks by name with what they return: all of them return a result, and these are the results. -/
def Returned (key : Str) (checks : List (Str × Except PyErr Outcome)) (es : List Event) : Prop :=
  checks = es.map (fun e => (e.check, .ok e.outcome)) ∧ ∀ e ∈ es, e.key = key

/-- The checks of an item against the rest of the block, which may keep a record of what has been done. -/
inductive GlobalRun (wb : Block) (key : Str) (v : PyVal) : Option Done →
    List (Str × (Str → PyVal → Block → Dict Str PyVal → Option Done → Except PyErr (Outcome × Option Done))) →
    List Event → Option Done → Prop
  | nil (s : Option Done) : GlobalRun wb key v s [] [] s
  | cons {s s' s'' : Option Done} {name : Str} {f : Str → PyVal → Block → Dict Str PyVal → Option Done → Except PyErr (Outcome × Option Done)}
      {r : List (Str × (Str → PyVal → Block → Dict Str PyVal → Option Done → Except PyErr (Outcome × Option Done)))}
      {o : Outcome} {es : List Event}
      (h : f key v wb [] s = .ok (o, s')) (hr : GlobalRun wb key v s' r es s'') :
      GlobalRun wb key v s ((name, f) :: r) (⟨key, name, o⟩ :: es) s''

/-- The checks of the items called `keys`: for each its own checks, then those against the rest of the block. -/
inductive ItemsRun (C : Checks) (wb : Block) : Option Done → List Str → List Event → Option Done → Prop
  | nil (s : Option Done) : ItemsRun C wb s [] [] s
  | cons {s s' s'' : Option Done} {key : Str} {r : List Str} {v : PyVal} {es1 es2 es : List Event}
      (hv : wb.getItem key = .ok v) (h1 : Returned key (C.item.map fun f => (f.1, f.2 key v)) es1)
      (h2 : GlobalRun wb key v s C.global es2 s') (hr : ItemsRun C wb s' r es s'') :
      ItemsRun C wb s (key :: r) (es1 ++ es2 ++ es) s''

/-- The checks of the loops, each reported under the first name of the loop. -/
inductive LoopsRun (C : Checks) : List (List Str) → List Event → Prop
  | nil : LoopsRun C [] []
  | cons {name : Str} {names : List Str} {r : List (List Str)} {es1 es : List Event}
      (h1 : Returned name (C.loop.map fun f => (f.1, f.2 (name :: names))) es1) (hr : LoopsRun C r es) :
      LoopsRun C ((name :: names) :: r) (es1 ++ es)

/-- All checks of a block: of its items, of its loops, and of the block as a whole. -/
def BlockRun (C : Checks) (wb : Block) (s : Option Done) (es : List Event) : Prop :=
  ∃ es1 es2 es3 s', ItemsRun C wb s wb.keys es1 s' ∧ LoopsRun C (wb.loops.map (·.2)) es2 ∧
    Returned "whole_block".toList (C.block.map fun f => (f.1, f.2 wb)) es3 ∧ es = es1 ++ es2 ++ es3

/-- What a report should hold under a key: the failures with that key, in the order of the run. -/
def failuresOf (es : List Event) (key : Str) : List (Str × Outcome) :=
  (es.filter fun e => decide (e.key = key ∧ Fails e.outcome)).map fun e => (e.check, e.outcome)

end Verif.Spec
