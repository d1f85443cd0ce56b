import Verif.Model.Transform
/-! # Specification: what a dictionary makes of its methods -/
namespace Verif
namespace Drel
open LR
variable [CaseFold]

/-- Going through the definitions ends with the result `res`; `d` parentheses are open before and `d'` after. -/
def Transforms {Py : Type} (make : Str → Bool → Val → Except PyErr Py) (d : Nat) (defs : List (Str × Block))
    (res : Except PyErr (List (Str × List Py))) (d' : Nat) : Prop := ∃ n, transformN n make d defs = some (res, d')

/-- The translations of the methods, in order: of those for evaluation whose text, with its lines ended by line feeds, is a
program. Each is read as if nothing had been read before. -/
def Taken {Py : Type} (make : Val → Except PyErr Py) : List (Str × Str) → List Py → Prop
  | [], ts => ts = []
  | (purpose, text) :: ms, ts =>
    (purpose = "Evaluation".toList ∧ ∃ v t ts', Reads (unixLines text ++ ['\n']) v ∧ make v = .ok t ∧ ts = t :: ts' ∧ Taken make ms ts') ∨
    ((purpose ≠ "Evaluation".toList ∨ ¬ ∃ v, Reads (unixLines text ++ ['\n']) v) ∧ Taken make ms ts)

/-- The definition has these methods, given with their purposes, in a loop or as single values. -/
def HasMethods (b : Block) (ms : List (Str × Str)) : Prop :=
  b.contains "_method.expression".toList = true ∧
  ((b.getItem "_method.expression".toList = .ok (.list (ms.map fun m => .str m.2)) ∧
      b.getItem "_method.purpose".toList = .ok (.list (ms.map fun m => .str m.1))) ∨
   ∃ p e, ms = [(p, e)] ∧ b.getItem "_method.expression".toList = .ok (.str e) ∧ b.getItem "_method.purpose".toList = .ok (.str p))

/-- The definition is one of a function. -/
def InFunctions (b : Block) : Prop := b.getItem "_name.category_id".toList = .ok (.str "function".toList)

/-- The definition is one of a category. -/
def CatScope (b : Block) : Prop := b.getItem "_definition.scope".toList = .ok (.str "Category".toList)

/-- A text made of lines, each but perhaps the last with its own end. -/
inductive TextOf : List Str → Str → Prop
  | nil : TextOf [] []
  | last {l : Str} : l ≠ [] → (∀ c ∈ l, lineEnd c = false) → TextOf [l] l
  | line {l e : Str} {ls : List Str} {s : Str} : (∀ c ∈ l, lineEnd c = false) → e = ['\n'] ∨ e = ['\r', '\n'] → TextOf ls s →
      TextOf (l :: ls) (l ++ e ++ s)

end Drel
end Verif
