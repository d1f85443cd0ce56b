import Verif.Lemmas.Derive
import Verif.Props.CifDic
/-! # C58: derivations end -/
set_option linter.unusedSectionVars false
namespace Verif.Derive
open Validate

section Samples
attribute [local instance] asciiFold

/-- A block with the given items. -/
def valuesBlock : List (String × PyVal) → Block
  | [] => {}
  | (k, v) :: r => ((valuesBlock r).addItem k.toList v).1

/-- A text. -/
def txt (s : String) : PyVal := .str s.toList

/-- Definitions of the given names and contents. -/
def defs (l : List (String × List (String × PyVal))) : CifDic :=
  { coll := { dict := l.map fun a => (a.1.toList, valuesBlock a.2), lowerKeys := l.map fun a => a.1.toList },
    table := l.map fun a => (a.1.toList, a.1.toList) }

/-- Two items of category `c`, each computed from the other. -/
def cycleDic : CifDic := defs
  [("c", [("_definition.id", txt "c"), ("_definition.scope", txt "Category"), ("_name.category_id", txt "c")]),
   ("_c.a", [("_definition.id", txt "_c.a"), ("_name.category_id", txt "c"), ("_method.py_expression", .list [txt "A"])]),
   ("_c.b", [("_definition.id", txt "_c.b"), ("_name.category_id", txt "c"), ("_method.py_expression", .list [txt "B"])])]

/-- Its methods: `_c.a` is `_c.b` and `_c.b` is `_c.a`. -/
def cycleExec (f : PyVal) : Prog := if f = txt "A" then get (txt "_c.b") .ret else get (txt "_c.a") .ret

/-- The dictionary with these methods. -/
def cycleEngine : Engine :=
  { dic := cycleDic, conv := fun _ v => .ok v, toInt := .ok, exec := cycleExec, pick := id }

/-- The names it mentions. -/
def cycleNames : List Str := ["c".toList, "_c.a".toList, "_c.b".toList]

end Samples

variable [CaseFold]

/-- Whether a block mentions only the given names. -/
def mentionsOnly (S : List Str) (b : Block) : Bool :=
  ([CifDic.catAttr, defIndexAttr, keyIdAttr].all fun a => match b.getItem a with
    | .ok (.str s) => decide (s ∈ S)
    | _ => true) &&
  match b.getItem componentsAttr with
  | .error _ => true
  | .ok v => match Block.pyIter v with
    | .error _ => true
    | .ok l => l.all fun x => match x with
      | .str s => decide (s ∈ S)
      | _ => true

theorem closed_of_check {E : Engine} {S : List Str} (hi : E.dic.imports = []) (h1 : (E.dic.keys.all fun a => decide (a ∈ S)) = true)
    (h2 : (E.dic.coll.dict.all fun p => mentionsOnly S p.2) = true)
    (h3 : (E.aliases.all fun p => decide (p.1 ∈ S) && match Block.pyIter p.2 with
      | .error _ => true
      | .ok l => l.all fun x => match x with
        | .str s => decide (s ∈ S)
        | _ => true) = true)
    (h4 : (E.catObj.all fun p => p.2.all fun x => match x with
        | .str s => decide (s ∈ S)
        | _ => true) = true)
    (hm : ∀ f, (E.exec f).Within S) : Closed E S := by
  rw [List.all_eq_true] at h1 h2 h3 h4
  have hb : ∀ k b, E.dic.getItem k = .ok b → mentionsOnly S b = true := by
    intro k b hk
    have hc : ∀ x, E.dic.coll.getItem x = .ok b → mentionsOnly S b = true := by
      intro x hx
      unfold Coll.getItem at hx
      split at hx
      · split at hx
        · rename_i b' he
          injection hx with hx
          subst hx
          exact h2 _ (dget_mem he)
        · cases hx
      · cases hx
    unfold CifDic.getItem at hk
    split at hk
    · rename_i b' he
      injection hk with hk
      subst hk
      unfold CifDic.byId at he
      split at he
      · cases he
      · exact hc _ he
    · split at hk
      · rename_i b' he
        injection hk with hk
        subst hk
        exact hc _ he
      · rw [hi] at hk
        cases hk
  refine ⟨fun a ha => by simpa using h1 a ha, fun a v hv => ?_, fun k b a s hk ha hg => ?_, fun k b v l s hk hg hp hs => ?_,
    fun p l s hp hs => ?_, hm⟩
  · have := h3 (a, v) hv
    simp only [Bool.and_eq_true, decide_eq_true_eq] at this
    refine ⟨this.1, fun l s hl hs => ?_⟩
    have h := this.2
    simp only [hl, List.all_eq_true] at h
    simpa using h _ hs
  · have h := hb k b hk
    unfold mentionsOnly at h
    rw [Bool.and_eq_true, List.all_eq_true] at h
    have := h.1 a ha
    rw [hg] at this
    simpa using this
  · have h := hb k b hk
    unfold mentionsOnly at h
    rw [Bool.and_eq_true] at h
    have h := h.2
    simp only [hg, hp, List.all_eq_true] at h
    simpa using h _ hs
  · have h := h4 (p, l) hp
    rw [List.all_eq_true] at h
    simpa using h _ hs

theorem cycle_closed : letI := asciiFold; Closed cycleEngine cycleNames := by
  letI := asciiFold
  refine closed_of_check (by decide +kernel) (by decide +kernel) (by decide +kernel) (by decide +kernel) (by decide +kernel) fun f => ?_
  show (cycleExec f).Within cycleNames
  unfold cycleExec
  split
  · exact get_within (fun s hs => by injection hs with hs; subst hs; decide +kernel) fun _ => trivial
  · exact get_within (fun s hs => by injection hs with hs; subst hs; decide +kernel) fun _ => trivial

/-- C58: after deriving a value, whether it succeeded or not, the names being derived are those of before, and so is the way
values are read. -/
theorem C58_restored {E : Engine} {n : Nat} {key : Str} {store : Bool} {allow : Option Bool} {s s' : St} {r : Except PyErr PyVal}
    (h : derive E n key store allow s = some (s', r)) : s'.called = s.called ∧ s'.provide = s.provide :=
  ⟨(derive_keeps E n key store allow s s' r h).1, (derive_keeps E n key store allow s s' r h).2.1⟩

/-- C58: the same after reading an item of the block. -/
theorem C58_read_restored {E : Engine} {n : Nat} {key : Str} {s s' : St} {r : Except PyErr PyVal}
    (h : getItem E (derive E n) key s = some (s', r)) : s'.called = s.called ∧ s'.provide = s.provide :=
  have := getItem_keeps (E := E) (call := derive E n) (fun k st a => derive_keeps E n k st a) key s s' r h
  ⟨this.1, this.2.1⟩

/-- C58: asking for a name that is being derived is refused and changes nothing. -/
theorem C58_refused {E : Engine} {n : Nat} {key : Str} {store : Bool} {allow : Option Bool} {s : St} (h : key ∈ s.called) :
    derive E (n + 1) key store allow s = some (s, .error .recursion) := by
  simp only [derive, track, h, if_true]

/-- C58: all that a derivation of `key` does is done with the derivation of `key`, and of every name being derived at the time,
refused, however deep the request comes from. -/
theorem C58_chain {E : Engine} {n : Nat} {key : Str} {store : Bool} {allow : Option Bool} {s : St} :
    derive E (n + 2) key store allow s =
      track key allow (fun use => run (getItem E (refusing (s.called ++ [key]) (derive E (n + 1))))
        (fun c => refusing (s.called ++ [key]) (derive E (n + 1)) c true none) (deriveBody E key store use)) s := by
  have hA : ∀ st a, Alike (s.called ++ [key]) (fun n' => derive E (n + 1) n' st a)
      (fun n' => refusing (s.called ++ [key]) (derive E (n + 1)) n' st a) := by
    intro st a x t ht
    refine ⟨?_, fun s' r h => ?_⟩
    · simp only [refusing]
      split
      · exact C58_refused (by rw [ht]; assumption)
      · rfl
    · rw [(derive_keeps E (n + 1) x st a t s' r h).1, ht]
  rw [show n + 2 = (n + 1) + 1 from rfl, derive]
  dsimp only
  unfold track
  dsimp only
  split
  · rfl
  · rw [(run_alike (getItem_alike (E := E) hA) (hA true none) (deriveBody E key store (uses allow s)) (enter key allow s) rfl).1]

/-- C58: every derivation ends: if finitely many names occur in the dictionary and its methods, the number of nested calls is
bounded by that number, whatever the methods ask for and in whatever circle. -/
theorem C58_terminates {E : Engine} {S : List Str} (hC : Closed E S) (key : Str) (store : Bool) (allow : Option Bool) (s : St) :
    ∃ (s' : St) (r : Except PyErr PyVal), ∀ n, S.length + 1 < n → derive E n key store allow s = some (s', r) := by
  have hC' : Closed E (key :: S) := hC.mono fun a h => List.mem_cons_of_mem _ h
  have hA := fun n m => derive_agree (E := E) (S := key :: S) (fun k _ st al => deriveBody_within hC' k st al) (S.length + 1) n m
  have hlen : ((key :: S).filter fun x => decide (x ∉ s.called)).length ≤ S.length + 1 :=
    Nat.le_trans (List.length_filter_le _ _) (by simp)
  obtain ⟨_, s', r, h, _⟩ := hA (S.length + 2) (S.length + 2) (by omega) (by omega) s.called hlen store allow key List.mem_cons_self s rfl
  refine ⟨s', r, fun n hn => ?_⟩
  obtain ⟨h1, _⟩ := hA n (S.length + 2) (by omega) (by omega) s.called hlen store allow key List.mem_cons_self s rfl
  exact h1.trans h

/-- C58: so does reading an item. -/
theorem C58_read_terminates {E : Engine} {S : List Str} (hC : Closed E S) (key : Str) (s : St) :
    ∃ (s' : St) (r : Except PyErr PyVal), ∀ n, S.length + 1 < n → getItem E (derive E n) key s = some (s', r) := by
  have hC' : Closed E (key :: S) := hC.mono fun a h => List.mem_cons_of_mem _ h
  have hA := fun n m => derive_agree (E := E) (S := key :: S) (fun k _ st al => deriveBody_within hC' k st al) (S.length + 1) n m
  have hlen : ((key :: S).filter fun x => decide (x ∉ s.called)).length ≤ S.length + 1 :=
    Nat.le_trans (List.length_filter_le _ _) (by simp)
  obtain ⟨_, s', r, h, _⟩ := getItem_agree (E := E) (hA (S.length + 2) (S.length + 2) (by omega) (by omega) s.called hlen) key
    List.mem_cons_self s rfl
  refine ⟨s', r, fun n hn => ?_⟩
  obtain ⟨h1, _⟩ := getItem_agree (E := E) (hA n (S.length + 2) (by omega) (by omega) s.called hlen) key List.mem_cons_self s rfl
  exact h1.trans h

/-- Two items computed from each other, neither present: the failure is reported and the record of names is empty again. -/
example : letI := asciiFold
    ∃ s', derive cycleEngine 5 "_c.a".toList true (some true) { block := {} } = some (s', .error .failure) ∧ s'.called = [] := by
  letI := asciiFold
  obtain ⟨s', r, h⟩ := C58_terminates cycle_closed "_c.a".toList true (some true) { block := {} }
  have hr := C58_restored (h 5 (by decide +kernel))
  have : (derive cycleEngine 5 "_c.a".toList true (some true) { block := {} }).map (·.2) = some (.error .failure) := by decide +kernel
  rw [h 5 (by decide +kernel)] at this
  simp only [Option.map_some, Option.some.injEq] at this
  exact ⟨s', by rw [h 5 (by decide +kernel), this], hr.1⟩

/-- The refusal is met: while `_c.b` is being derived, `_c.a` needs it. -/
example : letI := asciiFold
    derive cycleEngine 1 "_c.b".toList true none { block := {}, called := ["_c.b".toList, "_c.a".toList] } =
      some ({ block := {}, called := ["_c.b".toList, "_c.a".toList] }, .error .recursion) := by
  letI := asciiFold
  exact C58_refused (by decide +kernel)

end Verif.Derive
