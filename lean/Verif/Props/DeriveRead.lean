import Verif.Props.DeriveOrder
/-! # C66: reading items of a block that has a dictionary -/
namespace Verif.Derive
open Validate
set_option linter.unusedSectionVars false
variable [CaseFold]

theorem plainText_iff {v : PyVal} : plainText v = true ↔ Known v := by
  cases v <;> simp [plainText, Known]

theorem plainText_false {v : PyVal} : plainText v = false ↔ ¬ Known v := by
  rw [← plainText_iff]; simp

theorem unknown_iff {v : PyVal} (h : ¬ Known v) : unknown v = true ↔ Unknown v := by
  cases v with
  | list l =>
    have : l ≠ [] := by rintro rfl; exact h ⟨by simp, by simp⟩
    simp [unknown, Unknown, this]
  | slist l =>
    have : l ≠ [] := by rintro rfl; exact h ⟨by simp, by simp⟩
    simp [unknown, Unknown, this]
  | none => simp [unknown, Unknown]
  | str s => simp [unknown, Unknown]
  | num s => simp [unknown, Unknown]
  | sdict d => simp [unknown, Unknown]

theorem unknown_not_known {v : PyVal} (h : Unknown v) : ¬ Known v := by
  intro hk
  cases v with
  | list l =>
    obtain ⟨h1, h2⟩ := h
    match l, h1, h2, hk with
    | a :: r, _, h2, hk => exact hk.1 (by rw [h2 a (by simp)]; simp)
  | slist l =>
    obtain ⟨h1, h2⟩ := h
    match l, h1, h2, hk with
    | a :: r, _, h2, hk => exact hk.1 (by rw [h2 a (by simp)]; simp)
  | none => exact hk.1 h
  | str s => exact hk.1 h
  | num s => exact hk.1 h
  | sdict d => exact hk.1 h

/-- C66: an item that is there is returned as it is stored, and nothing changes, when the dictionary does not define it, when it is
stored as a value, and when values are not asked for. -/
theorem C66_stored {E : Engine} {call : Call} {key : Str} {raw : PyVal} {isValue : Bool} {s : St} (hk : key ≠ "saves".toList)
    (hr : s.block.getFullItemValue key = .ok (raw, isValue)) (h : E.dic.contains key = false ∨ isValue = true ∨ s.provide = false) :
    getItem E call key s = some (s, .ok raw) := by
  unfold getItem
  rw [if_neg (show ¬ key = Block.saves from hk)]
  simp only [hr]
  rw [if_pos]
  rcases h with h | h | h <;> simp [h]

/-- C66: a text is converted to the type that the dictionary gives to the item, when values are asked for; the block does not change. -/
theorem C66_converted {E : Engine} {call : Call} {key : Str} {raw : PyVal} {s : St} (hk : key ≠ "saves".toList)
    (hr : s.block.getFullItemValue key = .ok (raw, false)) (hd : E.dic.contains key = true) (hp : s.provide = true) (h : Known raw) :
    getItem E call key s = some (s, changeType E key raw) := by
  unfold getItem
  rw [if_neg (show ¬ key = Block.saves from hk)]
  simp only [hr]
  rw [if_neg (by simp [hd, hp]), if_pos (plainText_iff.2 h)]

/-- C66: a value that is inapplicable, or unknown in part, is returned as it is, and nothing changes. -/
theorem C66_inapplicable {E : Engine} {call : Call} {key : Str} {raw : PyVal} {s : St} {isValue : Bool} (hk : key ≠ "saves".toList)
    (hr : s.block.getFullItemValue key = .ok (raw, isValue)) (h : ¬ Known raw) (hu : ¬ Unknown raw) :
    getItem E call key s = some (s, .ok raw) := by
  by_cases hc : E.dic.contains key = false ∨ isValue = true ∨ s.provide = false
  · exact C66_stored hk hr hc
  · simp only [not_or, Bool.not_eq_false, Bool.not_eq_true] at hc
    unfold getItem
    rw [if_neg (show ¬ key = Block.saves from hk)]
    simp only [hr]
    rw [if_neg (by simp [hc]), if_neg (by simp [plainText_false.2 h]), if_neg (by rw [unknown_iff h]; exact hu)]

/-- Reading a missing item, in terms of the two attempts. -/
theorem getItem_missing {E : Engine} {call : Call} {key : Str} {s : St} (hk : key ≠ "saves".toList) (hm : s.block.contains key = false) :
    getItem E call key s = twice (call key E.cache) failedKey s := by
  have hg : s.block.getFullItemValue key = .error .key := by
    unfold Block.contains Block.keys at hm
    unfold Block.getFullItemValue
    rw [dget_eq_none.2 (by simpa using hm)]
  unfold getItem
  rw [if_neg (show ¬ key = Block.saves from hk)]
  simp only [hg]

/-- C66: a missing item is derived without defaults first, and unless that fails its outcome is that of reading. -/
theorem C66_missing {E : Engine} {call : Call} {key : Str} {s s1 : St} {r : Except PyErr PyVal} (hk : key ≠ "saves".toList)
    (hm : s.block.contains key = false) (h1 : call key E.cache (some false) s = some (s1, r)) (hr : r ≠ .error .failure) :
    getItem E call key s = some (s1, r) := by
  rw [getItem_missing hk hm]
  unfold twice
  rw [h1]
  split
  · rename_i h; cases h; exact absurd rfl hr
  · rfl

/-- C66: if deriving fails without defaults, it is tried with them. -/
theorem C66_missing_default {E : Engine} {call : Call} {key : Str} {s s1 s2 : St} {v : PyVal} (hk : key ≠ "saves".toList)
    (hm : s.block.contains key = false) (h1 : call key E.cache (some false) s = some (s1, .error .failure))
    (h2 : call key E.cache (some true) s1 = some (s2, .ok v)) : getItem E call key s = some (s2, .ok v) := by
  rw [getItem_missing hk hm]
  unfold twice
  rw [h1]
  simp only [h2, failedKey]

/-- C66: if that fails too, a KeyError is raised. -/
theorem C66_missing_fails {E : Engine} {call : Call} {key : Str} {s s1 s2 : St} (hk : key ≠ "saves".toList)
    (hm : s.block.contains key = false) (h1 : call key E.cache (some false) s = some (s1, .error .failure))
    (h2 : call key E.cache (some true) s1 = some (s2, .error .failure)) : getItem E call key s = some (s2, .error .key) := by
  rw [getItem_missing hk hm]
  unfold twice
  rw [h1]
  simp only [h2, failedKey]

theorem getItem_unknown {E : Engine} {call : Call} {key : Str} {raw : PyVal} {s : St} {b : Block} (hk : key ≠ "saves".toList)
    (hr : s.block.getFullItemValue key = .ok (raw, false)) (hd : E.dic.contains key = true) (hp : s.provide = true) (hu : Unknown raw)
    (hb : s.block.removeItem key = (b, .ok ())) : getItem E call key s = twice (call key true) (keepRaw raw) { s with block := b } := by
  unfold getItem
  rw [if_neg (show ¬ key = Block.saves from hk)]
  simp only [hr]
  rw [if_neg (by simp [hd, hp]), if_neg (by simp [plainText_false.2 (unknown_not_known hu)]),
    if_pos ((unknown_iff (unknown_not_known hu)).2 hu)]
  simp only [hb]

/-- C66: an unknown value is derived as if the item were missing, and the value derived is returned.
Missing from the full claim: that the default is returned, and that the item keeps its value if it cannot be derived (C66_default_fails,
C66_removed_fails). -/
theorem C66_unknown_partial {E : Engine} {call : Call} {key : Str} {raw v : PyVal} {s s1 : St} {b : Block} (hk : key ≠ "saves".toList)
    (hr : s.block.getFullItemValue key = .ok (raw, false)) (hd : E.dic.contains key = true) (hp : s.provide = true) (hu : Unknown raw)
    (hb : s.block.removeItem key = (b, .ok ())) (h1 : call key true (some false) { s with block := b } = some (s1, .ok v)) :
    getItem E call key s = some (s1, .ok v) := by
  rw [getItem_unknown hk hr hd hp hu hb]
  unfold twice
  rw [h1]

/-- C66: the old value is returned if it cannot be derived without defaults. -/
theorem C66_unknown_kept {E : Engine} {call : Call} {key : Str} {raw : PyVal} {s s1 s2 : St} {b : Block} {r : Except PyErr PyVal}
    (hk : key ≠ "saves".toList)
    (hr : s.block.getFullItemValue key = .ok (raw, false)) (hd : E.dic.contains key = true) (hp : s.provide = true) (hu : Unknown raw)
    (hb : s.block.removeItem key = (b, .ok ())) (h1 : call key true (some false) { s with block := b } = some (s1, .error .failure))
    (h2 : call key true (some true) s1 = some (s2, r)) (hr' : r = .error .failure ∨ ∃ v, r = .ok v) :
    getItem E call key s = some (s2, .ok raw) := by
  rw [getItem_unknown hk hr hd hp hu hb]
  unfold twice
  rw [h1]
  simp only [h2]
  rcases hr' with rfl | ⟨v, rfl⟩ <;> rfl

/-- Reading again. -/
theorem read_again {E : Engine} {call : Call} {key : Str} {v : PyVal} {s : St} (hk : key ≠ "saves".toList)
    (hg : s.block.getItem key = .ok v) (hp : s.provide = false) : getItem E call key s = some (s, .ok v) := by
  unfold Block.getItem at hg
  rw [if_neg (show ¬ key = Block.saves from hk)] at hg
  cases hf : s.block.getFullItemValue key with
  | error e => rw [hf] at hg; cases hg
  | ok p =>
    rw [hf] at hg
    cases hg
    exact C66_stored hk hf (.inr (.inr hp))

/-- C66: a missing item outside loops that a method computes is stored when values are kept, and reading it again gives the same value
without any further change. -/
theorem C66_method {E : Engine} {n : Nat} {key cat : Str} {s s1 : St} {cb b' : Block} {has : List Str}
    {fs : List PyVal} {dflt v c : PyVal} (hcache : E.cache = true) (hsv : key ≠ "saves".toList) (hm : s.block.contains key = false)
    (hA : AliasLists E) (hk : key ∉ s.called)
    (hU : Underived E s.block key cat cb has fs dflt (.str [])) (hc : CifDic.getD cb CifDic.classAttr (.str "Set".toList) = .ok c)
    (hset : c ≠ loopClass)
    (ht : Tried (getItem E (derive E n)) (fun c => derive E n c true none) E.exec fs (enter key (some false) s) s1 (some v))
    (hv : v ≠ .none) (h1 : v ≠ .list []) (h2 : v ≠ .slist []) (hs : s1.block.setItem key v = (b', .ok ())) :
    ∃ s', getItem E (derive E (n + 1)) key s = some (s', .ok v) ∧ s'.block.getItem key = .ok v ∧
      ∀ s'', s''.block = s'.block → s''.provide = false → getItem E (derive E (n + 1)) key s'' = some (s'', .ok v) := by
  obtain ⟨hd, hg⟩ := C59_method (allow := some false) hA hk hU hc hset ht hv h1 h2 hs
  refine ⟨_, C66_missing hsv hm (by rw [hcache]; exact hd) (by simp), hg, ?_⟩
  intro s'' he hp
  exact read_again hsv (by rw [he]; exact hg) hp

/-- C66: a missing item outside loops that no method computes takes its default, which is stored when values are kept. -/
theorem C66_default {E : Engine} {n : Nat} {key cat : Str} {s s1 s2 : St} {cb b' : Block} {has has' : List Str}
    {fs : List PyVal} {dflt v c : PyVal} (hcache : E.cache = true) (hsv : key ≠ "saves".toList) (hm : s.block.contains key = false)
    (hA : AliasLists E) (hk : s.called = [])
    (hU : Underived E s.block key cat cb has fs dflt (.str [])) (hU' : Underived E s1.block key cat cb has' fs dflt (.str []))
    (hc : CifDic.getD cb CifDic.classAttr (.str "Set".toList) = .ok c) (hset : c ≠ loopClass)
    (ht : Tried (getItem E (derive E n)) (fun c => derive E n c true none) E.exec fs (enter key (some false) s) s1 none)
    (ht' : Tried (getItem E (derive E n)) (fun c => derive E n c true none) E.exec fs (enter key (some true) { s1 with called := [] }) s2 none)
    (hd : truthy dflt = true) (hcv : changeType E key dflt = .ok v)
    (hv : v ≠ .none) (h1 : v ≠ .list []) (h2 : v ≠ .slist []) (hs : s2.block.setItem key v = (b', .ok ())) :
    ∃ s', getItem E (derive E (n + 1)) key s = some (s', .ok v) ∧ s'.block.getItem key = .ok v := by
  have hf := C59_underivable (allow := some false) (store := true) hA (by rw [hk]; simp) hU ht (.inl (by simp [Allowed, hk]))
  rw [if_pos hk, hk] at hf
  obtain ⟨h3, h4⟩ := C59_default (allow := some true) (s := { s1 with called := [] }) hA (by simp) (.inl ⟨rfl, by simp⟩) hU' hc hset ht'
    hd hcv hv h1 h2 hs
  exact ⟨_, C66_missing_default hsv hm (by rw [hcache]; exact hf) (by rw [hcache]; exact h3), h4⟩

/-- C66: `get` gives the value of an item that is there, as reading does, and otherwise the default given by the caller; it never
derives a missing item. -/
theorem C66_get {E : Engine} {call : Call} {key : Str} {d : PyVal} {s : St} :
    (s.block.contains key = true → getOr E call key d s = getItem E call key s) ∧
    (s.block.contains key = false → getOr E call key d s = some (s, .ok d)) := by
  constructor <;> intro h <;> simp [getOr, h]

/-! ## Examples and cases where the claims fail -/

section Samples
attribute [local instance] asciiFold

/-- A block with unknown values, of which values are asked for. -/
def readState : St :=
  { block := valuesBlock [("_c.m", txt "?"), ("_c.s", txt "?"), ("_c.z", txt "?"), ("_c.k", txt "29"), ("_c.v", txt "."),
      ("_other", txt "x"), ("_l.id", .list [txt "1", txt "?"])], provide := true }

/-- Texts become numbers. -/
def toNumber : PyVal → PyVal
  | .str s => .num s
  | v => v

/-- The engine of `orderDic` with numbers. -/
def readEngine : Engine := { orderEngine with conv := fun _ v => .ok (toNumber v) }

end Samples

theorem ends {α : Type} {x : Res} {f : St → α} {r : Except PyErr PyVal} {g : α} (h : x.map (fun p => (p.2, f p.1)) = some (r, g)) :
    ∃ s, x = some (s, r) ∧ f s = g := by
  cases x with
  | none => cases h
  | some x => cases h; exact ⟨x.1, rfl, rfl⟩

/-- `C66_stored`: the item is not defined. -/
example : letI := asciiFold
    getItem readEngine (derive readEngine 4) "_other".toList readState = some (readState, .ok (txt "x")) := by
  letI := asciiFold
  exact C66_stored (isValue := false) (by decide) (by decide +kernel) (.inl (by decide +kernel))

/-- `C66_converted`. -/
example : letI := asciiFold
    getItem readEngine (derive readEngine 4) "_C.k".toList readState = some (readState, .ok (.num "29".toList)) := by
  letI := asciiFold
  rw [C66_converted (raw := txt "29") (by decide) (by decide +kernel) (by decide +kernel) rfl (by decide)]
  decide +kernel

/-- `C66_inapplicable`: a point, and a column known in part. -/
example : letI := asciiFold
    getItem readEngine (derive readEngine 4) "_c.v".toList readState = some (readState, .ok (txt ".")) ∧
    getItem readEngine (derive readEngine 4) "_l.id".toList readState = some (readState, .ok (.list [txt "1", txt "?"])) := by
  letI := asciiFold
  exact ⟨C66_inapplicable (isValue := false) (by decide) (by decide +kernel) (by decide) (by decide),
    C66_inapplicable (isValue := false) (by decide) (by decide +kernel) (by decide) (by decide)⟩

/-- `C66_missing` and `C66_method`: the value is computed and stored. -/
example : letI := asciiFold
    ∃ s', getItem orderEngine (derive orderEngine 3) "_c.m".toList orderState = some (s', .ok (txt "7")) ∧
      s'.block.getItem "_c.m".toList = .ok (txt "7") ∧
      ∀ s'', s''.block = s'.block → s''.provide = false →
        getItem orderEngine (derive orderEngine 3) "_c.m".toList s'' = some (s'', .ok (txt "7")) := by
  letI := asciiFold
  exact C66_method (b' := (orderState.block.setItem "_c.m".toList (txt "7")).1) (c := txt "Set") rfl (by decide) (by decide +kernel)
    order_lists (by decide) order_m (by decide +kernel) (by decide +kernel) (order_tried (some false)) (by decide) (by decide) (by decide)
    (by decide +kernel)

/-- `C66_missing_default` and `C66_default`. -/
example : letI := asciiFold
    ∃ s', getItem orderEngine (derive orderEngine 3) "_c.s".toList orderState = some (s', .ok (txt "none")) ∧
      s'.block.getItem "_c.s".toList = .ok (txt "none") := by
  letI := asciiFold
  exact C66_default (b' := (orderState.block.setItem "_c.s".toList (txt "none")).1) (c := txt "Set") rfl (by decide) (by decide +kernel)
    order_lists (by decide) order_s
    (s1 := enter "_c.s".toList (some false) orderState) order_s (by decide +kernel) (by decide +kernel) (order_untried (some false))
    (order_untried (some true)) (by decide)
    (by decide +kernel) (by decide) (by decide) (by decide) (by decide +kernel)

/-- `C66_missing_fails`. -/
example : letI := asciiFold
    ∃ s', getItem orderEngine (derive orderEngine 3) "_c.z".toList orderState = some (s', .error .key) := by
  letI := asciiFold
  exact ⟨_, C66_missing_fails (s1 := orderState) (s2 := { orderState with useDefaults := true }) (by decide) (by decide +kernel) (by decide +kernel) (by decide +kernel)⟩

/-- `C66_unknown_partial`. -/
example : letI := asciiFold
    ∃ s', getItem orderEngine (derive orderEngine 4) "_c.m".toList readState = some (s', .ok (txt "7")) ∧
      s'.block.getItem "_c.m".toList = .ok (txt "7") := by
  letI := asciiFold
  obtain ⟨s1, h1, h2⟩ := ends (x := derive orderEngine 4 "_c.m".toList true (some false)
    { readState with block := (readState.block.removeItem "_c.m".toList).1 }) (f := fun s => s.block.getItem "_c.m".toList)
    (r := .ok (txt "7")) (g := .ok (txt "7")) (by decide +kernel)
  exact ⟨s1, C66_unknown_partial (raw := txt "?") (b := (readState.block.removeItem "_c.m".toList).1) (by decide) (by decide +kernel)
    (by decide +kernel) rfl (by decide) (by decide +kernel) h1, h2⟩

/-- Where the claim fails: for an unknown value that has a default, the default is stored but `?` is returned. -/
theorem C66_default_fails : letI := asciiFold
    ∃ s', getItem orderEngine (derive orderEngine 4) "_c.s".toList readState = some (s', .ok (txt "?")) ∧
      s'.block.getItem "_c.s".toList = .ok (txt "none") := by
  letI := asciiFold
  exact ends (f := fun s => s.block.getItem "_c.s".toList) (g := .ok (txt "none")) (by decide +kernel)

/-- Where the claim fails: an unknown value that cannot be derived is returned, but the item is no longer in the block. -/
theorem C66_removed_fails : letI := asciiFold
    ∃ s', getItem orderEngine (derive orderEngine 4) "_c.z".toList readState = some (s', .ok (txt "?")) ∧
      readState.block.contains "_c.z".toList = true ∧ s'.block.contains "_c.z".toList = false := by
  letI := asciiFold
  obtain ⟨s', h1, h2⟩ := ends (x := getItem orderEngine (derive orderEngine 4) "_c.z".toList readState)
    (f := fun s => s.block.contains "_c.z".toList) (r := .ok (txt "?")) (g := false) (by decide +kernel)
  exact ⟨s', h1, by decide +kernel, h2⟩

end Verif.Derive
