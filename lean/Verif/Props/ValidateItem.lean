import Verif.Lemmas.Validate
/-! # C39-C41: checks of the values of one item -/
namespace Verif.Validate
open Spec
variable [CaseFold]
set_option linter.unusedSectionVars false

/-! ## C39 -/

/-- A dictionary with one definition. -/
def oneDef (n : Names) (name : Str) (b : Block) : Dic where
  names := n
  find := fun s => if s = name then some b else none
  keys := [name]

/-- C39 for definitions that list the permitted values in a loop: exactly these values, "." and "?" are let pass, and the
others are reported. What is missing: a single permitted value that is not looped (`C39_single_fails`). -/
theorem C39_enum_partial (D : Dic) (item : Str) (b : Block) (e value : PyVal) (enum vals : List PyVal)
    (hd : D.find item = some b) (he : b.getItem D.names.enum = .ok e) (hl : e = .list enum ∨ e = .slist enum)
    (hv : valuesOf value = some vals) :
    validateItemEnum D item value = .ok (judge (fun v => v ∈ enum ∨ Unstated v) vals) := by
  have h1 : enumList e = .ok (enum ++ [dot, query]) := by rcases hl with rfl | rfl <;> rfl
  rw [validateItemEnum, hd]
  simp only [attr_some he, bind, Except.bind, h1, listify_values hv]
  rw [verdict_judge]
  intro v _
  simp [Unstated, dot, query]

/-- C39: without a list of permitted values the check does not apply. -/
theorem C39_unrestricted (D : Dic) (item : Str) (b : Block) (value : PyVal) (hd : D.find item = some b)
    (he : b.getItem D.names.enum = .error .key) : validateItemEnum D item value = .ok .skip := by
  rw [validateItemEnum, hd]
  simp only [attr_none he, bind, Except.bind]

/-- C39 fails when the definition has one permitted value that is not in a loop: every value raises `AttributeError`,
the permitted one included. -/
theorem C39_single_fails (D : Dic) (item : Str) (b : Block) (s : Str) (value : PyVal) (hd : D.find item = some b)
    (he : b.getItem D.names.enum = .ok (.str s)) : validateItemEnum D item value = .error .attribute := by
  rw [validateItemEnum, hd]
  simp only [attr_some he, bind, Except.bind, enumList]

/-- A definition with two permitted values. -/
def enumSample : Block :=
  letI := asciiFold
  (({} : Block).addItem "_enumeration".toList (.list [.str "yes".toList, .str "no".toList])).1

/-- The hypotheses of `C39_enum_partial`: `no` and `?` are let pass, `maybe` and `Yes` are not. -/
example : letI := asciiFold
    enumSample.getItem ddl1Names.enum = .ok (.list [.str "yes".toList, .str "no".toList]) ∧
    validateItemEnum (oneDef ddl1Names "_a".toList enumSample) "_a".toList
      (.list [.str "no".toList, .str "maybe".toList, .str "?".toList, .str "Yes".toList]) =
      .ok (.bad { values := some [.str "maybe".toList, .str "Yes".toList] }) := by decide +kernel

/-- A definition with a single permitted value that is not looped, as `C39_single_fails` needs it. -/
example : letI := asciiFold
    (({} : Block).addItem "_enumeration".toList (.str "yes".toList)).1.getItem ddl1Names.enum = .ok (.str "yes".toList) := by
  decide +kernel

/-! ## C40 -/

/-- C40 for definitions that give the ends of the intervals as lists: a value is let pass exactly when it lies strictly
inside one of the intervals or is given as both of its ends; a text that does not start with a number is refused. What is
missing: ends that are not looped (`C40_unlooped_fails`), and numbers followed by something else (`C40_suffix_fails`). -/
theorem C40_range_partial (D : Dic) (item : Str) (b : Block) (lo hi value : PyVal) (bs : List (Bound × Bound)) (vals : List PyVal)
    (hd : D.find item = some b)
    (hlo : b.getItem "_item_range.minimum".toList = .ok lo) (hlo' : lo = .list (bs.map fun p => p.1.written))
    (hhi : b.getItem "_item_range.maximum".toList = .ok hi) (hhi' : hi = .list (bs.map fun p => p.2.written))
    (hok : ∀ p ∈ bs, p.1.OK ∧ p.2.OK)
    (hv : valuesOf value = some vals) (hn : ∀ v ∈ vals, Numeric v ∨ NoNumber v) :
    validateEnumRange D item value = .ok (judge (InRange bs) vals) := by
  classical
  subst hlo' hhi'
  rw [validateEnumRange, getDef, hd]
  simp only [attr_some hlo, attr_some hhi, bind, Except.bind, reduceCtorEq, false_and, if_false, Option.getD_some,
    Block.pyIter, ranges_written hok, listify_values hv]
  rw [select_ok (p := fun v => decide ¬ InRange bs v) (fun v h => rangeBad_text (hn v h))]
  simp only
  rw [verdict_judge]
  intro v _
  simp

/-- A definition whose range is looped: at least 0 and below 10.5. -/
def rangeSample : Block :=
  letI := asciiFold
  ((({} : Block).addItem "_item_range.minimum".toList (.list [.str "0".toList, .str "0".toList])).1.addItem
    "_item_range.maximum".toList (.list [.str "0".toList, .str "10.5".toList])).1

/-- The same upper limits for values that are not looped: 0 to 90. -/
def rangeSingle : Block :=
  letI := asciiFold
  ((({} : Block).addItem "_item_range.minimum".toList (.str "0".toList)).1.addItem
    "_item_range.maximum".toList (.str "90".toList)).1

/-- C40 fails when the ends are not looped: of a range from 0 to 90 only the first digits are used, and 45 is refused. -/
theorem C40_unlooped_fails :
    letI := asciiFold
    validateEnumRange (oneDef ddl2Names "_x.a".toList rangeSingle) "_x.a".toList (.str "45".toList) =
      .ok (.bad { values := some [.str "45".toList] }) := by decide +kernel

/-- The hypotheses of `C40_range_partial` for the sample: 0(1), 3 and "." are let pass, 10.5 is not. -/
example : letI := asciiFold
    rangeSample.getItem "_item_range.minimum".toList = .ok (.list [.str "0".toList, .str "0".toList]) ∧
    rangeSample.getItem "_item_range.maximum".toList = .ok (.list [.str "0".toList, .str "10.5".toList]) ∧
    validateEnumRange (oneDef ddl2Names "_x.a".toList rangeSample) "_x.a".toList
      (.list [.str "0(1)".toList, .str "3".toList, .str ".".toList, .str "10.5".toList]) =
      .ok (.bad { values := some [.str "10.5".toList] }) := by decide +kernel

/-- C40 fails for a number followed by something else: 3abc passes for 3. A text without a number is refused. -/
theorem C40_suffix_fails :
    letI := asciiFold
    validateEnumRange (oneDef ddl2Names "_x.a".toList rangeSample) "_x.a".toList (.list [.str "3abc".toList, .str "abc".toList]) =
      .ok (.bad { values := some [.str "abc".toList] }) := by decide +kernel

/-- C40 for DDL1: a range `min:max` of the dictionary, either side of which may be missing, is stored as two columns, with
which exactly the values from `min` to `max` are let pass, both ends included. -/
theorem C40_ddl1 (D : Dic) (item : Str) (b : Block) (lo hi : Option Numeral) (value : PyVal) (vals : List PyVal)
    (hl : ∀ n, lo = some n → Bound.FloatText n) (hh : ∀ n, hi = some n → Bound.FloatText n)
    (hle : ∀ l h, lo = some l → hi = some h → l.value ≤ h.value)
    (hv : valuesOf value = some vals) (hn : ∀ v ∈ vals, Numeric v ∨ NoNumber v) :
    ∃ mx mn, getMaxMin (sideText lo ++ ':' :: sideText hi) = .ok (mx, mn) ∧
      (D.find item = some b → b.getItem "_item_range.maximum".toList = .ok (.list (rangeColumns mx mn).1) →
        b.getItem "_item_range.minimum".toList = .ok (.list (rangeColumns mx mn).2) →
        validateEnumRange D item value = .ok (judge (InClosed lo hi) vals)) := by
  refine ⟨_, _, getMaxMin_sides hl hh, ?_⟩
  intro hd hmax hmin
  rw [rangeColumns_sides] at hmax hmin
  rw [C40_range_partial D item b _ _ value (closedBounds lo hi) vals hd hmin rfl hmax rfl (closedBounds_ok hl hh) hv hn,
    closed_inRange hle]

/-- A definition with the DDL1 range `-1.5:20`, as `DDL1_normalise` leaves it. -/
def ddl1Sample : Block :=
  letI := asciiFold
  match getMaxMin "-1.5:20".toList with
  | .error _ => {}
  | .ok (mx, mn) =>
    (((({} : Block).addItem "_item_range.maximum".toList (.list (rangeColumns mx mn).1)).1.addItem
      "_item_range.minimum".toList (.list (rangeColumns mx mn).2)).1.createLoop
      ["_item_range.maximum".toList, "_item_range.minimum".toList]).1

/-- The hypotheses of `C40_ddl1` for the sample: both ends are let pass, -1.6 and 20.1 are not. -/
example : letI := asciiFold
    getMaxMin "-1.5:20".toList = .ok (.num "20".toList, .num "-1.5".toList) ∧
    ddl1Sample.getItem "_item_range.maximum".toList =
      .ok (.list (rangeColumns (.num "20".toList) (.num "-1.5".toList)).1) ∧
    ddl1Sample.getItem "_item_range.minimum".toList =
      .ok (.list (rangeColumns (.num "20".toList) (.num "-1.5".toList)).2) ∧
    validateEnumRange (oneDef ddl1Names "_a".toList ddl1Sample) "_a".toList
      (.list [.str "-1.5".toList, .str "20".toList, .str "20.1".toList, .str "3(1)".toList, .str "-1.6".toList]) =
      .ok (.bad { values := some [.str "20.1".toList, .str "-1.6".toList] }) := by decide +kernel

/-! ## C41 -/

/-- C41 for values without line feeds and types given by a construct `r` of the dictionary: exactly the values that `r`
matches as a whole are let pass, "." and "?" besides, and also the empty text (`C41_empty_fails`). What is missing: values
of several lines (`C41_lines_fail`). -/
theorem C41_type_partial (D : Dic) (item : Str) (b : Block) (code : Str) (r : Rx) (value : PyVal) (vals : List PyVal)
    (hd : D.find item = some b) (ht : b.getItem D.names.type = .ok (.str code)) (hm : dget D.typedic code = some (construct r))
    (hv : valuesOf value = some vals) (hs : ∀ v ∈ vals, ∃ s : Str, v = .str s ∧ '\n' ∉ s) :
    validateItemType D item value =
      .ok (judge (fun v => Unstated v ∨ v = .str [] ∨ ∃ s : Str, v = .str s ∧ WholeMatch r s) vals) := by
  classical
  rw [validateItemType, getDef, hd]
  simp only [attr_some ht, bind, Except.bind, typeMatcher, hm, listify_values hv]
  rw [select_ok (p := fun v => decide ¬ (v = .str [] ∨ ∃ s : Str, v = .str s ∧ WholeMatch r s))]
  · simp only [List.filter_filter]
    rw [verdict_judge]
    intro v _
    simp only [Unstated, dot, query, Bool.and_eq_true, decide_eq_true_eq]
    grind
  · intro v hv'
    obtain ⟨s, rfl, hnl⟩ := hs v ((List.mem_filter.1 hv').1)
    rw [typeBad_construct hnl]
    congr 2
    simp [WholeMatch]

/-- C41, for all values: whatever is let pass is "." or "?" or empty, or is matched as a whole. -/
theorem C41_sound (D : Dic) (item : Str) (b : Block) (code : Str) (r : Rx) (value : PyVal) (vals : List PyVal)
    (hd : D.find item = some b) (ht : b.getItem D.names.type = .ok (.str code)) (hm : dget D.typedic code = some (construct r))
    (hv : valuesOf value = some vals) (hg : validateItemType D item value = .ok .good) :
    ∀ v ∈ vals, Unstated v ∨ v = .str [] ∨ ∃ s : Str, v = .str s ∧ WholeMatch r s := by
  rw [validateItemType, getDef, hd] at hg
  simp only [attr_some ht, bind, Except.bind, typeMatcher, hm, listify_values hv] at hg
  cases hsel : select (typeBad (construct r)) (vals.filter fun a => decide (a ≠ dot ∧ a ≠ query)) with
  | error e => rw [hsel] at hg; cases hg
  | ok bad =>
    rw [hsel] at hg
    simp only [Except.ok.injEq] at hg
    have hb : bad = [] := by
      unfold verdict at hg
      split at hg
      · assumption
      · cases hg
    subst hb
    intro v hv'
    by_cases hu : Unstated v
    · exact .inl hu
    · have hmem : v ∈ vals.filter fun a => decide (a ≠ dot ∧ a ≠ query) := by
        rw [List.mem_filter]
        refine ⟨hv', ?_⟩
        simp only [decide_eq_true_eq]
        exact ⟨fun h => hu (.inl h), fun h => hu (.inr h)⟩
      have hf := select_nil hsel v hmem
      cases v with
      | str s =>
        rcases typeBad_good hf with h | h
        · exact .inr (.inl (by rw [h]))
        · exact .inr (.inr ⟨s, rfl, h⟩)
      | none => cases hf
      | num s => cases hf
      | slist l => cases hf
      | sdict l => cases hf
      | list l => cases hf

/-- A dictionary with one definition of type `t`, given by `m`. -/
def typeDic (m : Str → Option Nat) : Dic :=
  letI := asciiFold
  { oneDef ddl2Names "_x.a".toList (({} : Block).addItem "_item_type.code".toList (.str ['t'])).1 with typedic := [(['t'], m)] }

/-- The construct `a|a\nb`. -/
def linesRx : Rx := .alt (.ch 'a') (.lit ['a', '\n', 'b'])

/-- C41 fails for values of several lines: the construct `a|a\nb` matches `a\nb` as a whole, but the check refuses it,
because the end of the first line is taken for the end. -/
theorem C41_lines_fail :
    letI := asciiFold
    WholeMatch linesRx ['a', '\n', 'b'] ∧
    validateItemType (typeDic (construct linesRx)) "_x.a".toList (.str ['a', '\n', 'b']) =
      .ok (.bad { values := some [.str ['a', '\n', 'b']] }) := by decide +kernel

/-- C41 fails for the empty text: it is let pass although the construct `[0-9]+` does not match it. -/
theorem C41_empty_fails :
    letI := asciiFold
    ¬ WholeMatch (.plus (.cls Number.isDigit)) [] ∧
    validateItemType (typeDic (construct (.plus (.cls Number.isDigit)))) "_x.a".toList (.str []) = .ok .good := by decide +kernel

/-- The hypotheses of `C41_type_partial` and `C41_sound`: `12` and `?` are numbers, `1a` is not. -/
example :
    letI := asciiFold
    validateItemType (typeDic (construct (.plus (.cls Number.isDigit)))) "_x.a".toList (.list [.str ['1', '2'], .str ['?']]) = .ok .good ∧
    validateItemType (typeDic (construct (.plus (.cls Number.isDigit)))) "_x.a".toList (.list [.str ['1', 'a'], .str ['?']]) =
      .ok (.bad { values := some [.str ['1', 'a']] }) := by decide +kernel

/-- C41 for the type `numb` of DDL1: exactly numerals are let pass ("." and "?" and the empty text besides). -/
theorem C41_numb (D : Dic) (item : Str) (b : Block) (code : Str) (value : PyVal) (vals : List PyVal)
    (hd : D.find item = some b) (ht : b.getItem D.names.type = .ok (.str code)) (hm : dget D.typedic code = some numbConstruct)
    (hv : valuesOf value = some vals) (hs : ∀ v ∈ vals, ∃ s : Str, v = .str s) :
    validateItemType D item value =
      .ok (judge (fun v => Unstated v ∨ v = .str [] ∨ ∃ n : Numeral, n.WF ∧ v = .str n.text) vals) := by
  classical
  rw [validateItemType, getDef, hd]
  simp only [attr_some ht, bind, Except.bind, typeMatcher, hm, listify_values hv]
  rw [select_ok (p := fun v => decide ¬ (v = .str [] ∨ ∃ n : Numeral, n.WF ∧ v = .str n.text))]
  · simp only [List.filter_filter]
    rw [verdict_judge]
    intro v _
    simp only [Unstated, dot, query, Bool.and_eq_true, decide_eq_true_eq]
    grind
  · intro v hv'
    obtain ⟨s, rfl⟩ := hs v ((List.mem_filter.1 hv').1)
    have hu : s ≠ ['.'] ∧ s ≠ ['?'] := by
      have := (List.mem_filter.1 hv').2
      simpa [dot, query] using this
    exact typeBad_numb hu.1 hu.2

/-! ## C64 -/

/-- C64 for definitions of primitive type `numb` that do not permit uncertainties: a value is let pass exactly when it
carries none.
Missing: DDL2 and DDLm dictionaries, for which the check is never carried out (`C64_ddl2_fails`, `C64_ddlm_fails`). -/
theorem C64_esd_partial (D : Dic) (item : Str) (b : Block) (value : PyVal) (vals : List PyVal) (hd : D.find item = some b)
    (hp : b.getItem D.names.primitive = .ok (.str "numb".toList))
    (he : b.getItem D.names.esd = .error .key ∨ ∃ v, b.getItem D.names.esd = .ok v ∧ v ≠ .str "esd".toList)
    (hv : valuesOf value = some vals) (hn : ∀ v ∈ vals, Numeric v) :
    validateItemEsd D item value =
      .ok (judge (fun v => Unstated v ∨ ∃ n : Numeral, n.WF ∧ v = .str n.text ∧ n.uncertainty = none) vals) := by
  classical
  have h1 : ∃ e, attr b D.names.esd = .ok e ∧ e ≠ some (.str "esd".toList) := by
    rcases he with he | ⟨v, he, hne⟩
    · exact ⟨none, attr_none he, by simp⟩
    · exact ⟨some v, attr_some he, by simpa using hne⟩
  obtain ⟨e, he1, he2⟩ := h1
  rw [validateItemEsd, getDef, hd]
  simp only [attr_some hp, bind, Except.bind, ne_eq, not_true_eq_false, if_false, he1, if_neg he2, listify_values hv]
  rw [select_ok (p := fun v => decide ¬ (Unstated v ∨ ∃ n : Numeral, n.WF ∧ v = .str n.text ∧ n.uncertainty = none))]
  · simp only
    rw [verdict_judge]
    intro v _
    simp
  · intro v h
    exact hasEsd_numeric (hn v h)

/-- C64: nothing is refused when uncertainties are permitted. -/
theorem C64_permitted (D : Dic) (item : Str) (b : Block) (value : PyVal) (hd : D.find item = some b)
    (hp : b.getItem D.names.primitive = .ok (.str "numb".toList)) (he : b.getItem D.names.esd = .ok (.str "esd".toList)) :
    validateItemEsd D item value = .ok .good := by
  rw [validateItemEsd, getDef, hd]
  simp only [attr_some hp, bind, Except.bind, ne_eq, not_true_eq_false, if_false, attr_some he, if_true]

/-- The hypotheses of `C64_esd_partial`: `1.5` is let pass, `1.5(2)` is not. -/
example : letI := asciiFold
    validateItemEsd (oneDef ddl1Names "_a".toList (({} : Block).addItem "_type".toList (.str "numb".toList)).1) "_a".toList
      (.list [.str "1.5".toList, .str "1.5(2)".toList, .str "?".toList]) =
      .ok (.bad { values := some [.str "1.5(2)".toList] }) := by decide +kernel

/-- C64 fails for DDL2: the primitive type is looked for under the name `_type`, which no DDL2 definition has, so that the
check never applies. -/
theorem C64_ddl2_fails (D : Dic) (item : Str) (b : Block) (value : PyVal) (hD : D.names = ddl2Names) (hd : D.find item = some b)
    (hb : b.getItem "_type".toList = .error .key) : validateItemEsd D item value = .ok .skip := by
  have hp : D.names.primitive = "_type".toList := by rw [hD]; rfl
  rw [validateItemEsd, getDef, hd]
  simp only [hp, attr_none hb, bind, Except.bind, ne_eq, reduceCtorEq, not_false_eq_true, if_true]

/-- C64 fails for DDLm: the primitive type is looked for under the name `self.primitive_type`, which is no data name, so that the
check never applies. -/
theorem C64_ddlm_fails (D : Dic) (item : Str) (b : Block) (value : PyVal) (hd : D.find item = some b)
    (hb : ∀ k ∈ b.keys, k.head? = some '_') : validateItemEsdDdlm D item value = .ok .skip := by
  have hl : lower "self.primitive_type".toList = "self.primitive_type".toList := by
    rw [CaseFold.lower_ascii]
    · decide +kernel
    · decide +kernel
  have h1 : b.getItem "self.primitive_type".toList = .error .key := by
    have hne : "self.primitive_type".toList ≠ Block.saves := by decide +kernel
    have : dget b.block "self.primitive_type".toList = none := by
      cases h : dget b.block "self.primitive_type".toList with
      | none => rfl
      | some v =>
        have hk : "self.primitive_type".toList ∈ b.keys := dget_isSome.1 ⟨v, h⟩
        have := hb _ hk
        exact absurd this (by decide +kernel)
    rw [Block.getItem, if_neg hne, Block.getFullItemValue, hl, this]
  rw [validateItemEsdDdlm, getDef, hd]
  simp only [attr_none h1, bind, Except.bind]

/-- The hypothesis of `C64_ddlm_fails` holds for a definition of a real number: `1.5(2)` is not looked at. -/
example : letI := asciiFold
    validateItemEsdDdlm (oneDef ddlmNames "_a.b".toList (({} : Block).addItem "_type.contents".toList (.str "Real".toList)).1)
      "_a.b".toList (.str "1.5(2)".toList) = .ok .skip := by decide +kernel

/-! ## C65 -/

/-- C65: an item that must be looped is refused exactly when its value is a single text, one that must not be looped
exactly when it is not. -/
theorem C65_looping (D : Dic) (item : Str) (b : Block) (m value : PyVal) (hd : D.find item = some b)
    (hm : b.getItem D.names.mustLoop = .ok m) :
    validateLooping D item value =
      .ok (open Classical in
        if (m = .str "yes".toList ∧ ∃ s, value = .str s) ∨ (m = .str "no".toList ∧ ¬ ∃ s, value = .str s) then .bad {} else .good) := by
  classical
  have ht : isText value = true ↔ ∃ s, value = .str s := by cases value <;> simp [isText]
  have hf : isText value = false ↔ ¬ ∃ s, value = .str s := by cases value <;> simp [isText]
  rw [validateLooping, hd]
  simp only [attr_some hm, bind, Except.bind]
  by_cases h1 : m = .str "yes".toList ∧ isText value = true
  · rw [if_pos h1, if_pos (.inl ⟨h1.1, ht.1 h1.2⟩)]
  · rw [if_neg h1]
    by_cases h2 : m = .str "no".toList ∧ isText value = false
    · rw [if_pos h2, if_pos (.inr ⟨h2.1, hf.1 h2.2⟩)]
    · rw [if_neg h2, if_neg]
      rintro (⟨h, h'⟩ | ⟨h, h'⟩)
      · exact h1 ⟨h, ht.2 h'⟩
      · exact h2 ⟨h, hf.2 h'⟩

/-- The hypotheses of `C65_looping`, both ways. -/
example : letI := asciiFold
    let D := oneDef ddl1Names "_a".toList (({} : Block).addItem "_list".toList (.str "yes".toList)).1
    validateLooping D "_a".toList (.str "1".toList) = .ok (.bad {}) ∧
    validateLooping D "_a".toList (.list [.str "1".toList]) = .ok .good := by decide +kernel

end Verif.Validate
