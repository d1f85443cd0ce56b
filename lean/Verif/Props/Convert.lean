import Verif.Spec.Convert
import Verif.Lemmas.Validate
import Verif.Props.TypeContents
import Verif.Props.ValidateItem
/-! # C51: conversion of structured values -/
namespace Verif.Convert
open Validate Spec Spec.Convert
variable [CaseFold]
set_option linter.unusedSectionVars false

/-! ## Element by element -/

theorem mapE_each {α : Type} {f : α → Except PyErr CVal} : ∀ (l : List α),
    (∃ cs, mapE f l = .ok cs ∧ Converted f l cs) ∨ (∃ e, mapE f l = .error e ∧ FirstFails f l e)
  | [] => .inl ⟨[], rfl, rfl, by simp⟩
  | a :: r => by
    cases h : f a with
    | error e =>
      refine .inr ⟨e, by simp only [mapE, h], 0, a, rfl, h, ?_⟩
      intro j b hj
      omega
    | ok c =>
      rcases mapE_each (f := f) r with ⟨cs, h1, h2, h3⟩ | ⟨e, h1, i, b, h2, h3, h4⟩
      · refine .inl ⟨c :: cs, by simp only [mapE, h, h1], by simp [h2], ?_⟩
        intro i b hb
        cases i with
        | zero =>
          simp only [List.getElem?_cons_zero, Option.some.injEq] at hb
          exact ⟨c, rfl, hb ▸ h⟩
        | succ i => exact h3 i b hb
      · refine .inr ⟨e, by simp only [mapE, h, h1], i + 1, b, h2, h3, ?_⟩
        intro j d hj hd
        cases j with
        | zero =>
          simp only [List.getElem?_cons_zero, Option.some.injEq] at hd
          exact ⟨c, hd ▸ h⟩
        | succ j => exact h4 j d (by omega) hd

theorem eachOf_each {f : Conv} {v : PyVal} {vs : List PyVal} (hv : Block.pyIter v = .ok vs) : Each f vs (eachOf f v) := by
  rw [eachOf, hv]
  rcases mapE_each (f := f) vs with ⟨cs, h1, h2⟩ | ⟨e, h1, h2⟩
  · exact .inl ⟨cs, by simp only [h1], h2⟩
  · exact .inr ⟨e, by simp only [h1], h2⟩

theorem simpleList_byTypes (E : Env) (ts : List PyVal) {v : PyVal} {vs : List PyVal} (hv : Block.pyIter v = .ok vs) :
    ByTypes (convertSingle E) ts vs (convertSimpleList E ts v) := by
  rw [convertSimpleList, hv]
  by_cases hl : vs.length = ts.length
  · rw [ByTypes, if_pos hl]
    simp only [if_neg (not_not_intro hl)]
    rcases mapE_each (f := fun p : PyVal × PyVal => convertSingle E p.1 p.2) (ts.zip vs) with ⟨cs, h1, h2⟩ | ⟨e, h1, h2⟩
    · exact .inl ⟨cs, by simp only [h1], h2⟩
    · exact .inr ⟨e, by simp only [h1], h2⟩
  · rw [ByTypes, if_neg hl]
    simp only [if_pos hl]

/-! ## Definitions -/

theorem convertType_list {E : Env} {b : Block} {contents : PyVal} {dim : Option (List Str)} (hb : Typed b "List".toList contents dim) :
    convertType E b = convertList E contents (.slist ((dim.getD []).map .str)) := by
  obtain ⟨hc, ⟨s, hs, hcon⟩, hd⟩ := hb
  have hi : TypeContents.interpretStructure s = .ok contents := (TypeContents.C50_accepted s contents).2 hcon
  have hne : ¬ PyVal.str "List".toList = .str "Single".toList := by decide +kernel
  cases dim with
  | none =>
    simp only at hd
    simp only [convertType, need, attr_some hc, attr_some hs, attr_none hd, bind, Except.bind, structureOf, hi, if_neg hne, if_true,
      Option.getD_none, List.map_nil]
  | some ds =>
    simp only at hd
    simp only [convertType, need, attr_some hc, attr_some hs, attr_some hd, bind, Except.bind, structureOf, hi, if_neg hne, if_true,
      Option.getD_some]

theorem convertType_single {E : Env} {b : Block} {contents : PyVal} {dim : Option (List Str)} (hb : Typed b "Single".toList contents dim) :
    convertType E b = .ok (convertSingle E contents) := by
  obtain ⟨hc, ⟨s, hs, hcon⟩, hd⟩ := hb
  have hi : TypeContents.interpretStructure s = .ok contents := (TypeContents.C50_accepted s contents).2 hcon
  cases dim with
  | none =>
    simp only at hd
    simp only [convertType, need, attr_some hc, attr_some hs, attr_none hd, bind, Except.bind, structureOf, hi, if_true]
  | some ds =>
    simp only at hd
    simp only [convertType, need, attr_some hc, attr_some hs, attr_some hd, bind, Except.bind, structureOf, hi, if_true]

theorem digit_isDigit {c : Char} (h : Digit c) : Number.isDigit c = true := by
  simp only [Number.isDigit, h.1, h.2, decide_true, Bool.and_self]

theorem pyInt_text {neg : Bool} {ds : Str} (h : Digits ds) : pyInt (intText neg ds) = some (intValue neg ds) := by
  have hsp : ∀ c ∈ intText neg ds, isSpace c = false := by
    intro c hc
    have hd : ∀ c ∈ ds, isSpace c = false := fun c hc => Number.digit_space (h.2 c hc)
    cases neg with
    | false => exact hd c hc
    | true =>
      rcases List.mem_cons.1 hc with rfl | hc
      · decide
      · exact hd c hc
  have hss : Number.splitSign (intText neg ds) = (neg, ds) := by
    cases neg with
    | true => rfl
    | false =>
      cases ds with
      | nil => rfl
      | cons c r =>
        have hc := h.2 c List.mem_cons_self
        have h1 : c ≠ '-' := by
          rintro rfl
          revert hc
          decide
        have h2 : c ≠ '+' := by
          rintro rfl
          revert hc
          decide
        simp only [intText, Bool.false_eq_true, if_false, Number.splitSign, if_neg h1, if_neg h2]
  have hall : ds.all Number.isDigit = true := List.all_eq_true.2 fun c hc => digit_isDigit (h.2 c hc)
  simp only [pyInt, Number.strip_id hsp, hss, hall, and_true, if_pos h.1]
  rw [Number.signed, Number.natOf_eq]
  cases neg <;> rfl

/-- How the conversion of a list type depends on the dimension. -/
theorem convertList_once {E : Env} {contents : PyVal} {f : Conv} (hf : convertEntry E contents = .ok f) {dim : Option (List Str)}
    (hd : dim = none ∨ dim = some [] ∨ ∃ r, dim = some (['1'] :: r)) : convertList E contents (.slist ((dim.getD []).map .str)) = .ok f := by
  rcases hd with rfl | rfl | ⟨r, rfl⟩
  · simp [convertList, hf, bind, Except.bind, Block.pyIter]
  · simp [convertList, hf, bind, Except.bind, Block.pyIter]
  · have : pyInt ['1'] = some 1 := by decide +kernel
    simp [convertList, hf, bind, Except.bind, Block.pyIter, pyIntV, this]

theorem convertList_many {E : Env} {contents : PyVal} {f : Conv} (hf : convertEntry E contents = .ok f) {neg : Bool} {ds : Str} {r : List Str}
    (hd : Digits ds) (hn : intValue neg ds ≠ 1) : convertList E contents (.slist (((some (intText neg ds :: r)).getD []).map .str)) = .ok (eachOf f) := by
  simp [convertList, hf, bind, Except.bind, Block.pyIter, pyIntV, pyInt_text hd, hn]

theorem changeType_direct {E : Env} {D : Dic} {item : Str} {b : Block} {f : Conv} {v : PyVal} (hb : D.find item = some b)
    (hf : convertType E b = .ok f) (hq : v ≠ query) (hl : ∀ l, v ≠ .list l) : changeType E D item v = f v := by
  rw [changeType, if_neg hq]
  cases v with
  | list l => exact absurd rfl (hl l)
  | _ => simp only [getDef, hb, hf, bind, Except.bind]

/-! ## C51 -/

/-- C51, a list type with several element types, written once: element `i` is converted by type `i`, and the conversion fails
exactly when the lengths differ or an element fails. -/
theorem C51_tuple (E : Env) (D : Dic) (item : Str) (b : Block) (ts vs : List PyVal) (dim : Option (List Str))
    (hb : D.find item = some b) (ht : Typed b "List".toList (.list ts) dim)
    (hd : dim = none ∨ dim = some [] ∨ ∃ r, dim = some (['1'] :: r)) :
    ByTypes (convertSingle E) ts vs (changeType E D item (.slist vs)) := by
  have hf : convertType E b = .ok (convertSimpleList E ts) := by
    rw [convertType_list ht, convertList_once (f := convertSimpleList E ts) (by rfl) hd]
  rw [changeType_direct hb hf (by simp [query]) (by simp)]
  exact simpleList_byTypes E ts rfl

/-- C51, the same type written several times: each entry is converted in this way, and the conversion fails exactly when an
entry fails. -/
theorem C51_tuples (E : Env) (D : Dic) (item : Str) (b : Block) (ts rows : List PyVal) (neg : Bool) (ds : Str) (r : List Str)
    (hb : D.find item = some b) (hd : Digits ds) (hn : intValue neg ds ≠ 1)
    (ht : Typed b "List".toList (.list ts) (some (intText neg ds :: r))) :
    ∃ f : Conv, Each f rows (changeType E D item (.slist rows)) ∧ ∀ vs, ByTypes (convertSingle E) ts vs (f (.slist vs)) := by
  have hf : convertType E b = .ok (eachOf (convertSimpleList E ts)) := by
    rw [convertType_list ht, convertList_many (f := convertSimpleList E ts) (by rfl) hd hn]
  rw [changeType_direct hb hf (by simp [query]) (by simp)]
  exact ⟨convertSimpleList E ts, eachOf_each rfl, fun vs => simpleList_byTypes E ts rfl⟩

/-- C51, a list of values of one type. -/
theorem C51_repeated (E : Env) (D : Dic) (item : Str) (b : Block) (t : Str) (vs : List PyVal) (neg : Bool) (ds : Str) (r : List Str)
    (hb : D.find item = some b) (hd : Digits ds) (hn : intValue neg ds ≠ 1)
    (ht : Typed b "List".toList (.str t) (some (intText neg ds :: r))) :
    Each (convertSingle E (.str t)) vs (changeType E D item (.slist vs)) := by
  have hf : convertType E b = .ok (eachOf (convertSingle E (.str t))) := by
    rw [convertType_list ht, convertList_many (f := convertSingle E (.str t)) (by rfl) hd hn]
  rw [changeType_direct hb hf (by simp [query]) (by simp)]
  exact eachOf_each rfl

/-- C51, a single value. -/
theorem C51_single (E : Env) (D : Dic) (item : Str) (b : Block) (t : Str) (s : Str) (dim : Option (List Str))
    (hb : D.find item = some b) (ht : Typed b "Single".toList (.str t) dim) (hs : s ≠ ['?']) :
    changeType E D item (.str s) = convertSingle E (.str t) (.str s) :=
  changeType_direct hb (convertType_single ht) (by simpa [query] using hs) (by simp)

/-- C51, the values of a loop are converted one by one, whatever the type, each as if it stood alone. -/
theorem C51_looped (E : Env) (D : Dic) (item : Str) (b : Block) (vs : List PyVal) (hb : D.find item = some b)
    (hv : ∀ v ∈ vs, v ≠ .str ['?'] ∧ ∀ l, v ≠ .list l) :
    (∃ f : Conv, Each f vs (changeType E D item (.list vs)) ∧ ∀ v ∈ vs, f v = changeType E D item v) ∨
    (∃ e, changeType E D item (.list vs) = .error e ∧ ∀ v ∈ vs, changeType E D item v = .error e) := by
  cases hf : convertType E b with
  | error e =>
    refine .inr ⟨e, ?_, ?_⟩
    · rw [changeType, if_neg (by simp [query])]
      simp only [getDef, hb, hf, bind, Except.bind]
    · intro v hm
      have hq : v ≠ query := (hv v hm).1
      rw [changeType, if_neg hq]
      simp only [getDef, hb, hf, bind, Except.bind]
  | ok f =>
    refine .inl ⟨f, ?_, fun v hm => (changeType_direct hb hf (hv v hm).1 (hv v hm).2).symm⟩
    rw [changeType, if_neg (by simp [query])]
    simp only [getDef, hb, hf, bind, Except.bind]
    rcases mapE_each (f := f) vs with ⟨cs, h1, h2⟩ | ⟨e, h1, h2⟩
    · exact .inl ⟨cs, by simp only [h1], h2⟩
    · exact .inr ⟨e, by simp only [h1], h2⟩

/-! ### What the single conversions do -/

theorem noBracket {n : Numeral} (hn : n.WF) (h : n.su = none) : ∀ c ∈ n.text, c ≠ '(' := by
  intro c hc e
  subst e
  have hd : ¬ Digit '(' := by decide
  simp only [Numeral.text, h, Numeral.suText, List.append_nil, List.mem_append] at hc
  rcases hc with ((hc | hc) | hc) | hc
  · split at hc
    · revert hc; decide
    · cases hc
  · exact hd (hn.int _ hc)
  · cases hf : n.frac with
    | none => rw [hf] at hc; cases hc
    | some f =>
      rw [hf] at hc
      rcases List.mem_cons.1 hc with e | hc
      · revert e; decide
      · exact hd (hn.frac f hf _ hc)
  · match he : n.exp with
    | none => rw [he] at hc; cases hc
    | some (l, s, ds) =>
      rw [he] at hc
      obtain ⟨h1, h2, h3⟩ := hn.exp l s ds he
      simp only [Numeral.expText, List.cons_append, List.mem_cons, List.mem_append] at hc
      rcases hc with e | hc | hc
      · subst e
        revert h1; decide
      · cases s <;> revert hc <;> decide
      · exact hd (h3 _ hc)

theorem takeWhile_all {p : Char → Bool} : ∀ {s : Str}, (∀ c ∈ s, p c = true) → ∀ r : Str, (∀ c, r.head? = some c → p c = false) → (s ++ r).takeWhile p = s
  | [], _, r, hr => by
    cases r with
    | nil => rfl
    | cons c r => simp [hr c rfl]
  | c :: s, h, r, hr => by
    have := takeWhile_all (s := s) (fun d hd => h d (List.mem_cons_of_mem _ hd)) r hr
    simp [h c List.mem_cons_self, this]

/-- The numeral without its uncertainty. -/
def bare (n : Numeral) : Numeral := { n with su := none }

theorem bare_wf {n : Numeral} (hn : n.WF) : (bare n).WF := ⟨hn.int, hn.frac, hn.some_digit, (fun _ h => nomatch h), hn.exp⟩

theorem cut_text {n : Numeral} (hn : n.WF) (hx : n.su = none ∨ n.exp = none) : n.text.takeWhile (· ≠ '(') = (bare n).text := by
  cases hs : n.su with
  | none =>
    have hb : bare n = n := by cases n; simp only at hs; subst hs; rfl
    rw [hb]
    have := takeWhile_all (p := fun c => decide (c ≠ '(')) (s := n.text) (fun c hc => by simpa using noBracket hn hs c hc) [] (by simp)
    rwa [List.append_nil] at this
  | some u =>
    have he : n.exp = none := by
      rcases hx with h | h
      · rw [hs] at h; cases h
      · exact h
    have ht : n.text = (bare n).text ++ ('(' :: u ++ [')']) := by
      simp [Numeral.text, bare, hs, he, Numeral.suText, Numeral.expText]
    rw [ht]
    exact takeWhile_all (p := fun c => decide (c ≠ '(')) (fun c hc => by simpa using noBracket (bare_wf hn) rfl c hc) _ (by simp)

/-- C51: a number is converted to the number it denotes; the uncertainty is left out. What is missing: an exponent after the
uncertainty, which is left out as well (`C51_exponent_fails`). -/
theorem C51_real_partial (E : Env) (n : Numeral) (hn : n.WF) (hl : ∀ l s ds, n.exp = some (l, s, ds) → l = 'e' ∨ l = 'E')
    (hx : n.su = none ∨ n.exp = none) : convertSingle E (.str "Real".toList) (.str n.text) = .ok (.real n.value) := by
  have h : Number.pyFloat (bare n).text = some n.value := Number.pyFloat_text (bare_wf hn) hl rfl
  simp only [convertSingle, if_true, floatWithEsd, cut_text hn hx, pyFloatV, h]

/-- C51: an integer is converted to the number it denotes. -/
theorem C51_integer (E : Env) (t : Str) (ht : t ∈ ["Count".toList, "Integer".toList, "Index".toList]) (neg : Bool) (ds : Str) (hd : Digits ds) :
    convertSingle E (.str t) (.str (intText neg ds)) = .ok (.int (intValue neg ds)) := by
  have h1 : t ∈ intTypes := by
    simp only [intTypes, List.mem_cons, List.not_mem_nil, or_false] at ht ⊢
    rcases ht with h | h | h <;> simp only [h, true_or, or_true]
  have h2 : t ≠ "Real".toList := by
    rintro rfl
    revert ht
    decide +kernel
  simp only [convertSingle, if_neg h2, if_pos h1, pyIntV, pyInt_text hd]

theorem int_branch {E : Env} {t : Str} (ht : t ∈ ["Count".toList, "Integer".toList, "Index".toList]) (v : PyVal) :
    convertSingle E (.str t) v = match pyIntV v with
      | .error e => .error e
      | .ok z => .ok (.int z) := by
  have h1 : t ∈ intTypes := by
    simp only [intTypes, List.mem_cons, List.not_mem_nil, or_false] at ht ⊢
    rcases ht with h | h | h <;> simp only [h, true_or, or_true]
  have h2 : t ≠ "Real".toList := by
    rintro rfl
    revert ht
    decide +kernel
  simp only [convertSingle, if_neg h2, if_pos h1]
  rfl

theorem dropWhile_spaces {pre : Str} (h : ∀ c ∈ pre, isSpace c = true) {c : Char} (hc : isSpace c = false) (r : Str) :
    (pre ++ c :: r).dropWhile isSpace = c :: r := by
  induction pre with
  | nil => simp [hc]
  | cons d p ih =>
    simp only [List.cons_append, List.dropWhile_cons, h d (by simp), if_true]
    exact ih fun x hx => h x (by simp [hx])

theorem strip_around {pre post m : Str} (h : ∀ c ∈ pre ++ post, isSpace c = true) (hm : ∀ c ∈ m, isSpace c = false) (hne : m ≠ []) :
    Number.strip (pre ++ m ++ post) = m := by
  obtain ⟨c, r, rfl⟩ := List.exists_cons_of_ne_nil hne
  have h1 : ((pre ++ c :: r) ++ post).dropWhile isSpace = (c :: r) ++ post := by
    rw [List.append_assoc]
    exact dropWhile_spaces (fun x hx => h x (List.mem_append_left _ hx)) (hm c (by simp)) _
  rw [Number.strip, h1, List.reverse_append]
  obtain ⟨d, q, hq⟩ := List.exists_cons_of_ne_nil (l := (c :: r).reverse) (by simp)
  have hd : isSpace d = false := hm d (by
    have : d ∈ (c :: r).reverse := by rw [hq]; simp
    exact List.mem_reverse.1 this)
  rw [hq, dropWhile_spaces (fun x hx => h x (List.mem_append_right _ (List.mem_reverse.1 hx))) hd, ← hq, List.reverse_reverse]

theorem strip_parts (s : Str) : ∃ pre post, s = pre ++ Number.strip s ++ post ∧ ∀ c ∈ pre ++ post, isSpace c = true := by
  refine ⟨s.takeWhile isSpace, ((s.dropWhile isSpace).reverse.takeWhile isSpace).reverse, ?_, ?_⟩
  · rw [Number.strip, List.append_assoc, ← List.reverse_append, List.takeWhile_append_dropWhile, List.reverse_reverse,
      List.takeWhile_append_dropWhile]
  · intro c hc
    rcases List.mem_append.1 hc with h | h
    · exact Number.of_takeWhile _ h
    · exact Number.of_takeWhile _ (List.mem_reverse.1 h)

theorem pyInt_iff (s : Str) (z : Int) : pyInt s = some z ↔ IntegerText s z := by
  constructor
  · intro h
    obtain ⟨pre, post, h1, h2⟩ := strip_parts s
    unfold pyInt at h
    simp only at h
    split at h
    · rename_i hd
      injection h with h
      have hds : Digits (Number.splitSign (Number.strip s)).2 := ⟨hd.1, by
        intro c hc
        have := List.all_eq_true.1 hd.2 c hc
        simpa [Number.isDigit, Digit] using this⟩
      revert h hds
      generalize hm : Number.strip s = m at h1
      intro h hds
      have hval : ∀ ds, (Number.natOf ds : Int) = digitsValue ds := fun ds => by rw [Number.natOf_eq]
      cases m with
      | nil => exact absurd rfl hds.1
      | cons c r =>
        simp only [Number.splitSign] at h hds
        by_cases e1 : c = '-'
        · rw [if_pos e1] at h hds
          refine ⟨pre, ['-'], r, post, by rw [h1, e1]; rfl, h2, hds, .inr ⟨rfl, ?_⟩⟩
          rw [← h]; simp [Number.signed, hval]
        · rw [if_neg e1] at h hds
          by_cases e2 : c = '+'
          · rw [if_pos e2] at h hds
            refine ⟨pre, ['+'], r, post, by rw [h1, e2]; rfl, h2, hds, .inl ⟨.inr rfl, ?_⟩⟩
            rw [← h]; simp [Number.signed, hval]
          · rw [if_neg e2] at h hds
            refine ⟨pre, [], c :: r, post, h1, h2, hds, .inl ⟨.inl rfl, ?_⟩⟩
            rw [← h]; simp [Number.signed, hval]
    · cases h
  · rintro ⟨pre, sign, ds, post, rfl, h2, hds, hz⟩
    have hall : ds.all Number.isDigit = true := List.all_eq_true.2 fun c hc => digit_isDigit (hds.2 c hc)
    have hsp : ∀ c ∈ sign ++ ds, isSpace c = false := by
      intro c hc
      rcases List.mem_append.1 hc with h | h
      · rcases hz with ⟨rfl | rfl, _⟩ | ⟨rfl, _⟩
        · simp at h
        · simp at h; subst h; decide
        · simp at h; subst h; decide
      · exact Number.digit_space (hds.2 c h)
    have hst := strip_around h2 hsp (by simp [hds.1])
    have hval : ∀ ds, (Number.natOf ds : Int) = digitsValue ds := fun ds => by rw [Number.natOf_eq]
    unfold pyInt
    simp only [hst]
    rcases hz with ⟨rfl | rfl, rfl⟩ | ⟨rfl, rfl⟩
    · obtain ⟨c, r, rfl⟩ := List.exists_cons_of_ne_nil hds.1
      have hc := hds.2 c List.mem_cons_self
      have h1 : c ≠ '-' := by
        rintro rfl
        revert hc
        decide
      have h2 : c ≠ '+' := by
        rintro rfl
        revert hc
        decide
      simp only [List.nil_append, Number.splitSign, if_neg h1, if_neg h2]
      rw [if_pos ⟨by simp, hall⟩]
      simp [Number.signed, hval]
    · have hpm : ¬ ('+' : Char) = '-' := by decide
      simp only [List.cons_append, List.nil_append, Number.splitSign, if_true, if_neg hpm]
      rw [if_pos ⟨hds.1, hall⟩]
      simp [Number.signed, hval]
    · simp only [List.cons_append, List.nil_append, Number.splitSign, if_true]
      rw [if_pos ⟨hds.1, hall⟩]
      simp [Number.signed, hval]

/-- C51: exactly the texts that denote an integer are converted, all others are refused with a ValueError. -/
theorem C51_integer_texts (E : Env) (t : Str) (ht : t ∈ ["Count".toList, "Integer".toList, "Index".toList]) (s : Str) :
    (∀ z, convertSingle E (.str t) (.str s) = .ok (.int z) ↔ IntegerText s z) ∧
    ((¬ ∃ z, IntegerText s z) → convertSingle E (.str t) (.str s) = .error .value) := by
  rw [int_branch ht]
  simp only [pyIntV]
  constructor
  · intro z
    rw [← pyInt_iff]
    cases pyInt s <;> simp
  · intro h
    cases e : pyInt s with
    | none => rfl
    | some z => exact absurd ⟨z, (pyInt_iff s z).1 e⟩ h

/-- C51: a number that is already there loses its fraction. -/
theorem C51_integer_number (E : Env) (t : Str) (ht : t ∈ ["Count".toList, "Integer".toList, "Index".toList]) (s : Str) (q : Rat)
    (hq : Number.pyFloat s = some q) : ∃ z, convertSingle E (.str t) (.num s) = .ok (.int z) ∧ Truncated q z := by
  rw [int_branch ht]
  simp only [pyIntV, hq]
  refine ⟨trunc q, rfl, ?_⟩
  unfold trunc
  split
  · rename_i h
    refine .inr ⟨h, ?_, ?_, ?_⟩
    · have : (0 : Int) ≤ (-q).floor := Rat.le_floor_iff.2 (by simp; grind)
      omega
    · have h1 := Rat.lt_floor_add_one (-q)
      have h2 : (((-q).floor + 1 : Int) : Rat) = ((-q).floor : Rat) + 1 := by simp
      have h3 : ((-(-q).floor : Int) : Rat) = -((-q).floor : Rat) := by simp
      rw [h2] at h1
      rw [h3]
      grind
    · have h1 := Rat.floor_le (-q)
      have h3 : ((-(-q).floor : Int) : Rat) = -((-q).floor : Rat) := by simp
      rw [h3]
      grind
  · rename_i h
    refine .inl ⟨by grind, ?_, Rat.floor_le q, ?_⟩
    · exact Rat.le_floor_iff.2 (by simp; grind)
    · have h1 := Rat.lt_floor_add_one q
      have h2 : ((q.floor + 1 : Int) : Rat) = (q.floor : Rat) + 1 := by simp
      rw [h2] at h1
      exact h1

/-- C51: values that do not depend on case are brought to one case. -/
theorem C51_caseless (E : Env) (t : Str) (ht : t ∈ ["Code".toList, "Name".toList, "Tag".toList]) (s : Str) :
    convertSingle E (.str t) (.str s) = .ok (.raw (.str (lower s))) := by
  have h1 : t ∈ caselessTypes := ht
  have h2 : t ≠ "Real".toList ∧ t ∉ intTypes ∧ t ≠ "Complex".toList ∧ t ≠ "Imag".toList := by
    simp only [List.mem_cons, List.not_mem_nil, or_false] at ht
    rcases ht with rfl | rfl | rfl <;> decide +kernel
  simp only [convertSingle, if_neg h2.1, if_neg h2.2.1, if_neg h2.2.2.1, if_neg h2.2.2.2, if_pos h1, pyLower]

/-- C51: values of types that are not numbers or codes, such as Text, stay as they are. -/
theorem C51_text (E : Env) (v : PyVal) : convertSingle E (.str "Text".toList) v = .ok (.raw v) := by
  have h2 : "Text".toList ≠ "Real".toList ∧ "Text".toList ∉ intTypes ∧ "Text".toList ≠ "Complex".toList ∧ "Text".toList ≠ "Imag".toList ∧
    "Text".toList ∉ caselessTypes := by decide +kernel
  simp only [convertSingle, if_neg h2.1, if_neg h2.2.1, if_neg h2.2.2.1, if_neg h2.2.2.2.1, if_neg h2.2.2.2.2]

/-- C51 fails for an exponent after the uncertainty: 1.5(2)e3 becomes 1.5. -/
theorem C51_exponent_fails (E : Env) :
    convertSingle E (.str "Real".toList) (.str "1.5(2)e3".toList) = .ok (.real (3 / 2)) ∧
    Number.getNumberWithEsd "1.5(2)e3".toList = .ok (some 1500, some 200) := by
  have h : floatWithEsd (.str "1.5(2)e3".toList) = .ok (3 / 2) := by decide +kernel
  exact ⟨by simp only [convertSingle, if_true, h], by decide +kernel⟩

/-- C51: the numbers of Fortran, `1D3`, which the check of the type lets pass, cannot be converted. -/
theorem C51_letter_fails (E : Env) : convertSingle E (.str "Real".toList) (.str "1D3".toList) = .error .value := by
  have h : floatWithEsd (.str "1D3".toList) = .error .value := by decide +kernel
  simp only [convertSingle, if_true, h]

/-- C51: a whole number written with a decimal point is no integer, although the text of the program says so. -/
theorem C51_point_fails (E : Env) : convertSingle E (.str "Integer".toList) (.str "3.0".toList) = .error .value := by
  have h : pyIntV (.str "3.0".toList) = .error .value := by decide +kernel
  have h1 : "Integer".toList ≠ "Real".toList ∧ "Integer".toList ∈ intTypes := by decide +kernel
  simp only [convertSingle, if_neg h1.1, if_pos h1.2, h]

/-- C51: imaginary numbers cannot be converted from text at all. -/
theorem C51_imag_fails (E : Env) (s : Str) : convertSingle E (.str "Imag".toList) (.str s) = .error .type := by
  have h1 : "Imag".toList ≠ "Real".toList ∧ "Imag".toList ∉ intTypes ∧ "Imag".toList ≠ "Complex".toList := by decide +kernel
  simp only [convertSingle, if_neg h1.1, if_neg h1.2.1, if_neg h1.2.2, if_true, pyImag]

/-- C51 fails for nested types: the inner elements are not converted. -/
theorem C51_nested_fails (E : Env) (ts vs : List PyVal) : convertSingle E (.list ts) (.slist vs) = .ok (.raw (.slist vs)) := rfl

/-! ### In use -/

/-- A definition of a list of a code and an integer. -/
def listSample : Block :=
  letI := asciiFold
  (((({} : Block).addItem "_type.container".toList (.str "List".toList)).1.addItem
    "_type.contents".toList (.str "Code,Integer".toList)).1.addItem "_type.dimension".toList (.slist [.str "1".toList])).1

/-- Python without Numpy, and without complex numbers. -/
def plainEnv : Env := { complexText := fun _ => .error .value, numpy := none }

/-- The hypotheses of `C51_tuple`, and what it says for three lists. -/
example :
    letI := asciiFold
    let D := oneDef ddlmNames "_x.a".toList listSample
    D.find "_x.a".toList = some listSample ∧
    Typed listSample "List".toList (.list [.str "Code".toList, .str "Integer".toList]) (some [['1']]) ∧
    changeType plainEnv D "_x.a".toList (.slist [.str "Cu".toList, .str "-12".toList]) = .ok (.list [.raw (.str "cu".toList), .int (-12)]) ∧
    changeType plainEnv D "_x.a".toList (.slist [.str "Cu".toList, .str "x".toList]) = .error .value ∧
    changeType plainEnv D "_x.a".toList (.slist [.str "Cu".toList]) = .error .value := by
  letI := asciiFold
  refine ⟨rfl, ⟨by decide +kernel, ⟨"Code,Integer".toList, by decide +kernel, ?_⟩, by simp only; decide +kernel⟩, by decide +kernel⟩
  exact (TypeContents.C50_accepted _ _).1 (by decide +kernel)

/-- A definition of a list of three pairs. -/
def pairsSample : Block :=
  letI := asciiFold
  (((({} : Block).addItem "_type.container".toList (.str "List".toList)).1.addItem
    "_type.contents".toList (.str "List(Text,Real)".toList)).1.addItem "_type.dimension".toList (.slist [.str "3".toList])).1

/-- The hypotheses of `C51_tuples`; the number of entries is not compared with the dimension. -/
example :
    letI := asciiFold
    let D := oneDef ddlmNames "_x.a".toList pairsSample
    Typed pairsSample "List".toList (.list [.str "Text".toList, .str "Real".toList]) (some [['3']]) ∧
    changeType plainEnv D "_x.a".toList (.slist [.slist [.str "A".toList, .str "1.5(1)".toList], .slist [.str "b".toList, .str "-2".toList]]) =
      .ok (.list [.list [.raw (.str "A".toList), .real (3 / 2)], .list [.raw (.str "b".toList), .real (-2)]]) ∧
    changeType plainEnv D "_x.a".toList (.list [.slist [.slist [.str "A".toList, .str "1".toList]], .slist []]) =
      .ok (.list [.list [.list [.raw (.str "A".toList), .real 1]], .list []]) := by
  letI := asciiFold
  refine ⟨⟨by decide +kernel, ⟨"List(Text,Real)".toList, by decide +kernel, ?_⟩, by simp only; decide +kernel⟩, by decide +kernel⟩
  exact (TypeContents.C50_accepted _ _).1 (by decide +kernel)

/-- A definition of a list of numbers without a dimension. -/
def noDimension : Block :=
  letI := asciiFold
  (({} : Block).addItem "_type.container".toList (.str "List".toList)).1.addItem "_type.contents".toList (.str "Real".toList) |>.1

/-- C51 fails for a list of numbers whose dimension is not given: the list itself is taken for a number. -/
theorem C51_dimension_fails :
    letI := asciiFold
    Typed noDimension "List".toList (.str "Real".toList) none ∧
    changeType plainEnv (oneDef ddlmNames "_x.a".toList noDimension) "_x.a".toList (.slist [.str "1".toList, .str "2".toList]) =
      .error .type := by
  letI := asciiFold
  refine ⟨⟨by decide +kernel, ⟨"Real".toList, by decide +kernel, ?_⟩, by simp only; decide +kernel⟩, by decide +kernel⟩
  exact (TypeContents.C50_accepted _ _).1 (by decide +kernel)

/-- The hypotheses of `C51_integer_texts` and `C51_integer_number`. -/
example : letI := asciiFold
    IntegerText " -12 ".toList (-12) ∧ Number.pyFloat "-2.5".toList = some (-5 / 2) ∧ Truncated (-5 / 2) (-2) ∧
    convertSingle plainEnv (.str "Integer".toList) (.num "-2.5".toList) = .ok (.int (-2)) ∧
    convertSingle plainEnv (.str "Integer".toList) (.str "".toList) = .error .value := by
  letI := asciiFold
  refine ⟨(pyInt_iff _ _).1 (by decide +kernel), by decide +kernel, .inr (by decide +kernel), by decide +kernel, by decide +kernel⟩

end Verif.Convert
