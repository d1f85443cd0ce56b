import Verif.Spec.Validate
import Verif.Lemmas.NumberRx
import Verif.Lemmas.Regex
import Verif.Lemmas.Dict
import Verif.Props.Number
/-! # Lemmas about the checks -/
namespace Verif
namespace Validate
open Spec
set_option linter.unusedSectionVars false

theorem attr_some [CaseFold] {b : Block} {a : Str} {v : PyVal} (h : b.getItem a = .ok v) : attr b a = .ok (some v) := by
  rw [attr, h]

theorem attr_none [CaseFold] {b : Block} {a : Str} (h : b.getItem a = .error .key) : attr b a = .ok none := by
  rw [attr, h]

theorem listify_values {v : PyVal} {vals : List PyVal} (h : valuesOf v = some vals) : listify v = .ok vals := by
  cases v <;> simp_all [valuesOf, listify, Block.pyIter]

theorem slice_values {v : PyVal} {vals : List PyVal} (h : valuesOf v = some vals) : slice v = .ok vals := by
  cases v <;> simp_all [valuesOf, slice]

/-- A test that raises nothing on the values selects as the filter does. -/
theorem select_ok {α : Type} {f : α → Except PyErr Bool} {p : α → Bool} : ∀ {l : List α}, (∀ a ∈ l, f a = .ok (p a)) →
    select f l = .ok (l.filter p)
  | [], _ => rfl
  | a :: r, h => by
    rw [select, h a (by simp)]
    have ih : select f r = .ok (r.filter p) := select_ok (fun b hb => h b (List.mem_cons_of_mem _ hb))
    simp only [ih, List.filter_cons]

theorem mapE_ok {α β : Type} {f : α → Except PyErr β} {g : α → β} : ∀ {l : List α}, (∀ a ∈ l, f a = .ok (g a)) →
    mapE f l = .ok (l.map g)
  | [], _ => rfl
  | a :: r, h => by
    rw [mapE, h a (by simp)]
    have ih : mapE f r = .ok (r.map g) := mapE_ok (fun b hb => h b (List.mem_cons_of_mem _ hb))
    simp only [ih, List.map_cons]

theorem verdict_judge {P : PyVal → Prop} {p : PyVal → Bool} {vals : List PyVal} (h : ∀ v ∈ vals, p v = true ↔ ¬ P v) :
    verdict (vals.filter p) = judge P vals := by
  classical
  have hf : vals.filter p = vals.filter fun v => decide ¬ P v := by
    apply List.filter_congr
    intro v hv
    have := h v hv
    by_cases hp : P v
    · have : p v = false := by cases hh : p v; rfl; exact absurd hp (this.1 hh)
      simp [this, hp]
    · simp [this.2 hp, hp]
  unfold verdict judge
  rw [hf]
  by_cases ha : ∀ v ∈ vals, P v
  · rw [if_pos ha, if_pos]
    rw [List.filter_eq_nil_iff]
    intro v hv
    simpa using ha v hv
  · rw [if_neg ha, if_neg]
    · intro e
      apply ha
      intro v hv
      have := List.filter_eq_nil_iff.1 e v hv
      simpa using this

/-! ## Ranges -/

theorem makeFloat_written {b : Bound} (h : b.OK) : makeFloat b.written = .ok b.limit := by
  cases b with
  | open_ => rfl
  | text n =>
    obtain ⟨h1, h2, h3⟩ := h
    have hd : n.text ≠ ['.'] := by
      intro e
      have hm := Number.matchNumb_text h1
      rw [e] at hm
      exact absurd hm (by
        have : Number.matchNumb ['.'] = none := by decide +kernel
        rw [this]; simp)
    simp only [Bound.written, makeFloat, if_neg hd, Number.pyFloat_text h1 h3 h2, Bound.limit]
  | number n =>
    obtain ⟨h1, h2, h3⟩ := h
    simp only [Bound.written, makeFloat, Number.pyFloat_text h1 h3 h2, Bound.limit]

theorem ranges_written : ∀ {bs : List (Bound × Bound)}, (∀ b ∈ bs, b.1.OK ∧ b.2.OK) →
    ranges (bs.map fun b => b.1.written) (bs.map fun b => b.2.written) = .ok (bs.map fun b => (b.1.limit, b.2.limit))
  | [], _ => rfl
  | b :: r, h => by
    have hb := h b (by simp)
    simp only [List.map_cons, ranges, makeFloat_written hb.1, makeFloat_written hb.2,
      ranges_written (fun c hc => h c (List.mem_cons_of_mem _ hc))]

theorem inRanges_iff (x : Rat) : ∀ bs : List (Bound × Bound),
    inRanges x (bs.map fun b => (b.1.limit, b.2.limit)) = true ↔ ∃ b ∈ bs, InInterval x b.1 b.2
  | [] => by simp [inRanges]
  | b :: r => by
    have ih := inRanges_iff x r
    have e1 : x - 1 < x := by grind
    have e2 : x < x + 1 := by grind
    have hst : InInterval x b.1 b.2 ↔ (x > b.1.limit.elim (x - 1) id ∧ x < b.2.limit.elim (x + 1) id) ∨
        (b.2.limit.elim (x + 1) id = b.1.limit.elim (x - 1) id ∧ x = b.2.limit.elim (x + 1) id) := by
      unfold InInterval
      cases b.1.limit <;> cases b.2.limit <;> simp [e1, e2] <;> grind
    simp only [List.map_cons, inRanges, List.mem_cons, exists_eq_or_imp, ← ih, hst]
    by_cases c1 : x > b.1.limit.elim (x - 1) id ∧ x < b.2.limit.elim (x + 1) id
    · simp [c1]
    · rw [if_neg c1]
      by_cases c2 : b.2.limit.elim (x + 1) id = b.1.limit.elim (x - 1) id ∧ x = b.2.limit.elim (x + 1) id
      · rw [if_pos c2]; exact iff_of_true rfl (.inl (.inr c2))
      · rw [if_neg c2]; simp [c1, c2]

theorem unstated_num {n : Numeral} (hn : n.WF) : ¬ Unstated (.str n.text) := by
  have hm := Number.matchNumb_text hn
  rintro (h | h)
  · injection h with h
    rw [h] at hm
    have e : Number.matchNumb ['.'] = none := by decide +kernel
    rw [e] at hm; cases hm
  · injection h with h
    rw [h] at hm
    have e : Number.matchNumb ['?'] = none := by decide +kernel
    rw [e] at hm; cases hm

open Classical in
/-- The test made of one value. -/
theorem rangeBad_numeric {bs : List (Bound × Bound)} {v : PyVal} (hv : Numeric v) :
    rangeBad (bs.map fun b => (b.1.limit, b.2.limit)) v = .ok (decide ¬ InRange bs v) := by
  rcases hv with hu | ⟨n, hn, rfl⟩
  · have : v = query ∨ v = dot := hu.symm
    rw [rangeBad, if_pos this]
    have : InRange bs v := .inl hu
    simp [this]
  · have hq : ¬ (PyVal.str n.text = query ∨ PyVal.str n.text = dot) := fun h => unstated_num hn h.symm
    rw [rangeBad, if_neg hq]
    simp only [Number.getNumber, C49_read n hn]
    have hir := inRanges_iff n.value bs
    have hiff : InRange bs (.str n.text) ↔ ∃ b ∈ bs, InInterval n.value b.1 b.2 := by
      constructor
      · rintro (h | ⟨m, hm, e, h⟩)
        · exact absurd h (unstated_num hn)
        · injection e with e
          have h1 := C49_read n hn
          rw [e, C49_read m hm] at h1
          injection h1 with h1
          injection h1 with h1 _
          injection h1 with h1
          rw [← h1]; exact h
      · intro h; exact .inr ⟨n, hn, rfl, h⟩
    congr 1
    by_cases c : ∃ b ∈ bs, InInterval n.value b.1 b.2
    · rw [hir.2 c]; simp [hiff.2 c]
    · have h1 : inRanges n.value (bs.map fun b => (b.1.limit, b.2.limit)) = false := by
        cases hh : inRanges n.value (bs.map fun b => (b.1.limit, b.2.limit))
        · rfl
        · exact absurd (hir.1 hh) c
      have h2 : ¬ InRange bs (.str n.text) := fun h => c (hiff.1 h)
      rw [h1]; simp [h2]

open Classical in
theorem rangeBad_text {bs : List (Bound × Bound)} {v : PyVal} (hv : Numeric v ∨ NoNumber v) :
    rangeBad (bs.map fun b => (b.1.limit, b.2.limit)) v = .ok (decide ¬ InRange bs v) := by
  rcases hv with hv | ⟨s, rfl, hs⟩
  · exact rangeBad_numeric hv
  · by_cases hu : Unstated (.str s)
    · exact rangeBad_numeric (.inl hu)
    · have hq : ¬ (PyVal.str s = query ∨ PyVal.str s = dot) := fun h => hu h.symm
      rcases C49_any s with ⟨h, -⟩ | ⟨n, r, hn, e, -⟩
      · have hr : ¬ InRange bs (.str s) := by
          rintro (h | ⟨n, hn, e, -⟩)
          · exact hu h
          · injection e with e
            exact hs n [] hn (by rw [List.append_nil]; exact e)
        rw [rangeBad, if_neg hq]
        simp [Number.getNumber, h, hr]
      · exact absurd e (hs n r hn)

open Classical in
theorem hasEsd_numeric {v : PyVal} (hv : Numeric v) :
    hasEsd v = .ok (decide ¬ (Unstated v ∨ ∃ n : Numeral, n.WF ∧ v = .str n.text ∧ n.uncertainty = none)) := by
  rcases hv with hu | ⟨n, hn, rfl⟩
  · have h : hasEsd v = .ok false := by
      rcases hu with h | h <;> subst h <;> decide +kernel
    rw [h]
    simp [hu]
  · rw [hasEsd, Number.getNumber, C49_read n hn]
    simp only
    have hiff : (Unstated (.str n.text) ∨ ∃ m : Numeral, m.WF ∧ PyVal.str n.text = .str m.text ∧ m.uncertainty = none) ↔ n.uncertainty = none := by
      constructor
      · rintro (h | ⟨m, hm, e, h⟩)
        · exact absurd h (unstated_num hn)
        · injection e with e
          have h1 := C49_read n hn
          rw [e, C49_read m hm] at h1
          injection h1 with h1
          injection h1 with _ h1
          rw [← h1]; exact h
      · intro h; exact .inr ⟨n, hn, rfl, h⟩
    congr 1
    cases hu : n.uncertainty with
    | none => have h := hiff.2 hu; simp only [h, not_true_eq_false, decide_false, Option.isSome_none]
    | some u =>
      have : ¬ (Unstated (.str n.text) ∨ ∃ m : Numeral, m.WF ∧ PyVal.str n.text = .str m.text ∧ m.uncertainty = none) := by
        rw [hiff, hu]; simp
      simp only [this, not_false_eq_true, decide_true, Option.isSome_some]

/-! ## DDL1 ranges -/

/-- An end of a DDL1 range. -/
def side : Option Numeral → Bound
  | none => .open_
  | some n => .number n

theorem text_no_colon {n : Numeral} (hn : n.WF) : ∀ c ∈ n.text, c ≠ ':' := by
  have hd : ∀ c, Digit c → c ≠ ':' := by
    rintro c h rfl
    exact absurd h.2 (by decide)
  intro c hc
  simp only [Numeral.text, List.mem_append] at hc
  rcases hc with (((hc | hc) | hc) | hc) | hc
  · split at hc
    · simp only [List.mem_singleton] at hc; subst hc; decide
    · cases hc
  · exact hd c (hn.int c hc)
  · cases hf : n.frac with
    | none => rw [hf] at hc; cases hc
    | some f =>
      rw [hf] at hc
      simp only [Numeral.fracText, List.mem_cons] at hc
      rcases hc with rfl | hc
      · decide
      · exact hd c (hn.frac f hf c hc)
  · cases hs : n.su with
    | none => rw [hs] at hc; cases hc
    | some u =>
      rw [hs] at hc
      simp only [Numeral.suText, List.cons_append, List.mem_cons, List.mem_append, List.not_mem_nil, or_false] at hc
      rcases hc with rfl | hc | rfl
      · decide
      · exact hd c ((hn.su u hs).2 c hc)
      · decide
  · cases he : n.exp with
    | none => rw [he] at hc; cases hc
    | some p =>
      obtain ⟨l, sg, ds⟩ := p
      obtain ⟨h1, h2, h3⟩ := hn.exp l sg ds he
      rw [he] at hc
      simp only [Numeral.expText, List.cons_append, List.mem_cons, List.mem_append] at hc
      rcases hc with rfl | hc | hc
      · rcases h1 with e | e | e | e <;> subst e <;> decide
      · cases sg <;> simp [Numeral.signText] at hc
        · subst hc; decide
        · subst hc; decide
      · exact hd c (h3 c hc)

theorem rangeNumber_text {n : Numeral} (h : Bound.FloatText n) : rangeNumber n.text = (some n.text, []) := by
  obtain ⟨hn, hs, _⟩ := h
  have hb := Number.matchBase_text hn
  rw [← Number.text_eq] at hb
  have ht : Number.tail n = Numeral.expText n.exp := by simp [Number.tail, hs, Numeral.suText]
  rw [rangeNumber, hb]
  simp only [ht, Number.matchExp_text hn]
  have : (Number.partsOf n).base ++ (Number.partsOf n).exp.getD [] = n.text := by
    rw [Number.text_eq, ht]
    cases he : n.exp <;> simp [Number.partsOf, he, Numeral.expText]
  rw [this]

theorem rangeNumber_nil : rangeNumber [] = (none, []) := rfl

theorem rangeBound_some {n : Numeral} (h : Bound.FloatText n) : rangeBound (some n.text) = .ok (.num n.text) := by
  obtain ⟨hn, hs, hl⟩ := h
  rw [rangeBound, Number.pyFloat_text hn hl hs]
  rfl

theorem rangeNumber_side {o : Option Numeral} (h : ∀ n, o = some n → Bound.FloatText n) :
    (rangeNumber (sideText o)).2 = [] ∧ rangeBound (rangeNumber (sideText o)).1 = .ok (side o).written := by
  cases o with
  | none => exact ⟨rfl, rfl⟩
  | some n =>
    rw [sideText, rangeNumber_text (h n rfl)]
    exact ⟨rfl, rangeBound_some (h n rfl)⟩

theorem getMaxMin_sides {lo hi : Option Numeral} (hl : ∀ n, lo = some n → Bound.FloatText n)
    (hh : ∀ n, hi = some n → Bound.FloatText n) :
    getMaxMin (sideText lo ++ ':' :: sideText hi) = .ok ((side hi).written, (side lo).written) := by
  have hc : ∀ c ∈ sideText lo, (c != ':') = true := by
    intro c hc
    cases lo with
    | none => cases hc
    | some n => simpa using text_no_colon (hl n rfl).1 c hc
  have htw : (sideText lo ++ ':' :: sideText hi).takeWhile (· != ':') = sideText lo := by
    rw [List.takeWhile_append_of_pos hc]; simp
  have hdw : (sideText lo ++ ':' :: sideText hi).dropWhile (· != ':') = ':' :: sideText hi := by
    rw [List.dropWhile_append_of_pos hc]; simp
  obtain ⟨h1, h2⟩ := rangeNumber_side hl
  obtain ⟨_, h4⟩ := rangeNumber_side hh
  rw [getMaxMin, hdw]
  simp only [htw, h1, h2, h4, ne_eq, not_true_eq_false, if_false]

/-- The intervals made from a DDL1 range. -/
def closedBounds (lo hi : Option Numeral) : List (Bound × Bound) :=
  match lo, hi with
  | none, h => [(side h, side h), (.open_, side h)]
  | some l, none => [(.number l, .open_), (.number l, .number l)]
  | some l, some h => [(.number h, .number h), (.number l, .number h), (.number l, .number l)]

theorem rangeColumns_sides (lo hi : Option Numeral) :
    rangeColumns (side hi).written (side lo).written =
      ((closedBounds lo hi).map fun p => p.2.written, (closedBounds lo hi).map fun p => p.1.written) := by
  cases lo <;> cases hi <;> rfl

theorem closedBounds_ok {lo hi : Option Numeral} (hl : ∀ n, lo = some n → Bound.FloatText n)
    (hh : ∀ n, hi = some n → Bound.FloatText n) : ∀ p ∈ closedBounds lo hi, p.1.OK ∧ p.2.OK := by
  intro p hp
  cases lo with
  | none =>
    cases hi with
    | none => simp [closedBounds, side] at hp; subst hp; exact ⟨trivial, trivial⟩
    | some h =>
      have := hh h rfl
      simp [closedBounds, side] at hp
      rcases hp with rfl | rfl <;> exact ⟨by first | exact this | trivial, this⟩
  | some l =>
    have h1 := hl l rfl
    cases hi with
    | none =>
      simp [closedBounds] at hp
      rcases hp with rfl | rfl <;> exact ⟨h1, by first | exact h1 | trivial⟩
    | some h =>
      have h2 := hh h rfl
      simp [closedBounds] at hp
      rcases hp with rfl | rfl | rfl <;> exact ⟨by assumption, by assumption⟩

theorem closedBounds_iff {lo hi : Option Numeral} (hle : ∀ l h, lo = some l → hi = some h → l.value ≤ h.value) (x : Rat) :
    (∃ p ∈ closedBounds lo hi, InInterval x p.1 p.2) ↔ (∀ l, lo = some l → l.value ≤ x) ∧ (∀ h, hi = some h → x ≤ h.value) := by
  cases lo with
  | none =>
    cases hi with
    | none => simp [closedBounds, side, InInterval, Bound.limit]
    | some h => simp [closedBounds, side, InInterval, Bound.limit]; grind
  | some l =>
    cases hi with
    | none => simp [closedBounds, InInterval, Bound.limit]; grind
    | some h =>
      have := hle l h rfl rfl
      simp [closedBounds, InInterval, Bound.limit]; grind

theorem closed_inRange {lo hi : Option Numeral} (hle : ∀ l h, lo = some l → hi = some h → l.value ≤ h.value) :
    InRange (closedBounds lo hi) = InClosed lo hi := by
  funext v
  simp only [InRange, InClosed, closedBounds_iff hle]

/-! ## Types -/

theorem lens_lineEnd (s : Str) : Rx.lens lineEnd s = if s = [] ∨ s.head? = some '\n' then [0] else [] := by
  cases s with
  | nil => rfl
  | cons c t =>
    simp only [lineEnd, Rx.lens, Rx.ch, if_true]
    by_cases h : c = '\n' <;> simp [h]

theorem construct_some {r : Rx} {s : Str} {k : Nat} (h : construct r s = some k) :
    k ∈ Rx.lens r s ∧ (s.drop k = [] ∨ (s.drop k).head? = some '\n') := by
  have := Rx.mem_of_matchLen h
  simp only [Rx.lens, List.mem_flatMap, List.mem_map] at this
  obtain ⟨a, ha, b, hb, e⟩ := this
  rw [lens_lineEnd] at hb
  split at hb
  · rename_i hc
    simp only [List.mem_singleton] at hb
    subst hb
    simp only [Nat.add_zero] at e
    subst e
    exact ⟨ha, hc⟩
  · cases hb

theorem construct_isSome {r : Rx} {s : Str} (h : s.length ∈ Rx.lens r s) : ∃ k, construct r s = some k := by
  unfold construct Rx.matchLen
  have : s.length ∈ Rx.lens (.seq r lineEnd) s := by
    simp only [Rx.lens, List.mem_flatMap, List.mem_map]
    refine ⟨s.length, h, 0, ?_, rfl⟩
    rw [lens_lineEnd, List.drop_length, if_pos (.inl rfl)]
    simp
  cases hl : Rx.lens (.seq r lineEnd) s with
  | nil => rw [hl] at this; cases this
  | cons a t => exact ⟨a, rfl⟩

theorem typeBad_construct {r : Rx} {s : Str} (hnl : '\n' ∉ s) :
    typeBad (construct r) (.str s) = .ok (decide (¬ (s = [] ∨ s.length ∈ Rx.lens r s))) := by
  rw [typeBad]
  cases h : construct r s with
  | none =>
    have : s.length ∉ Rx.lens r s := by
      intro hm
      obtain ⟨k, hk⟩ := construct_isSome hm
      rw [h] at hk; cases hk
    simp only [this, or_false]
    congr 2
    simp [eq_comm]
  | some k =>
    obtain ⟨h1, h2⟩ := construct_some h
    have hk : s.drop k = [] := by
      rcases h2 with h2 | h2
      · exact h2
      · exfalso
        apply hnl
        have : '\n' ∈ s.drop k := List.mem_of_head? h2
        exact List.mem_of_mem_drop this
    have hle : s.length ≤ k := by simpa using hk
    have hks : k ≤ s.length := Rx.lens_le _ _ _ h1
    have e : k = s.length := by omega
    subst e
    simp [h1]

theorem typeBad_good {r : Rx} {s : Str} (h : typeBad (construct r) (.str s) = .ok false) : s = [] ∨ s.length ∈ Rx.lens r s := by
  rw [typeBad] at h
  cases hc : construct r s with
  | none =>
    rw [hc] at h
    simp only [Except.ok.injEq, decide_eq_false_iff_not, ne_eq, Classical.not_not] at h
    exact .inl h.symm
  | some k =>
    rw [hc] at h
    simp only [Except.ok.injEq, decide_eq_false_iff_not, ne_eq, Classical.not_not] at h
    obtain ⟨h1, h2⟩ := construct_some hc
    have hks : k ≤ s.length := Rx.lens_le _ _ _ h1
    have : s.length ≤ k := by
      have := congrArg List.length h
      rw [List.length_take] at this
      omega
    have e : k = s.length := by omega
    rw [← e]; exact .inr h1

theorem select_nil {α : Type} {f : α → Except PyErr Bool} : ∀ {l : List α}, select f l = .ok [] → ∀ a ∈ l, f a = .ok false
  | [], _, a, ha => by cases ha
  | x :: r, h, a, ha => by
    rw [select] at h
    cases hx : f x with
    | error e => rw [hx] at h; cases h
    | ok t =>
      rw [hx] at h
      simp only at h
      cases hr : select f r with
      | error e => rw [hr] at h; cases h
      | ok s =>
        rw [hr] at h
        simp only [Except.ok.injEq] at h
        cases t with
        | true => simp at h
        | false =>
          simp at h
          subst h
          rcases List.mem_cons.1 ha with rfl | ha
          · exact hx
          · exact select_nil hr a ha

open Classical in
theorem typeBad_numb {s : Str} (h1 : s ≠ ['.']) (h2 : s ≠ ['?']) :
    typeBad numbConstruct (.str s) = .ok (decide ¬ (PyVal.str s = .str [] ∨ ∃ n : Numeral, n.WF ∧ PyVal.str s = .str n.text)) := by
  have hm := Number.matchLen_num s
  have hnum : numbConstruct s = match Number.matchNumb s with
      | some m => some (s.length - m.2.length)
      | none => Rx.matchLen (.alt (.ch '?') (.seq (.ch '.') lineEnd)) s := by
    unfold numbConstruct
    unfold Rx.matchLen at hm ⊢
    simp only [Rx.lens] at hm ⊢
    rw [List.head?_append, hm]
    cases Number.matchNumb s <;> rfl
  have hiff : (PyVal.str s = .str [] ∨ ∃ n : Numeral, n.WF ∧ PyVal.str s = .str n.text) ↔
      (s = [] ∨ ∃ m, Number.matchNumb s = some (m, [])) := by
    constructor
    · rintro (h | ⟨n, hn, h⟩)
      · injection h with h; exact .inl h
      · injection h with h
        exact .inr ⟨_, by rw [h, Number.matchNumb_text hn]⟩
    · rintro (h | ⟨m, h⟩)
      · exact .inl (by rw [h])
      · obtain ⟨n, hn, _, e⟩ := Number.matchNumb_some h
        exact .inr ⟨n, hn, by rw [e, List.append_nil]⟩
  rw [typeBad, hnum]
  cases hmn : Number.matchNumb s with
  | some m =>
    obtain ⟨m, r⟩ := m
    obtain ⟨n, hn, _, e⟩ := Number.matchNumb_some hmn
    simp only
    congr 1
    rw [decide_eq_decide, hiff, hmn]
    have hlen : s.length = n.text.length + r.length := by rw [e, List.length_append]
    have ht : s.take (s.length - r.length) = n.text := by
      rw [hlen, Nat.add_sub_cancel, e, List.take_left]
    rw [ht]
    have hsn : s ≠ [] := by
      rintro rfl
      have : Number.matchNumb [] = none := by decide +kernel
      rw [this] at hmn; cases hmn
    constructor
    · rintro h (h' | ⟨m', h'⟩)
      · exact hsn h'
      · simp only [Option.some.injEq, Prod.mk.injEq] at h'
        apply h
        rw [e, h'.2, List.append_nil]
    · intro h he
      apply h
      right
      refine ⟨m, ?_⟩
      have : r = [] := by
        rw [e] at he
        have := congrArg List.length he
        rw [List.length_append] at this
        exact List.length_eq_zero_iff.1 (by omega)
      rw [this]
  | none =>
    simp only
    have hno : ¬ ∃ m, Number.matchNumb s = some (m, []) := by rw [hmn]; simp
    have hd : decide (¬ (PyVal.str s = .str [] ∨ ∃ n : Numeral, n.WF ∧ PyVal.str s = .str n.text)) = decide ([] ≠ s) := by
      rw [decide_eq_decide, hiff]
      simp only [hno, or_false]
      exact ⟨fun h e => h e.symm, fun h e => h e.symm⟩
    rw [hd]
    cases hq : Rx.matchLen (.alt (.ch '?') (.seq (.ch '.') lineEnd)) s with
    | none => rfl
    | some k =>
      simp only
      have hk := Rx.mem_of_matchLen hq
      have hk1 : k = 1 ∧ s.head? = some '?' ∨ k = 1 ∧ s.head? = some '.' := by
        cases s with
        | nil => simp [Rx.lens, Rx.ch] at hk
        | cons c t =>
          simp only [Rx.lens, Rx.ch, List.mem_append, List.mem_flatMap, List.mem_map] at hk
          rcases hk with hk | ⟨a, ha, b, hb, e⟩
          · split at hk
            · rename_i hc; left; simp at hk hc; simp [hk, hc]
            · cases hk
          · split at ha
            · rename_i hc
              right
              rw [lens_lineEnd] at hb
              split at hb
              · simp at ha hb hc; simp [hc]; omega
              · cases hb
            · cases ha
      congr 1
      rw [decide_eq_decide]
      cases s with
      | nil => simp at hk1
      | cons c t =>
        have ht : t ≠ [] := by
          rintro rfl
          rcases hk1 with ⟨_, h⟩ | ⟨_, h⟩
          · simp at h; subst h; exact h2 rfl
          · simp at h; subst h; exact h1 rfl
        have e : k = 1 := by rcases hk1 with h | h <;> exact h.1
        subst e
        simp [Ne.symm ht]

end Validate
end Verif
