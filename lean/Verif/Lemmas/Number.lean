import Verif.Model.Number
import Verif.Spec.Number
import Verif.Lemmas.Match
/-! # Numbers: lemmas -/
namespace Verif
open Spec
namespace Number

theorem isDigit_iff {c : Char} : isDigit c = true ↔ Digit c := by
  simp [isDigit, Digit]

theorem isDigit_false {c : Char} (h : c = '-' ∨ c = '+' ∨ c = '.' ∨ c = '(' ∨ c = ')' ∨ c = 'e' ∨ c = 'E' ∨ c = 'd' ∨ c = 'D') : isDigit c = false := by
  rcases h with h | h | h | h | h | h | h | h | h <;> subst h <;> decide

theorem digit_ne {c : Char} (h : Digit c) : c ≠ '-' ∧ c ≠ '+' ∧ c ≠ '.' ∧ c ≠ '(' ∧ c ≠ ')' ∧ c ≠ 'e' ∧ c ≠ 'E' ∧ c ≠ 'd' ∧ c ≠ 'D' := by
  have h' := isDigit_iff.2 h
  refine ⟨?_, ?_, ?_, ?_, ?_, ?_, ?_, ?_, ?_⟩ <;> intro e <;> subst e <;> revert h' <;> decide

theorem digit_space {c : Char} (h : Digit c) : isSpace c = false := by
  have h1 : 48 ≤ c.toNat := h.1
  have h2 : c.toNat ≤ 57 := h.2
  unfold isSpace
  simp only [Bool.or_eq_false_iff, Bool.and_eq_false_iff, decide_eq_false_iff_not, beq_eq_false_iff_ne]
  omega

/-- The text does not start with a digit. -/
def Stops (s : Str) : Prop := ∀ c t, s = c :: t → isDigit c = false

theorem takeWhile_digits {ds rest : Str} (hd : ∀ c ∈ ds, Digit c) (hr : Stops rest) : (ds ++ rest).takeWhile isDigit = ds := by
  induction ds with
  | nil =>
    cases rest with
    | nil => rfl
    | cons c t => simp [hr c t rfl]
  | cons c r ih => simp [isDigit_iff.2 (hd c (by simp)), ih (fun x hx => hd x (by simp [hx]))]

theorem dropWhile_digits {ds rest : Str} (hd : ∀ c ∈ ds, Digit c) (hr : Stops rest) : (ds ++ rest).dropWhile isDigit = rest := by
  induction ds with
  | nil =>
    cases rest with
    | nil => rfl
    | cons c t => simp [hr c t rfl]
  | cons c r ih => simp [isDigit_iff.2 (hd c (by simp)), ih (fun x hx => hd x (by simp [hx]))]

theorem stops_nil : Stops [] := fun _ _ h => by cases h

theorem takeWhile_all {ds : Str} (hd : ∀ c ∈ ds, Digit c) : ds.takeWhile isDigit = ds := by
  have := takeWhile_digits hd stops_nil
  simpa using this

theorem dropWhile_all {ds : Str} (hd : ∀ c ∈ ds, Digit c) : ds.dropWhile isDigit = [] := by
  have := dropWhile_digits hd stops_nil
  simpa using this

theorem foldl_digits (ds : Str) : ∀ n, ds.foldl (fun n c => 10 * n + (c.toNat - 48)) n = n * 10 ^ ds.length + digitsValue ds := by
  induction ds with
  | nil => intro n; simp [digitsValue]
  | cons c r ih =>
    intro n
    rw [List.foldl_cons, ih, digitsValue, List.length_cons, Nat.pow_succ]
    have : '0'.toNat = 48 := rfl
    rw [this, Nat.add_mul]
    have h2 : 10 * n * 10 ^ r.length = n * (10 ^ r.length * 10) := by
      rw [Nat.mul_comm 10 n, Nat.mul_assoc, Nat.mul_comm 10]
    omega

theorem natOf_eq (ds : Str) : natOf ds = digitsValue ds := by
  rw [natOf, foldl_digits]; simp

theorem strip_id {s : Str} (h : ∀ c ∈ s, isSpace c = false) : strip s = s := by
  have key : ∀ t : Str, (∀ c ∈ t, isSpace c = false) → t.dropWhile isSpace = t := by
    intro t ht
    cases t with
    | nil => rfl
    | cons c r => simp [ht c (by simp)]
  rw [strip, key s h, key s.reverse (by simpa using h), List.reverse_reverse]

theorem splitSign_none {s : Str} (h : ∀ c t, s = c :: t → c ≠ '-' ∧ c ≠ '+') : splitSign s = (false, s) := by
  cases s with
  | nil => rfl
  | cons c r =>
    have := h c r rfl
    simp [splitSign, this.1, this.2]

/-- The exponent read as a number. -/
theorem splitSign_exp (s : ExpSign) {ds : Str} (hd : ∀ c ∈ ds, Digit c) :
    splitSign (Numeral.signText s ++ ds) = ((match s with | .minus => true | _ => false), ds) := by
  cases s with
  | none =>
    apply splitSign_none
    intro c t h
    have hc : c ∈ ds := by
      have : ds = c :: t := by simpa [Numeral.signText] using h
      rw [this]; simp
    have := digit_ne (hd c hc)
    exact ⟨this.1, this.2.1⟩
  | plus => rfl
  | minus => rfl

theorem expText_stops {e : Option (Char × ExpSign × Str)} (he : ∀ l s ds, e = some (l, s, ds) → (l = 'e' ∨ l = 'E' ∨ l = 'd' ∨ l = 'D')) :
    Stops (Numeral.expText e) := by
  intro c t h
  cases e with
  | none => cases h
  | some p =>
    obtain ⟨l, s, ds⟩ := p
    simp only [Numeral.expText, List.cons_append, List.cons.injEq] at h
    rw [← h.1]
    apply isDigit_false
    rcases he l s ds rfl with h | h | h | h <;> simp [h]

/-- `floatExp` of a written exponent. -/
theorem floatExp_text {n : Numeral} (hn : n.WF) (hl : ∀ l s ds, n.exp = some (l, s, ds) → l = 'e' ∨ l = 'E') :
    floatExp (Numeral.expText n.exp) = some n.power := by
  cases he : n.exp with
  | none => simp [Numeral.expText, floatExp, Numeral.power, he]
  | some p =>
    obtain ⟨l, s, ds⟩ := p
    obtain ⟨_, h2, h3⟩ := hn.exp l s ds he
    simp only [Numeral.expText, List.cons_append, floatExp]
    rw [if_pos (hl l s ds he), splitSign_exp s h3]
    have hall : ds.all isDigit = true := by
      rw [List.all_eq_true]; exact fun c hc => isDigit_iff.2 (h3 c hc)
    simp only [hall, h2, ne_eq, not_false_eq_true, and_self, if_true]
    cases s <;> simp [signed, natOf_eq, Numeral.power, he]

/-- `float` of a numeral without a bracket. -/
theorem pyFloat_text {n : Numeral} (hn : n.WF) (hl : ∀ l s ds, n.exp = some (l, s, ds) → l = 'e' ∨ l = 'E')
    (hs : n.su = none) : pyFloat n.text = some n.value := by
  have hsp : ∀ c ∈ n.text, isSpace c = false := by
    intro c hc
    simp only [Numeral.text, hs, Numeral.suText, List.append_nil, List.mem_append] at hc
    rcases hc with ((hc | hc) | hc) | hc
    · split at hc
      · simp at hc; subst hc; decide
      · cases hc
    · exact digit_space (hn.int c hc)
    · cases hf : n.frac with
      | none => rw [hf] at hc; cases hc
      | some f =>
        rw [hf] at hc
        simp only [Numeral.fracText, List.mem_cons] at hc
        rcases hc with h | h
        · subst h; decide
        · exact digit_space (hn.frac f hf c h)
    · cases he : n.exp with
      | none => rw [he] at hc; cases hc
      | some p =>
        obtain ⟨l, s, ds⟩ := p
        rw [he] at hc
        simp only [Numeral.expText, List.cons_append, List.mem_cons, List.mem_append] at hc
        rcases hc with h | h | h
        · rcases hl l s ds he with e | e <;> subst e <;> subst h <;> decide
        · cases s <;> simp [Numeral.signText] at h <;> subst h <;> decide
        · exact digit_space ((hn.exp l s ds he).2.2 c h)
  have hstop : Stops (Numeral.expText n.exp) := expText_stops (fun l s ds h => (hn.exp l s ds h).1)
  have hstop2 : Stops (Numeral.fracText n.frac ++ Numeral.expText n.exp) := by
    cases hf : n.frac with
    | none => simpa [Numeral.fracText] using hstop
    | some f =>
      intro c t h
      simp only [Numeral.fracText, List.cons_append, List.cons.injEq] at h
      rw [← h.1]; decide
  have hsign : splitSign n.text = (n.neg, n.int ++ (Numeral.fracText n.frac ++ Numeral.expText n.exp)) := by
    simp only [Numeral.text, hs, Numeral.suText, List.append_nil, List.append_assoc]
    cases n.neg with
    | true => rfl
    | false =>
      apply splitSign_none
      intro c t h
      rw [if_neg (by simp), List.nil_append] at h
      cases hi : n.int with
      | cons x r =>
        rw [hi, List.cons_append, List.cons.injEq] at h
        have := digit_ne (hn.int x (by rw [hi]; simp))
        rw [← h.1]; exact ⟨this.1, this.2.1⟩
      | nil =>
        rw [hi, List.nil_append] at h
        rcases hn.some_digit with e | ⟨f, hf, _⟩
        · exact absurd hi e
        · rw [hf] at h
          simp only [Numeral.fracText, List.cons_append, List.cons.injEq] at h
          rw [← h.1]; decide
  have hfrac : floatFrac (Numeral.fracText n.frac ++ Numeral.expText n.exp) = (n.places, Numeral.expText n.exp) := by
    cases hf : n.frac with
    | none =>
      simp only [Numeral.fracText, List.nil_append, Numeral.places, hf, Option.getD]
      cases he : n.exp with
      | none => rfl
      | some p =>
        obtain ⟨l, s, ds⟩ := p
        simp only [Numeral.expText, List.cons_append, floatFrac]
        rw [if_neg]
        rcases hl l s ds he with e | e <;> subst e <;> decide
    | some f =>
      simp only [Numeral.fracText, List.cons_append, floatFrac, if_true, Numeral.places, hf, Option.getD]
      rw [takeWhile_digits (hn.frac f hf) hstop, dropWhile_digits (hn.frac f hf) hstop]
  have hne : n.int ++ n.places ≠ [] := by
    rcases hn.some_digit with e | ⟨f, hf, hne⟩
    · simp [e]
    · simp [Numeral.places, hf, hne]
  unfold pyFloat
  simp only [strip_id hsp, hsign]
  rw [takeWhile_digits hn.int hstop2, dropWhile_digits hn.int hstop2, hfrac]
  simp only [hne, if_false, floatExp_text hn hl]
  rw [natOf_eq]; rfl

/-- `float` of digits. -/
theorem pyFloat_digits {ds : Str} (hne : ds ≠ []) (hd : ∀ c ∈ ds, Digit c) : pyFloat ds = some (digitsValue ds : Rat) := by
  have := pyFloat_text (n := ⟨false, ds, none, none, none⟩)
    ⟨hd, (fun f h => by cases h), .inl hne, (fun f h => by cases h), (fun l s ds h => by cases h)⟩ (fun l s ds h => by cases h) rfl
  simp only [Numeral.text, Numeral.fracText, Numeral.suText, Numeral.expText, List.append_nil] at this
  simp only [Bool.false_eq_true, if_false, List.nil_append] at this
  rw [this]
  simp [Numeral.value, Numeral.places, Numeral.power, Rat.one_mul]

/-! ## What is matched -/

/-- The captures for a numeral. -/
def partsOf (n : Numeral) : Parts where
  base := (if n.neg then ['-'] else []) ++ n.int ++ Numeral.fracText n.frac
  dad := n.frac.bind fun f => if f = [] then none else some f
  esd := n.su
  exp := n.exp.map fun p => p.1 :: Numeral.signText p.2.1 ++ p.2.2

theorem exp_text (e : Option (Char × ExpSign × Str)) : Numeral.expText e = (e.map fun p => p.1 :: Numeral.signText p.2.1 ++ p.2.2).elim [] id := by
  cases e <;> rfl

/-- Text after the mantissa. -/
def tail (n : Numeral) : Str := Numeral.suText n.su ++ Numeral.expText n.exp

theorem tail_stops {n : Numeral} (hn : n.WF) : Stops (tail n) := by
  cases hs : n.su with
  | none =>
    simp only [tail, hs, Numeral.suText, List.nil_append]
    exact expText_stops (fun l s ds h => (hn.exp l s ds h).1)
  | some u =>
    intro c t h
    simp only [tail, hs, Numeral.suText, List.cons_append, List.cons.injEq] at h
    rw [← h.1]; decide

theorem tail_point {n : Numeral} (hn : n.WF) : ∀ c t, tail n = c :: t → c ≠ '.' := by
  intro c t h
  cases hs : n.su with
  | none =>
    simp only [tail, hs, Numeral.suText, List.nil_append] at h
    cases he : n.exp with
    | none => rw [he] at h; cases h
    | some p =>
      obtain ⟨l, s, ds⟩ := p
      rw [he] at h
      simp only [Numeral.expText, List.cons_append, List.cons.injEq] at h
      rw [← h.1]
      rcases (hn.exp l s ds he).1 with e | e | e | e <;> subst e <;> decide
  | some u =>
    simp only [tail, hs, Numeral.suText, List.cons_append, List.cons.injEq] at h
    rw [← h.1]; decide

theorem matchBody_text {n : Numeral} (hn : n.WF) :
    matchBody (n.int ++ (Numeral.fracText n.frac ++ tail n)) = some (n.int ++ Numeral.fracText n.frac, (partsOf n).dad, tail n) := by
  have hst := tail_stops hn
  have hst2 : Stops (Numeral.fracText n.frac ++ tail n) := by
    cases hf : n.frac with
    | none => simpa [Numeral.fracText] using hst
    | some f =>
      intro c t h
      simp only [Numeral.fracText, List.cons_append, List.cons.injEq] at h
      rw [← h.1]; decide
  unfold matchBody
  simp only [takeWhile_digits hn.int hst2, dropWhile_digits hn.int hst2]
  cases hf : n.frac with
  | none =>
    have hi : n.int ≠ [] := by
      rcases hn.some_digit with h | ⟨f, h, _⟩
      · exact h
      · rw [hf] at h; cases h
    simp only [Numeral.fracText, List.nil_append, List.append_nil, partsOf, hf, Option.bind_none]
    cases ht : tail n with
    | nil => simp [hi]
    | cons c t => simp [hi, tail_point hn c t ht]
  | some f =>
    simp only [Numeral.fracText, List.cons_append, partsOf, hf, Option.bind_some, if_true]
    rw [takeWhile_digits (hn.frac f hf) hst, dropWhile_digits (hn.frac f hf) hst]
    by_cases hfe : f = []
    · have hi : n.int ≠ [] := by
        rcases hn.some_digit with h | ⟨g, h, hg⟩
        · exact h
        · rw [hf] at h; cases h; exact absurd hfe hg
      simp [hfe, hi]
    · simp [hfe]

theorem matchBase_text {n : Numeral} (hn : n.WF) :
    matchBase ((if n.neg then ['-'] else []) ++ (n.int ++ (Numeral.fracText n.frac ++ tail n))) =
      some ((partsOf n).base, (partsOf n).dad, tail n) := by
  cases hneg : n.neg with
  | true =>
    simp only [if_true, List.cons_append, List.nil_append, matchBase]
    rw [matchBody_text hn]
    simp [partsOf, hneg]
  | false =>
    rw [if_neg (by simp), List.nil_append]
    have : matchBase (n.int ++ (Numeral.fracText n.frac ++ tail n)) = matchBody (n.int ++ (Numeral.fracText n.frac ++ tail n)) := by
      generalize hw : n.int ++ (Numeral.fracText n.frac ++ tail n) = w
      cases w with
      | nil => rfl
      | cons c t =>
        have hc : c ≠ '-' := by
          cases hi : n.int with
          | cons x r =>
            rw [hi, List.cons_append, List.cons.injEq] at hw
            rw [← hw.1]; exact (digit_ne (hn.int x (by rw [hi]; simp))).1
          | nil =>
            rw [hi, List.nil_append] at hw
            rcases hn.some_digit with e | ⟨f, hf, _⟩
            · exact absurd hi e
            · rw [hf] at hw
              simp only [Numeral.fracText, List.cons_append, List.cons.injEq] at hw
              rw [← hw.1]; decide
        simp [matchBase, hc]
    rw [this, matchBody_text hn]
    simp [partsOf, hneg]

theorem matchEsd_text {n : Numeral} (hn : n.WF) : matchEsd (tail n) = (n.su, Numeral.expText n.exp) := by
  cases hs : n.su with
  | none =>
    simp only [tail, hs, Numeral.suText, List.nil_append]
    cases he : n.exp with
    | none => rfl
    | some p =>
      obtain ⟨l, s, ds⟩ := p
      simp only [Numeral.expText, List.cons_append, matchEsd]
      rw [if_neg]
      rintro ⟨h, _⟩
      rcases (hn.exp l s ds he).1 with e | e | e | e <;> subst e <;> revert h <;> decide
  | some u =>
    have hu := hn.su u hs
    have hst : Stops (')' :: Numeral.expText n.exp) := by
      intro c t h
      simp only [List.cons.injEq] at h
      rw [← h.1]; decide
    simp only [tail, hs, Numeral.suText, List.cons_append, List.append_assoc, List.nil_append, matchEsd]
    rw [takeWhile_digits hu.2 hst, dropWhile_digits hu.2 hst]
    simp [hu.1]

theorem optSign_text (s : ExpSign) {ds : Str} (hd : ∀ c ∈ ds, Digit c) : optSign (Numeral.signText s ++ ds) = (Numeral.signText s, ds) := by
  cases s with
  | none =>
    simp only [Numeral.signText, List.nil_append]
    cases ds with
    | nil => rfl
    | cons c t =>
      have := digit_ne (hd c (by simp))
      simp [optSign, this.1, this.2.1]
  | plus => rfl
  | minus => rfl

theorem matchExp_text {n : Numeral} (hn : n.WF) : matchExp (Numeral.expText n.exp) = ((partsOf n).exp, []) := by
  cases he : n.exp with
  | none => simp [Numeral.expText, matchExp, partsOf, he]
  | some p =>
    obtain ⟨l, s, ds⟩ := p
    obtain ⟨h1, h2, h3⟩ := hn.exp l s ds he
    simp only [Numeral.expText, List.cons_append, matchExp, optSign_text s h3, takeWhile_all h3, dropWhile_all h3, partsOf, he,
      Option.map_some]
    rw [if_pos ⟨h1, h2⟩]

theorem text_eq (n : Numeral) : n.text = (if n.neg then ['-'] else []) ++ (n.int ++ (Numeral.fracText n.frac ++ tail n)) := by
  simp [Numeral.text, tail]

theorem matchNumb_text {n : Numeral} (hn : n.WF) : matchNumb n.text = some (partsOf n, []) := by
  rw [text_eq, matchNumb, matchBase_text hn]
  simp only [matchEsd_text hn, matchExp_text hn]
  rfl

/-! ## Every match is a numeral -/

theorem all_takeWhile (s : Str) : ∀ c ∈ s.takeWhile isDigit, Digit c := by
  induction s with
  | nil => intro c h; cases h
  | cons x r ih =>
    intro c h
    rw [List.takeWhile_cons] at h
    split at h
    · rename_i hx
      rcases List.mem_cons.1 h with e | e
      · subst e; exact isDigit_iff.1 hx
      · exact ih c e
    · cases h

theorem matchBody_some {s b : Str} {dad : Option Str} {r : Str} (h : matchBody s = some (b, dad, r)) :
    ∃ (ip : Str) (frac : Option Str), (∀ c ∈ ip, Digit c) ∧ (∀ f, frac = some f → ∀ c ∈ f, Digit c) ∧
      (ip ≠ [] ∨ ∃ f, frac = some f ∧ f ≠ []) ∧ b = ip ++ Numeral.fracText frac ∧
      dad = (frac.bind fun f => if f = [] then none else some f) ∧ s = b ++ r := by
  unfold matchBody at h
  have hs := List.takeWhile_append_dropWhile (p := isDigit) (l := s)
  cases hd : s.dropWhile isDigit with
  | nil =>
    rw [hd] at h hs
    simp only [ne_eq, ite_not] at h
    split at h
    · cases h
    · rename_i hne
      cases h
      exact ⟨s.takeWhile isDigit, none, all_takeWhile s, (fun f h => by cases h), .inl hne, by simp [Numeral.fracText], rfl, by simpa using hs.symm⟩
  | cons c t =>
    rw [hd] at h hs
    simp only at h
    split at h
    · rename_i hc
      subst hc
      have ht := List.takeWhile_append_dropWhile (p := isDigit) (l := t)
      split at h
      · rename_i hne
        cases h
        refine ⟨s.takeWhile isDigit, some (t.takeWhile isDigit), all_takeWhile s, (fun f h => by cases h; exact all_takeWhile t),
          .inr ⟨_, rfl, hne⟩, rfl, by simp [hne], ?_⟩
        rw [List.append_assoc, List.cons_append, ht, hs]
      · split at h
        · rename_i hne
          cases h
          refine ⟨s.takeWhile isDigit, some [], all_takeWhile s, (fun f h => by cases h; intro c hc; cases hc), .inl hne, rfl, rfl, ?_⟩
          rw [List.append_assoc, List.cons_append, List.nil_append, hs]
        · cases h
    · split at h
      · rename_i hne
        cases h
        exact ⟨s.takeWhile isDigit, none, all_takeWhile s, (fun f h => by cases h), .inl hne, by simp [Numeral.fracText], rfl, hs.symm⟩
      · cases h

theorem matchBase_some {s b : Str} {dad : Option Str} {r : Str} (h : matchBase s = some (b, dad, r)) :
    ∃ (neg : Bool) (ip : Str) (frac : Option Str), (∀ c ∈ ip, Digit c) ∧ (∀ f, frac = some f → ∀ c ∈ f, Digit c) ∧
      (ip ≠ [] ∨ ∃ f, frac = some f ∧ f ≠ []) ∧ b = (if neg then ['-'] else []) ++ ip ++ Numeral.fracText frac ∧
      dad = (frac.bind fun f => if f = [] then none else some f) ∧ s = b ++ r := by
  cases s with
  | nil =>
    obtain ⟨ip, frac, h1, h2, h3, h4, h5, h6⟩ := matchBody_some (s := []) h
    exact ⟨false, ip, frac, h1, h2, h3, by simpa using h4, h5, h6⟩
  | cons c t =>
    rw [matchBase] at h
    split at h
    · rename_i hc
      subst hc
      cases hm : matchBody t with
      | none => rw [hm] at h; cases h
      | some m =>
        rw [hm] at h
        obtain ⟨b', d', r'⟩ := m
        cases h
        obtain ⟨ip, frac, h1, h2, h3, h4, h5, h6⟩ := matchBody_some hm
        exact ⟨true, ip, frac, h1, h2, h3, by simp [h4], h5, by simp [h6]⟩
    · obtain ⟨ip, frac, h1, h2, h3, h4, h5, h6⟩ := matchBody_some h
      exact ⟨false, ip, frac, h1, h2, h3, by simpa using h4, h5, h6⟩

theorem matchEsd_some (s : Str) : s = Numeral.suText (matchEsd s).1 ++ (matchEsd s).2 ∧
    ∀ u, (matchEsd s).1 = some u → u ≠ [] ∧ ∀ c ∈ u, Digit c := by
  cases s with
  | nil => exact ⟨rfl, (fun u h => by cases h)⟩
  | cons c t =>
    rw [matchEsd]
    split
    · rename_i h
      obtain ⟨h1, h2, h3⟩ := h
      subst h1
      refine ⟨?_, (fun u h => by cases h; exact ⟨h2, all_takeWhile t⟩)⟩
      have ht := List.takeWhile_append_dropWhile (p := isDigit) (l := t)
      cases hd : t.dropWhile isDigit with
      | nil => rw [hd] at h3; cases h3
      | cons x r =>
        rw [hd] at h3 ht
        simp only [List.head?_cons, Option.some.injEq] at h3
        subst h3
        simp only [Numeral.suText, List.cons_append, List.append_assoc, List.nil_append, List.drop_succ_cons, List.drop_zero]
        rw [ht]
    · exact ⟨rfl, (fun u h => by cases h)⟩

theorem optSign_some (s : Str) : ∃ sg, (optSign s).1 = Numeral.signText sg ∧ s = Numeral.signText sg ++ (optSign s).2 := by
  cases s with
  | nil => exact ⟨.none, rfl, rfl⟩
  | cons c t =>
    rw [optSign]
    split
    · rename_i h
      rcases h with h | h <;> subst h
      · exact ⟨.plus, rfl, rfl⟩
      · exact ⟨.minus, rfl, rfl⟩
    · exact ⟨.none, rfl, rfl⟩

theorem matchExp_some (s : Str) : ∃ e : Option (Char × ExpSign × Str),
    (∀ l sg ds, e = some (l, sg, ds) → (l = 'e' ∨ l = 'E' ∨ l = 'd' ∨ l = 'D') ∧ ds ≠ [] ∧ ∀ c ∈ ds, Digit c) ∧
    (matchExp s).1 = (e.map fun p => p.1 :: Numeral.signText p.2.1 ++ p.2.2) ∧ s = Numeral.expText e ++ (matchExp s).2 := by
  cases s with
  | nil => exact ⟨none, (fun l sg ds h => by cases h), rfl, rfl⟩
  | cons c t =>
    rw [matchExp]
    split
    · rename_i h
      obtain ⟨h1, h2⟩ := h
      obtain ⟨sg, h3, h4⟩ := optSign_some t
      refine ⟨some (c, sg, (optSign t).2.takeWhile isDigit), (fun l sg' ds h => by cases h; exact ⟨h1, h2, all_takeWhile _⟩), by simp [h3], ?_⟩
      simp only [Numeral.expText, List.cons_append, List.append_assoc, List.takeWhile_append_dropWhile]
      rw [← h4]
    · exact ⟨none, (fun l sg ds h => by cases h), rfl, rfl⟩

theorem matchNumb_some {s : Str} {m : Parts} {r : Str} (h : matchNumb s = some (m, r)) : ∃ n : Numeral, n.WF ∧ m = partsOf n ∧ s = n.text ++ r := by
  rw [matchNumb] at h
  cases hb : matchBase s with
  | none => rw [hb] at h; cases h
  | some b =>
    rw [hb] at h
    obtain ⟨b, dad, r0⟩ := b
    simp only [Option.some.injEq, Prod.mk.injEq] at h
    obtain ⟨h1, h2⟩ := h
    obtain ⟨neg, ip, frac, a1, a2, a3, a4, a5, a6⟩ := matchBase_some hb
    obtain ⟨b1, b2⟩ := matchEsd_some r0
    obtain ⟨e, c1, c2, c3⟩ := matchExp_some (matchEsd r0).2
    refine ⟨⟨neg, ip, frac, (matchEsd r0).1, e⟩, ⟨a1, a2, a3, b2, c1⟩, ?_, ?_⟩
    · rw [← h1]
      simp [partsOf, a4, a5, c2]
    · simp only [Numeral.text]
      rw [a6, a4, ← h2, List.append_assoc _ (Numeral.expText e), ← c3, List.append_assoc _ (Numeral.suText _), ← b1]

/-! ## The value -/

/-- The numeral `float` is applied to. -/
def bare (n : Numeral) : Numeral := { n with su := none, exp := n.exp.map fun p => (if p.1 = 'd' ∨ p.1 = 'D' then 'e' else p.1, p.2) }

theorem bare_wf {n : Numeral} (hn : n.WF) : (bare n).WF where
  int := hn.int
  frac := hn.frac
  some_digit := hn.some_digit
  su := fun u h => by cases h
  exp := by
    intro l s ds h
    simp only [bare] at h
    cases he : n.exp with
    | none => rw [he] at h; cases h
    | some p =>
      rw [he] at h
      obtain ⟨l0, s0, d0⟩ := p
      simp only [Option.map_some, Option.some.injEq, Prod.mk.injEq] at h
      obtain ⟨h1, h2, h3⟩ := h
      subst h2; subst h3
      obtain ⟨e1, e2⟩ := hn.exp l0 s0 d0 he
      refine ⟨?_, e2⟩
      rw [← h1]
      rcases e1 with e | e | e | e <;> subst e <;> simp

theorem bare_letter {n : Numeral} (hn : n.WF) : ∀ l s ds, (bare n).exp = some (l, s, ds) → l = 'e' ∨ l = 'E' := by
  intro l s ds h
  simp only [bare] at h
  cases he : n.exp with
  | none => rw [he] at h; cases h
  | some p =>
    rw [he] at h
    obtain ⟨l0, s0, d0⟩ := p
    simp only [Option.map_some, Option.some.injEq, Prod.mk.injEq] at h
    rw [← h.1]
    rcases (hn.exp l0 s0 d0 he).1 with e | e | e | e <;> subst e <;> simp

theorem bare_power (n : Numeral) : (bare n).power = n.power := by
  simp only [Numeral.power, bare]
  cases n.exp with
  | none => rfl
  | some p => obtain ⟨l, s, ds⟩ := p; cases s <;> rfl

theorem bare_value (n : Numeral) : (bare n).value = n.value := by
  rw [Numeral.value, Numeral.value, bare_power]; rfl

theorem replaceD_digits {ds : Str} (hd : ∀ c ∈ ds, Digit c) : replaceD ds = ds := by
  rw [replaceD]
  conv => rhs; rw [← List.map_id ds]
  apply List.map_congr_left
  intro c hc
  have := digit_ne (hd c hc)
  simp [this.2.2.2.2.2.2.2.1, this.2.2.2.2.2.2.2.2]

theorem replaceD_exp {n : Numeral} (hn : n.WF) {l : Char} {s : ExpSign} {ds : Str} (he : n.exp = some (l, s, ds)) :
    replaceD (l :: Numeral.signText s ++ ds) = (if l = 'd' ∨ l = 'D' then 'e' else l) :: Numeral.signText s ++ ds := by
  have hd := (hn.exp l s ds he).2.2
  have h1 := replaceD_digits hd
  unfold replaceD at h1 ⊢
  rw [List.cons_append, List.map_cons, List.map_append, h1]
  cases s <;> rfl

theorem bare_text {n : Numeral} (hn : n.WF) : (bare n).text = withExp (partsOf n).base (partsOf n).exp := by
  cases he : n.exp with
  | none => simp [withExp, bare, Numeral.text, partsOf, he, Numeral.suText, Numeral.expText]
  | some p =>
    obtain ⟨l, s, ds⟩ := p
    have := replaceD_exp hn he
    simp only [withExp, bare, Numeral.text, partsOf, he, Numeral.suText, Numeral.expText, Option.map_some]
    rw [this]
    simp

theorem ten_ne : (10 : Rat) ≠ 0 := by decide

theorem evaluate_parts {n : Numeral} (hn : n.WF) : evaluate (partsOf n) = .ok (some n.value, n.uncertainty) := by
  have hfl : pyFloat (withExp (partsOf n).base (partsOf n).exp) = some n.value := by
    rw [← bare_text hn, pyFloat_text (bare_wf hn) (bare_letter hn) rfl, bare_value]
  unfold evaluate
  simp only [hfl]
  cases hs : n.su with
  | none =>
    have he : (partsOf n).esd = none := hs
    simp [he, hs, Numeral.uncertainty]
  | some u =>
    have hu := hn.su u hs
    have he : (partsOf n).esd = some u := hs
    simp only [he, pyFloat_digits hu.1 hu.2, Numeral.uncertainty, hs, Option.map_some]
    congr 3
    have hdad : scalePlaces (digitsValue u : Rat) (partsOf n).dad = (digitsValue u : Rat) * (10 : Rat) ^ (-(n.places.length : Int)) := by
      cases hf : n.frac with
      | none => simp [scalePlaces, partsOf, hf, Numeral.places, Rat.mul_one]
      | some f =>
        by_cases hfe : f = []
        · simp [scalePlaces, partsOf, hf, Numeral.places, hfe, Rat.mul_one]
        · simp [scalePlaces, partsOf, hf, Numeral.places, hfe]
    rw [hdad]
    have hexp : ∀ x : Rat, scaleExp x (partsOf n).exp = x * (10 : Rat) ^ n.power := by
      intro x
      cases he : n.exp with
      | none => simp [scaleExp, partsOf, he, Numeral.power, Rat.mul_one]
      | some p =>
        obtain ⟨l, s, ds⟩ := p
        have h3 := (hn.exp l s ds he).2.2
        simp only [scaleExp, partsOf, he, Option.map_some]
        rw [replaceD_exp hn he]
        have : expInt ((if l = 'd' ∨ l = 'D' then 'e' else l) :: Numeral.signText s ++ ds) = n.power := by
          rw [expInt, List.cons_append, List.drop_succ_cons, List.drop_zero, splitSign_exp s h3]
          cases s <;> simp [signed, natOf_eq, Numeral.power, he]
        rw [this]
    rw [hexp, Rat.mul_assoc, ← Rat.zpow_add ten_ne]
    congr 2
    omega

end Number
end Verif
