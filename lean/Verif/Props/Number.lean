import Verif.Lemmas.NumberRx
/-! # C49: numbers with standard uncertainties -/
namespace Verif
open Spec Number

theorem matchBody_ne_none {ip : Str} {frac : Option Str} {r : Str} (h1 : ∀ c ∈ ip, Digit c) (h2 : ∀ f, frac = some f → ∀ c ∈ f, Digit c)
    (h3 : ip ≠ [] ∨ ∃ f, frac = some f ∧ f ≠ []) : matchBody (ip ++ (Numeral.fracText frac ++ r)) ≠ none := by
  unfold matchBody
  cases ip with
  | cons c t =>
    have hc := isDigit_iff.2 (h1 c (by simp))
    simp only [List.cons_append, List.takeWhile_cons, hc, if_true]
    generalize List.dropWhile isDigit (c :: (t ++ (Numeral.fracText frac ++ r))) = d
    cases d with
    | nil => simp
    | cons x y =>
      simp only [ne_eq, reduceCtorEq, not_false_eq_true, if_true]
      split
      · split <;> simp
      · simp
  | nil =>
    rcases h3 with h | ⟨f, hf, hne⟩
    · exact absurd rfl h
    · subst hf
      cases f with
      | nil => exact absurd rfl hne
      | cons c t =>
        have hc := isDigit_iff.2 (h2 (c :: t) rfl c (by simp))
        have hd : isDigit '.' = false := by decide
        simp only [Numeral.fracText, List.nil_append, List.cons_append, List.takeWhile_cons, List.dropWhile_cons, hd, hc]
        simp [hc]

theorem matchNumb_ne_none {n : Numeral} (hn : n.WF) (r : Str) : matchNumb (n.text ++ r) ≠ none := by
  have key : matchBase (n.text ++ r) ≠ none := by
    rw [text_eq]
    simp only [List.append_assoc]
    have hb := matchBody_ne_none (r := tail n ++ r) hn.int hn.frac hn.some_digit
    cases hneg : n.neg with
    | true =>
      simp only [if_true, List.cons_append, List.nil_append, matchBase]
      cases hm : matchBody (n.int ++ (Numeral.fracText n.frac ++ (tail n ++ r))) with
      | none => exact absurd hm hb
      | some m => simp
    | false =>
      rw [if_neg (by simp), List.nil_append]
      generalize hw : n.int ++ (Numeral.fracText n.frac ++ (tail n ++ r)) = w at hb
      cases w with
      | nil => exact hb
      | cons c t =>
        have hc : c ≠ '-' := by
          cases hi : n.int with
          | cons x y =>
            rw [hi, List.cons_append, List.cons.injEq] at hw
            rw [← hw.1]; exact (digit_ne (hn.int x (by rw [hi]; simp))).1
          | nil =>
            rw [hi, List.nil_append] at hw
            rcases hn.some_digit with e | ⟨f, hf, _⟩
            · exact absurd hi e
            · rw [hf] at hw
              simp only [Numeral.fracText, List.cons_append, List.cons.injEq] at hw
              rw [← hw.1]; decide
        rw [matchBase, if_neg hc]; exact hb
  rw [matchNumb]
  cases hm : matchBase (n.text ++ r) with
  | none => exact absurd hm key
  | some m => simp

/-- A numeral is read as the number it denotes, and its bracket as the uncertainty in the last digits given. -/
theorem C49_read (n : Numeral) (hn : n.WF) : getNumberWithEsd n.text = .ok (some n.value, n.uncertainty) := by
  rw [getNumberWithEsd, matchNumb_text hn]
  exact evaluate_parts hn

/-- A dot and a question mark give no value. -/
theorem C49_blank : getNumberWithEsd ['.'] = .ok (none, none) ∧ getNumberWithEsd ['?'] = .ok (none, none) := by decide +kernel

/-- A leading plus sign, which CIF allows, is not understood: no number is returned. -/
theorem C49_plus_fails : getNumberWithEsd "+1.5(2)".toList = .ok (none, none) := by decide +kernel

/-- Whatever the text: no exception, and a number is returned exactly when the text starts with a numeral; it is then the
number denoted by such a numeral. -/
theorem C49_any (s : Str) :
    (getNumberWithEsd s = .ok (none, none) ∧ ∀ (n : Numeral) (r : Str), n.WF → s ≠ n.text ++ r) ∨
    ∃ (n : Numeral) (r : Str), n.WF ∧ s = n.text ++ r ∧ getNumberWithEsd s = .ok (some n.value, n.uncertainty) := by
  cases h : matchNumb s with
  | none =>
    left
    refine ⟨by rw [getNumberWithEsd, h], ?_⟩
    intro n r hn e
    exact matchNumb_ne_none hn r (e ▸ h)
  | some m =>
    right
    obtain ⟨m, r⟩ := m
    obtain ⟨n, hn, rfl, hs⟩ := matchNumb_some h
    exact ⟨n, r, hn, hs, by rw [getNumberWithEsd, h]; exact evaluate_parts hn⟩

/-- The numeral `-12.34(5)e+1`. -/
def numeralSample : Numeral := ⟨true, "12".toList, some "34".toList, some "5".toList, some ('e', .plus, "1".toList)⟩

theorem numeralSample_wf : numeralSample.WF where
  int := by decide
  frac := by intro f h; cases h; decide
  some_digit := .inl (by decide)
  su := by intro f h; cases h; decide
  exp := by intro l s ds h; cases h; decide

example : numeralSample.text = "-12.34(5)e+1".toList ∧ numeralSample.value = -1234/10 ∧ numeralSample.uncertainty = some (5/10) := by decide +kernel

example : getNumberWithEsd "-12.34(5)e+1".toList = .ok (some (-1234/10), some (5/10)) := by
  have h := C49_read numeralSample numeralSample_wf
  have h1 : numeralSample.text = "-12.34(5)e+1".toList ∧ numeralSample.value = -1234/10 ∧ numeralSample.uncertainty = some (5/10) := by
    decide +kernel
  rw [h1.1, h1.2.1, h1.2.2] at h
  exact h

/-- Text after the numeral is ignored without complaint: the second alternative of `C49_any` occurs with `r ≠ []`. -/
example : getNumberWithEsd "12abc".toList = .ok (some 12, none) := by decide +kernel

example : getNumberWithEsd "abc".toList = .ok (none, none) := by decide +kernel

end Verif
