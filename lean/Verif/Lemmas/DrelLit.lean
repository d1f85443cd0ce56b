import Verif.Lemmas.DrelCall
import Verif.Spec.DrelReady
/-! # Texts of literals -/
namespace Verif
namespace DrelMeaning
open DrelPy PyText
variable [CaseFold]
set_option linter.unusedSectionVars false

theorem ident_char {s : Str} (h : ident s = true) {c : Char} (hc : c ∈ s) : nameChar c = true := by
  simp only [ident, Bool.and_eq_true] at h
  exact List.all_eq_true.1 h.1.1 c hc

theorem not_ident {s : Str} {c : Char} (hc : c ∈ s) (h : nameChar c = false) : ident s = false := by
  cases hi : ident s with
  | false => rfl
  | true => rw [ident_char hi hc] at h; cases h

/-- Characters of numerals. -/
def numChar (c : Char) : Bool := nameChar c || c == '.'

theorem dropLast_snoc {s : Str} {c : Char} (h : s.getLast? = some c) : s.dropLast ++ [c] = s := by
  have hne : s ≠ [] := by rintro rfl; cases h
  rw [List.getLast?_eq_some_getLast hne] at h
  rw [← Option.some.inj h]
  exact List.dropLast_concat_getLast hne

theorem numeral_all : ∀ {s : Str} (_ : s.all numChar = true) (p : Char), numeral p s = (s, [])
  | [], _, _ => rfl
  | c :: r, h, p => by
    simp only [List.all_cons, Bool.and_eq_true] at h
    have := h.1
    unfold numChar at this
    rw [numeral, this, Bool.true_or, if_pos rfl, numeral_all h.2 c]

theorem numeral_append : ∀ {a b : Str} {p : Char}, numeral p a = (a, []) → (∀ q, (p :: a).getLast? = some q → numeral q b = (b, [])) →
    numeral p (a ++ b) = (a ++ b, [])
  | [], b, p, _, h => by simpa using h p rfl
  | c :: a, b, p, h1, h2 => by
    rw [numeral] at h1
    split at h1
    · rename_i hc
      have h3 : numeral c a = (a, []) := by
        simp only [Prod.mk.injEq, List.cons.injEq, true_and] at h1
        exact Prod.ext h1.1 h1.2
      have h4 := numeral_append h3 (b := b) fun q hq => h2 q (by rw [List.getLast?_cons_cons]; exact hq)
      rw [List.cons_append, numeral, if_pos hc, h4]
    · cases h1

theorem digit_num {c : Char} (h : c.isDigit = true) : numChar c = true := by
  simp only [numChar, nameChar, Char.isAlphanum, h, Bool.or_true, Bool.true_or]

theorem all_digit_num {s : Str} (h : s.all Char.isDigit = true) : s.all numChar = true := by
  rw [List.all_eq_true] at h ⊢
  exact fun c hc => digit_num (h c hc)

theorem dropWhile_head {p : Char → Bool} : ∀ {s r : Str} {c : Char}, s.dropWhile p = c :: r → p c = false
  | [], _, _, h => by cases h
  | d :: s, r, c, h => by
    rw [List.dropWhile_cons] at h
    split at h
    · exact dropWhile_head h
    · rename_i hd
      cases h
      simpa using hd

theorem exponent_numeral {e : Str} (h : exponent e = true) {c : Char} (hc : c = 'e' ∨ c = 'E') : numeral c e = (e, []) ∧
    ∀ x ∈ e, numChar x = true ∨ x = '+' ∨ x = '-' := by
  have hd : ∀ {r : Str}, digits r = true → r.all numChar = true := by
    intro r h
    simp only [digits, Bool.and_eq_true] at h
    exact all_digit_num h.2
  have hs : ∀ (s : Char) {r : Str}, (s = '+' ∨ s = '-') → digits r = true → numeral c (s :: r) = (s :: r, []) := by
    intro s r hs h
    rw [numeral, if_pos, numeral_all (hd h) s]
    rcases hs with rfl | rfl <;> rcases hc with rfl | rfl <;> rfl
  unfold exponent at h
  split at h
  · refine ⟨hs '+' (.inl rfl) h, fun x hx => ?_⟩
    rcases List.mem_cons.1 hx with rfl | hx
    · exact .inr (.inl rfl)
    · exact .inl (List.all_eq_true.1 (hd h) x hx)
  · refine ⟨hs '-' (.inr rfl) h, fun x hx => ?_⟩
    rcases List.mem_cons.1 hx with rfl | hx
    · exact .inr (.inr rfl)
    · exact .inl (List.all_eq_true.1 (hd h) x hx)
  · exact ⟨numeral_all (hd h) c, fun x hx => .inl (List.all_eq_true.1 (hd h) x hx)⟩

/-- The text begins like a number. -/
def numStart : Str → Prop
  | [] => False
  | c :: r => c.isDigit = true ∨ (c = '.' ∧ digitNext r = true)

theorem numStart_append {a b : Str} (h : numStart a) : numStart (a ++ b) := by
  cases a with
  | nil => exact h.elim
  | cons c r =>
    rcases h with h | ⟨h1, h2⟩
    · exact .inl h
    · refine .inr ⟨h1, ?_⟩
      cases r with
      | nil => cases h2
      | cons d r => exact h2

theorem numStart_digits {s : Str} (h : s.all Char.isDigit = true) (hne : s ≠ []) : numStart s := by
  cases s with
  | nil => exact absurd rfl hne
  | cons c r =>
    simp only [List.all_cons, Bool.and_eq_true] at h
    exact .inl h.1

/-- What is said about a number. -/
def NumGood (s : Str) : Prop := (∀ p, numeral p s = (s, [])) ∧ numStart s ∧ ∀ x ∈ s, numChar x = true ∨ x = '+' ∨ x = '-'

theorem numGood_digits {s : Str} (h : digits s = true) : NumGood s := by
  simp only [digits, Bool.and_eq_true, Bool.not_eq_true', List.isEmpty_eq_false_iff] at h
  exact ⟨numeral_all (all_digit_num h.2), numStart_digits h.2 h.1, fun x hx => .inl (List.all_eq_true.1 (all_digit_num h.2) x hx)⟩

theorem numGood_floating {s : Str} (h : floating s = true) : NumGood s := by
  unfold floating at h
  simp only [Bool.and_eq_true] at h
  obtain ⟨hm, he⟩ := h
  have hs : s = (s.takeWhile fun c => c != 'e' && c != 'E') ++ s.dropWhile fun c => c != 'e' && c != 'E' :=
    List.takeWhile_append_dropWhile.symm
  generalize hM : (s.takeWhile fun c => c != 'e' && c != 'E') = m at *
  generalize hE : (s.dropWhile fun c => c != 'e' && c != 'E') = e at *
  have hmi : m = (m.takeWhile fun c => c != '.') ++ m.dropWhile fun c => c != '.' := List.takeWhile_append_dropWhile.symm
  generalize hI : (m.takeWhile fun c => c != '.') = i at *
  generalize hF : (m.dropWhile fun c => c != '.') = f at *
  have key : m.all numChar = true ∧ numStart m := by
    cases f with
    | nil =>
      dsimp only at hm
      simp only [digits, Bool.and_eq_true, Bool.not_eq_true', List.isEmpty_eq_false_iff] at hm
      rw [List.append_nil] at hmi
      rw [hmi]
      exact ⟨all_digit_num hm.1.2, numStart_digits hm.1.2 hm.1.1⟩
    | cons c f =>
      have hc : c = '.' := by simpa using dropWhile_head hF
      subst hc
      dsimp only at hm
      simp only [Bool.and_eq_true, Bool.not_eq_true', List.isEmpty_eq_false_iff, List.all_append] at hm
      obtain ⟨⟨h1, h2⟩, h3⟩ := hm
      rw [hmi]
      refine ⟨?_, ?_⟩
      · simp only [List.all_append, List.all_cons, Bool.and_eq_true]
        exact ⟨all_digit_num h1, by decide, all_digit_num h2⟩
      · cases i with
        | nil =>
          refine .inr ⟨rfl, ?_⟩
          cases f with
          | nil => simp at h3
          | cons d f =>
            simp only [List.all_cons, Bool.and_eq_true] at h2
            exact h2.1
        | cons d i =>
          simp only [List.all_cons, Bool.and_eq_true] at h1
          exact .inl h1.1
  have hmc : ∀ x ∈ m, numChar x = true ∨ x = '+' ∨ x = '-' := fun x hx => .inl (List.all_eq_true.1 key.1 x hx)
  rw [hs]
  cases e with
  | nil =>
    rw [List.append_nil]
    exact ⟨numeral_all key.1, key.2, hmc⟩
  | cons c e =>
    have hc : c = 'e' ∨ c = 'E' := by
      have := dropWhile_head hE
      simp only [Bool.and_eq_false_iff, bne_eq_false_iff_eq] at this
      exact this
    dsimp only at he
    obtain ⟨h1, h2⟩ := exponent_numeral he hc
    have hcn : numChar c = true := by rcases hc with rfl | rfl <;> decide
    refine ⟨fun p => numeral_append (numeral_all key.1 p) fun q _ => ?_, numStart_append key.2, fun x hx => ?_⟩
    · have := hcn
      unfold numChar at this
      rw [numeral, this, Bool.true_or, if_pos rfl, h1]
    · rcases List.mem_append.1 hx with hx | hx
      · exact hmc x hx
      · rcases List.mem_cons.1 hx with rfl | hx
        · exact .inl hcn
        · exact h2 x hx

theorem NumGood.snoc {s : Str} {c : Char} (h : NumGood s) (hc : numChar c = true) : NumGood (s ++ [c]) := by
  obtain ⟨h1, h2, h3⟩ := h
  refine ⟨fun p => numeral_append (h1 p) fun q _ => numeral_all (by simpa using hc) q, numStart_append h2, fun x hx => ?_⟩
  rcases List.mem_append.1 hx with hx | hx
  · exact h3 x hx
  · rw [List.mem_singleton.1 hx]; exact .inl hc

theorem numGood {s : Str} (h : isNumber s = true) : NumGood s := by
  have either : ∀ {t : Str}, (digits t || floating t) = true → NumGood t := by
    intro t h
    rcases Bool.or_eq_true _ _ ▸ h with h | h
    · exact numGood_digits h
    · exact numGood_floating h
  have split_last : ∀ {c : Char}, s.getLast? = some c → s = s.dropLast ++ [c] := by
    intro c hc
    exact (dropLast_snoc hc).symm
  unfold isNumber at h
  split at h
  · rename_i hl
    rw [split_last hl]
    exact (either h).snoc (by decide)
  · rename_i hl
    rw [split_last hl]
    exact (either h).snoc (by decide)
  · refine either ?_
    simp only [Bool.or_eq_true, Bool.and_eq_true] at h ⊢
    rcases h with h | h
    · exact .inl h.1
    · exact .inr h

theorem numChar_ok {c : Char} (h : numChar c = true ∨ c = '+' ∨ c = '-') : stopOk c = true ∧ startOk c = true := by
  rcases h with h | rfl | rfl
  · unfold numChar at h
    rcases Bool.or_eq_true _ _ ▸ h with h | h
    · exact nameChar_stop h
    · rw [beq_iff_eq] at h; subst h; decide
  · decide
  · decide

theorem digit_not {c : Char} (h : c.isDigit = true) : c ≠ ' ' ∧ isQuote c = false ∧ nameStart c = false := by
  refine ⟨by rintro rfl; revert h; decide, ?_, ?_⟩
  · simp only [isQuote, Bool.or_eq_false_iff, beq_eq_false_iff_ne]
    refine ⟨?_, ?_⟩ <;> (rintro rfl; revert h; decide)
  · simp only [nameStart, Bool.or_eq_false_iff, beq_eq_false_iff_ne]
    refine ⟨?_, by rintro rfl; revert h; decide⟩
    cases ha : c.isAlpha with
    | false => rfl
    | true =>
      simp only [Char.isAlpha, Char.isUpper, Char.isLower, Char.isDigit, Bool.or_eq_true, Bool.and_eq_true, decide_eq_true_eq,
        UInt32.le_iff_toNat_le, ge_iff_le] at h ha
      simp at h ha
      omega

/-- A number is read as it stands. -/
theorem number_good {s : Str} (h : isNumber s = true) : GoodP s (.num s) ∧ ident s = false := by
  obtain ⟨h1, h2, h3⟩ := numGood h
  cases s with
  | nil => exact h2.elim
  | cons c r =>
    have hlex : tokens 1 (c :: r) = some [.num (c :: r)] := by
      have hc : c ≠ ' ' ∧ isQuote c = false ∧ nameStart c = false := by
        rcases h2 with h2 | ⟨rfl, _⟩
        · exact digit_not h2
        · decide
      have hn : (numeral c r).1 = r ∧ (numeral c r).2 = [] := by
        have := h1 c
        rw [numeral] at this
        split at this
        · simp only [Prod.mk.injEq, List.cons.injEq, true_and] at this
          exact this
        · cases this
      rw [tokens, if_neg hc.1]
      have : next c r = some (.num (c :: r), []) := by
        unfold next
        rw [hc.2.1, hc.2.2, if_neg (by simp), if_neg (by simp), if_pos, hn.1, hn.2, if_pos h]
        rcases h2 with h2 | ⟨rfl, h2⟩
        · rw [h2, Bool.true_or]
        · rw [h2]; rfl
      rw [this]
      rfl
    refine ⟨GoodP.num ⟨1, hlex⟩ ⟨c, rfl, (numChar_ok (h3 c (by simp))).2⟩ ?_, ?_⟩
    · cases hl : (c :: r).getLast? with
      | none => simp at hl
      | some x => exact ⟨x, hl, (numChar_ok (h3 x (List.mem_of_getLast? hl))).1⟩
    · rcases h2 with h2 | ⟨rfl, _⟩
      · simp only [ident, List.head?_cons, Option.all_some, h2, Bool.not_true, Bool.and_false, Bool.false_and]
      · exact not_ident (c := '.') (by simp) (by decide)

/-- A literal is read as it is meant. -/
theorem literal_good {s : Str} {p : Py} (h : literal s = some p) : GoodP s p ∧ ident s = false := by
  unfold literal at h
  split at h
  · rename_i hn
    cases h
    exact number_good hn
  · split at h
    · cases h
    · rename_i c r hn
      by_cases hp : isPrefix c = true
      · rw [if_pos hp] at h
        dsimp only at h
        cases r with
        | nil => cases h
        | cons q body =>
          replace h : (if isQuote q = true ∧ body.getLast? = some q ∧
              (body.dropLast.all fun d => d != q && d != '\\' && d != '\n') = true then some (Py.str body.dropLast) else none) = some p := h
          by_cases hq : isQuote q = true ∧ body.getLast? = some q ∧
              (body.dropLast.all fun d => d != q && d != '\\' && d != '\n') = true
          · rw [if_pos hq] at h
            obtain ⟨hq, hl, hall⟩ := hq
            cases h
            have e : c :: q :: body = c :: quoted q body.dropLast := by
              rw [quoted, dropLast_snoc hl]
            rw [e]
            refine ⟨GoodP.prefixed hp hq hall, not_ident (c := q) (by simp [quoted]) ?_⟩
            simp only [isQuote, Bool.or_eq_true, beq_iff_eq] at hq
            rcases hq with rfl | rfl <;> decide
          · rw [if_neg hq] at h; cases h
      · rw [if_neg hp] at h
        dsimp only at h
        split at h
        · rename_i hq
          obtain ⟨hq, hl, hall⟩ := hq
          cases h
          have e : c :: r = quoted c r.dropLast := by
            rw [quoted, dropLast_snoc hl]
          rw [e]
          refine ⟨GoodP.str hq hall, not_ident (c := c) (by simp [quoted]) ?_⟩
          simp only [isQuote, Bool.or_eq_true, beq_iff_eq] at hq
          rcases hq with rfl | rfl <;> decide
        · cases h

end DrelMeaning
end Verif
