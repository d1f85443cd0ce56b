import Verif.Spec.PyText
/-! # Tokens of texts put together -/
namespace Verif
namespace PyText

/-- Characters that may stand side by side without belonging to one token. -/
def apart (x y : Char) : Bool :=
  if nameChar x || x == '.' then !(nameChar y || y == '.' || isQuote y)
  else if isQuote x then !isQuote y
  else if x == '<' || x == '>' || x == '=' || x == '!' || x == '*' then !(y == '=' || y == '*')
  else true

/-- The end of `a` and the beginning of `b` do not belong to one token. -/
def Apart (a b : Str) : Prop := ∀ x y, a.getLast? = some x → b.head? = some y → apart x y = true

theorem apart_nil_left (b : Str) : Apart [] b := by intro x y h; simp at h
theorem apart_nil_right (a : Str) : Apart a [] := by intro x y _ h; simp at h

theorem apart_suffix {a a' b : Str} (hs : a' <:+ a) (h : Apart a b) : Apart a' b := by
  obtain ⟨p, rfl⟩ := hs
  intro x y hx hy
  refine h x y ?_ hy
  rw [List.getLast?_append, hx]; rfl

theorem shortString_append {q : Char} (b : Str) : ∀ {r s r' : Str}, shortString q r = some (s, r') →
    shortString q (r ++ b) = some (s, r' ++ b) ∧ r' <:+ r
  | [], s, r', h => by cases h
  | c :: r, s, r', h => by
    rw [List.cons_append]
    unfold shortString at h ⊢
    split
    · rename_i hc; rw [if_pos hc] at h; cases h; exact ⟨rfl, List.suffix_cons _ _⟩
    · rename_i hc; rw [if_neg hc] at h
      split
      · rename_i hd; rw [if_pos hd] at h; cases h
      · rename_i hd; rw [if_neg hd] at h
        cases e : shortString q r with
        | none => rw [e] at h; cases h
        | some p =>
          rw [e] at h; cases h
          obtain ⟨h1, h2⟩ := shortString_append b e
          exact ⟨by rw [h1]; rfl, h2.trans (List.suffix_cons _ _)⟩

theorem longString_length {q : Char} : ∀ {r : Str} {p}, longString q r = some p → 3 ≤ r.length
  | [], p, h => by cases h
  | c :: r, p, h => by
    unfold longString at h
    split at h
    · rename_i ht
      have := congrArg List.length ht
      simp only [List.length_take, List.length_cons, List.length_nil] at this ⊢
      omega
    · split at h
      · cases h
      · cases e : longString q r with
        | none => rw [e] at h; cases h
        | some p' => have := longString_length e; simp only [List.length_cons]; omega

theorem take_append_eq {n : Nat} {a b : Str} (h : n ≤ a.length) : (a ++ b).take n = a.take n := by
  rw [List.take_append]
  have : n - a.length = 0 := by omega
  rw [this, List.take_zero, List.append_nil]

theorem drop_append_eq {n : Nat} {a b : Str} (h : n ≤ a.length) : (a ++ b).drop n = a.drop n ++ b := by
  rw [List.drop_append]
  have : n - a.length = 0 := by omega
  rw [this, List.drop_zero]

theorem longString_append {q : Char} (b : Str) : ∀ {r s r' : Str}, longString q r = some (s, r') →
    longString q (r ++ b) = some (s, r' ++ b) ∧ r' <:+ r
  | [], s, r', h => by cases h
  | c :: r, s, r', h => by
    have hl := longString_length h
    rw [List.cons_append]
    unfold longString at h ⊢
    rw [← List.cons_append, take_append_eq hl, drop_append_eq hl]
    split
    · rename_i hc; rw [if_pos hc] at h; cases h; exact ⟨rfl, List.drop_suffix _ _⟩
    · rename_i hc; rw [if_neg hc] at h
      split
      · rename_i hd; rw [if_pos hd] at h; cases h
      · rename_i hd; rw [if_neg hd] at h
        cases e : longString q r with
        | none => rw [e] at h; cases h
        | some p =>
          rw [e] at h; cases h
          obtain ⟨h1, h2⟩ := longString_append b e
          exact ⟨by rw [h1]; rfl, h2.trans (List.suffix_cons _ _)⟩

theorem string_append {q : Char} {b r r' : Str} {t : Tok} (hb : ∀ y, b.head? = some y → y ≠ q ∨ r.getLast? ≠ some q)
    (h : string q r = some (t, r')) : string q (r ++ b) = some (t, r' ++ b) ∧ r' <:+ r := by
  unfold string at h ⊢
  by_cases hq : r.take 2 = [q, q]
  · rw [if_pos hq] at h
    have hl : 2 ≤ r.length := by
      have := congrArg List.length hq
      simp only [List.length_take, List.length_cons, List.length_nil] at this; omega
    rw [take_append_eq hl, if_pos hq, drop_append_eq hl]
    cases e : longString q (r.drop 2) with
    | none => rw [e] at h; cases h
    | some p =>
      rw [e] at h; cases h
      obtain ⟨h1, h2⟩ := longString_append b e
      exact ⟨by rw [h1]; rfl, h2.trans (List.drop_suffix _ _)⟩
  · rw [if_neg hq] at h
    have hn : (r ++ b).take 2 ≠ [q, q] := by
      intro hc
      match r, hb, h, hq, hc with
      | [], _, h, _, _ => cases h
      | [x], hb, _, _, hc =>
        cases b with
        | nil => cases hc
        | cons y b =>
          simp only [List.cons_append, List.nil_append, List.take, List.cons.injEq] at hc
          obtain ⟨rfl, rfl, -⟩ := hc
          rcases hb y rfl with h | h
          · exact h rfl
          · exact h rfl
      | x :: y :: r, _, _, hq, hc => exact hq (by simpa using hc)
    rw [if_neg hn]
    cases e : shortString q r with
    | none => rw [e] at h; cases h
    | some p =>
      rw [e] at h; cases h
      obtain ⟨h1, h2⟩ := shortString_append b e
      exact ⟨by rw [h1]; rfl, h2⟩

theorem takeWhile_append' {p : Char → Bool} (b : Str) : ∀ (r : Str),
    (r.dropWhile p ≠ [] ∨ ∀ y, b.head? = some y → p y = false) →
    (r ++ b).takeWhile p = r.takeWhile p ∧ (r ++ b).dropWhile p = r.dropWhile p ++ b
  | [], h => by
    cases b with
    | nil => simp
    | cons y b =>
      have : p y = false := by
        rcases h with h | h
        · exact absurd rfl h
        · exact h y rfl
      simp [List.takeWhile, List.dropWhile, this]
  | c :: r, h => by
    cases hc : p c with
    | false => simp [List.takeWhile, List.dropWhile, hc]
    | true =>
      have := takeWhile_append' b r (by simpa [List.dropWhile, hc] using h)
      simp only [List.cons_append, List.takeWhile, List.dropWhile, hc]
      exact ⟨by rw [this.1], this.2⟩

theorem last_takeWhile {p : Char → Bool} {c : Char} (hc : p c = true) : ∀ {r : Str} {x : Char}, r.dropWhile p = [] →
    (c :: r).getLast? = some x → p x = true
  | [], x, _, hx => by simp at hx; exact hx ▸ hc
  | d :: r, x, h, hx => by
    have hd : p d = true := by
      cases hd : p d with
      | true => rfl
      | false => simp [List.dropWhile, hd] at h
    refine last_takeWhile hd (r := r) (by simpa [List.dropWhile, hd] using h) ?_
    rw [← hx, List.getLast?_cons_cons]

/-- The last character of a numeral. -/
def numEnd (x : Char) : Bool := x.isDigit || x == '.' || x == 'j' || x == 'J'

theorem digits_last {s : Str} {x : Char} (h : digits s = true) (hx : s.getLast? = some x) : x.isDigit = true := by
  simp only [digits, Bool.and_eq_true, List.all_eq_true] at h
  exact h.2 x (List.mem_of_getLast? hx)

theorem exponent_last {s : Str} {x : Char} (h : exponent s = true) (hx : s.getLast? = some x) : x.isDigit = true := by
  unfold exponent at h
  split at h
  all_goals
    first
    | exact digits_last h hx
    | (rename_i r
       cases r with
       | nil => simp [digits] at h
       | cons d r => exact digits_last h (by rw [← hx, List.getLast?_cons_cons]))

theorem floating_last {s : Str} {x : Char} (h : floating s = true) (hx : s.getLast? = some x) : numEnd x = true := by
  unfold floating at h
  simp only [Bool.and_eq_true] at h
  obtain ⟨h1, h2⟩ := h
  have hs : s = s.takeWhile (fun c => c != 'e' && c != 'E') ++ s.dropWhile (fun c => c != 'e' && c != 'E') :=
    (List.takeWhile_append_dropWhile).symm
  generalize s.takeWhile (fun c => c != 'e' && c != 'E') = m at h1 hs
  generalize s.dropWhile (fun c => c != 'e' && c != 'E') = e at h1 h2 hs
  cases e with
  | cons c e =>
    have h2 : exponent e = true := h2
    cases e with
    | nil => simp [exponent, digits] at h2
    | cons d e =>
      have : x.isDigit = true := exponent_last h2 (by
        rw [hs, List.getLast?_append] at hx
        rw [List.getLast?_cons_cons] at hx
        cases hl : (d :: e).getLast? with
        | none => simp at hl
        | some z => rw [hl] at hx; simpa using hx)
      simp [numEnd, this]
  | nil =>
    rw [List.append_nil] at hs
    subst hs
    have hm : s = s.takeWhile (fun c => c != '.') ++ s.dropWhile (fun c => c != '.') :=
      (List.takeWhile_append_dropWhile).symm
    have hp := List.head?_dropWhile_not (fun c : Char => c != '.') s
    have hx' : x ∈ s := List.mem_of_getLast? hx
    rw [hm] at hx'
    generalize s.takeWhile (fun c => c != '.') = i at h1 hx'
    generalize s.dropWhile (fun c => c != '.') = f at h1 hx' hp
    cases f with
    | nil => simp at h1
    | cons d f =>
      have hd : d = '.' := by simpa using hp
      simp only [Bool.and_eq_true, List.all_eq_true] at h1
      rcases List.mem_append.1 hx' with h | h
      · have := h1.1 x (List.mem_append_left _ h); simp [numEnd, this]
      · rcases List.mem_cons.1 h with h | h
        · rw [h, hd]; rfl
        · have := h1.1 x (List.mem_append_right _ h); simp [numEnd, this]

theorem isNumber_last {s : Str} {x : Char} (h : isNumber s = true) (hx : s.getLast? = some x) : numEnd x = true := by
  unfold isNumber at h
  rw [hx] at h
  split at h
  · rename_i e; cases e; rfl
  · rename_i e; cases e; rfl
  · simp only [Bool.or_eq_true, Bool.and_eq_true] at h
    rcases h with h | h
    · have := digits_last h.1 hx; simp [numEnd, this]
    · exact floating_last h hx

theorem digit_nameChar {x : Char} (h : x.isDigit = true) : nameChar x = true := by
  simp [nameChar, Char.isAlphanum, h]

theorem numEnd_char {x : Char} (h : numEnd x = true) : (nameChar x || x == '.') = true ∧ x ≠ 'e' ∧ x ≠ 'E' := by
  simp only [numEnd, Bool.or_eq_true, beq_iff_eq] at h
  rcases h with ((h | h) | h) | h
  · refine ⟨by simp [digit_nameChar h], ?_, ?_⟩ <;> (rintro rfl; revert h; decide)
  · subst h; decide
  · subst h; decide
  · subst h; decide

theorem numeral_append (b : Str) : ∀ (r : Str) (p : Char),
    ((numeral p r).2 ≠ [] ∨ ∀ x y, (p :: r).getLast? = some x → b.head? = some y →
      (nameChar y || y == '.' || ((y == '+' || y == '-') && (x == 'e' || x == 'E'))) = false) →
    numeral p (r ++ b) = ((numeral p r).1, (numeral p r).2 ++ b)
  | [], p, h => by
    cases b with
    | nil => rfl
    | cons y b =>
      rcases h with h | h
      · exact absurd rfl h
      · have := h p y rfl rfl
        rw [List.nil_append]
        simp only [numeral]
        rw [if_neg (by rw [this]; simp)]
        rfl
  | c :: r, p, h => by
    rw [List.cons_append]
    unfold numeral at h ⊢
    split
    · rename_i hc
      rw [if_pos hc] at h
      rw [numeral_append b r c (by
        rcases h with h | h
        · exact .inl h
        · exact .inr fun x y hx hy => h x y (by rw [List.getLast?_cons_cons]; exact hx) hy)]
    · rename_i hc
      rfl

theorem numeral_eq : ∀ (r : Str) (p : Char), (numeral p r).1 ++ (numeral p r).2 = r
  | [], p => rfl
  | c :: r, p => by
    unfold numeral
    split
    · rw [List.cons_append, numeral_eq r c]
    · rfl

theorem next_append {c : Char} {r r' b : Str} {t : Tok} (hb : Apart (c :: r) b) (h : next c r = some (t, r')) :
    next c (r ++ b) = some (t, r' ++ b) ∧ r' <:+ r := by
  unfold next at h ⊢
  by_cases hq : isQuote c = true
  · rw [if_pos hq] at h ⊢
    refine string_append ?_ h
    intro y hy
    by_cases hl : r.getLast? = some c
    · left
      rintro rfl
      have hl' : (y :: r).getLast? = some y := by
        cases r with
        | nil => rfl
        | cons d r => rw [List.getLast?_cons_cons]; exact hl
      have := hb y y hl' hy
      unfold apart at this
      have hn : (nameChar y || y == '.') = false := by
        simp only [isQuote, Bool.or_eq_true, beq_iff_eq] at hq
        rcases hq with rfl | rfl <;> decide
      rw [if_neg (by rw [hn]; simp), if_pos hq, hq] at this
      cases this
    · exact .inr hl
  · rw [if_neg hq] at h ⊢
    by_cases hn : nameStart c = true
    · rw [if_pos hn] at h ⊢
      have hnc : nameChar c = true := by
        simp only [nameStart, Bool.or_eq_true] at hn
        simp only [nameChar, Bool.or_eq_true, Char.isAlphanum]
        rcases hn with h | h
        · exact .inl (.inl h)
        · exact .inr h
      have hw : ∀ {t r'}, some (Tok.word (c :: r.takeWhile nameChar), r.dropWhile nameChar) = some (t, r') →
          some (Tok.word (c :: (r ++ b).takeWhile nameChar), (r ++ b).dropWhile nameChar) = some (t, r' ++ b) ∧ r' <:+ r := by
        intro t r' h
        cases h
        have := takeWhile_append' (p := nameChar) b r (by
          by_cases hd : r.dropWhile nameChar = []
          · right
            intro y hy
            cases hl : (c :: r).getLast? with
            | none => simp at hl
            | some x =>
              have hx := last_takeWhile hnc hd hl
              have := hb x y hl hy
              unfold apart at this
              rw [if_pos (by simp [hx])] at this
              simp at this; exact this.1.1
          · exact .inl hd)
        rw [this.1, this.2]
        exact ⟨rfl, List.dropWhile_suffix _⟩
      cases r with
      | nil =>
        have := hw h
        cases b with
        | nil => exact this
        | cons y b =>
          have hy : isQuote y = false := by
            have := hb c y rfl rfl
            unfold apart at this
            rw [if_pos (by simp [hnc])] at this
            simp at this; exact this.2
          simp only [List.nil_append] at this ⊢
          rw [hy, Bool.and_false]
          exact this
      | cons q r =>
        simp only [List.cons_append] at h ⊢
        by_cases hp : (isPrefix c && isQuote q) = true
        · rw [if_pos hp] at h ⊢
          simp only [Bool.and_eq_true] at hp
          have := string_append (q := q) (b := b) (r := r) (r' := r') (t := t) (by
            intro y hy
            by_cases hl : r.getLast? = some q
            · left
              rintro rfl
              have hl' : (c :: y :: r).getLast? = some y := by
                rw [List.getLast?_cons_cons]
                cases r with
                | nil => rfl
                | cons d r => rw [List.getLast?_cons_cons]; exact hl
              have := hb y y hl' hy
              unfold apart at this
              have hn : (nameChar y || y == '.') = false := by
                have hq := hp.2
                simp only [isQuote, Bool.or_eq_true, beq_iff_eq] at hq
                rcases hq with rfl | rfl <;> decide
              rw [if_neg (by rw [hn]; simp), if_pos hp.2, hp.2] at this
              cases this
            · exact .inr hl) h
          exact ⟨this.1, this.2.trans (List.suffix_cons _ _)⟩
        · rw [if_neg hp] at h ⊢
          exact hw h
    · rw [if_neg hn] at h ⊢
      have hdot : (c == '.' && digitNext (r ++ b)) = (c == '.' && digitNext r) := by
        cases r with
        | cons d r => rfl
        | nil =>
          cases b with
          | nil => rfl
          | cons y b =>
            by_cases hc : c = '.'
            · have := hb c y rfl rfl
              unfold apart at this
              rw [if_pos (by simp [hc])] at this
              simp at this
              have hy : y.isDigit = false := by
                cases hd : y.isDigit with
                | false => rfl
                | true => rw [digit_nameChar hd] at this; simp at this
              simp [digitNext, hy]
            · have : (c == '.') = false := by simpa using hc
              rw [this, Bool.false_and, Bool.false_and]
      rw [hdot]
      split
      · rename_i hd
        rw [if_pos hd] at h
        split at h
        · rename_i hnum
          cases h
          have := numeral_append b r c (by
            by_cases he : (numeral c r).2 = []
            · right
              intro x y hx hy
              have hr : (numeral c r).1 = r := by
                have := numeral_eq r c
                rw [he, List.append_nil] at this; exact this
              rw [hr] at hnum
              have hx' := numEnd_char (isNumber_last hnum hx)
              have := hb x y hx hy
              unfold apart at this
              rw [if_pos hx'.1] at this
              simp at this
              simp [this.1.1, this.1.2, hx'.2.1, hx'.2.2]
            · exact .inl he)
          rw [this]
          dsimp only
          rw [if_pos hnum]
          refine ⟨rfl, ?_⟩
          exact ⟨_, numeral_eq r c⟩
        · cases h
      · rename_i hd
        rw [if_neg hd] at h
        cases r with
        | cons d r =>
          simp only [List.cons_append] at h ⊢
          split
          · rename_i hp; rw [if_pos hp] at h; cases h; exact ⟨rfl, List.suffix_cons _ _⟩
          · rename_i hp; rw [if_neg hp] at h
            split
            · rename_i hx; rw [if_pos hx] at h; cases h; exact ⟨rfl, List.suffix_refl _⟩
            · rename_i hx; rw [if_neg hx] at h; cases h
        | nil =>
          simp only [List.nil_append] at h ⊢
          split at h
          · rename_i hx
            cases h
            cases b with
            | nil => simp [hx]
            | cons y b =>
              have hp : isPair c y = false := by
                have := hb c y rfl rfl
                cases hp : isPair c y with
                | false => rfl
                | true =>
                  simp only [isPair, Bool.or_eq_true, Bool.and_eq_true, beq_iff_eq] at hp
                  rcases hp with ⟨rfl, hp⟩ | ⟨rfl, rfl⟩
                  · rcases hp with ((rfl | rfl) | rfl) | rfl <;> revert this <;> decide
                  · revert this; decide
              simp [hp, hx]
          · cases h

/-- The text has these tokens. -/
def Lexes (s : Str) (l : List Tok) : Prop := ∃ n, tokens n s = some l

theorem tokens_append {b : Str} {m : Nat} {tb : List Tok} (hm : tokens m b = some tb) : ∀ {n : Nat} {a : Str} {ta : List Tok},
    tokens n a = some ta → Apart a b → tokens (n + m) (a ++ b) = some (ta ++ tb) := by
  have mono : ∀ (k n : Nat) (s : Str) (l : List Tok), tokens n s = some l → tokens (k + n) s = some l := by
    intro k n
    induction n with
    | zero =>
      intro s l h
      cases s with
      | nil => cases h; cases k <;> rfl
      | cons c s => cases h
    | succ n ih =>
      intro s l h
      cases s with
      | nil => cases h; rfl
      | cons c s =>
        rw [← Nat.add_assoc]
        unfold tokens at h ⊢
        split
        · rename_i hc; rw [if_pos hc] at h; exact ih _ _ h
        · rename_i hc; rw [if_neg hc] at h
          cases e : next c s with
          | none => rw [e] at h; cases h
          | some p =>
            rw [e] at h
            dsimp only at h ⊢
            cases e2 : tokens n p.2 with
            | none => rw [e2] at h; cases h
            | some l' => rw [e2] at h; rw [ih _ _ e2]; exact h
  intro n
  induction n with
  | zero =>
    intro a ta h _
    cases a with
    | nil => cases h; simpa using hm
    | cons c s => cases h
  | succ n ih =>
    intro a ta h hab
    cases a with
    | nil =>
      cases h
      exact mono _ _ _ _ hm
    | cons c s =>
      rw [List.cons_append, Nat.add_right_comm]
      unfold tokens at h ⊢
      split
      · rename_i hc; rw [if_pos hc] at h; exact ih h (apart_suffix (List.suffix_cons _ _) hab)
      · rename_i hc; rw [if_neg hc] at h
        cases e : next c s with
        | none => rw [e] at h; cases h
        | some p =>
          rw [e] at h
          obtain ⟨h1, h2⟩ := next_append hab (t := p.1) (r' := p.2) e
          rw [h1]
          dsimp only at h ⊢
          cases e2 : tokens n p.2 with
          | none => rw [e2] at h; cases h
          | some l' =>
            rw [e2] at h
            cases h
            rw [ih e2 (apart_suffix (h2.trans (List.suffix_cons _ _)) hab)]
            rfl

theorem tokens_mono {n k : Nat} {s : Str} {l : List Tok} (h : tokens n s = some l) (hk : n ≤ k) : tokens k s = some l := by
  have := tokens_append (b := []) (m := k - n) (tb := []) (by cases k - n <;> rfl) h (apart_nil_right s)
  rw [List.append_nil, List.append_nil, show n + (k - n) = k by omega] at this
  exact this

theorem Lexes.append {a b : Str} {ta tb : List Tok} (ha : Lexes a ta) (hb : Lexes b tb) (h : Apart a b) :
    Lexes (a ++ b) (ta ++ tb) := by
  obtain ⟨n, hn⟩ := ha
  obtain ⟨m, hm⟩ := hb
  exact ⟨n + m, tokens_append hm hn h⟩

theorem Lexes.unique {s : Str} {l l' : List Tok} (h : Lexes s l) (h' : Lexes s l') : l = l' := by
  obtain ⟨n, hn⟩ := h
  obtain ⟨m, hm⟩ := h'
  have h1 := tokens_mono hn (Nat.le_max_left n m)
  have h2 := tokens_mono hm (Nat.le_max_right n m)
  rw [h1] at h2
  exact Option.some.inj h2

end PyText
end Verif
