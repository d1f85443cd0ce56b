import Verif.Lemmas.Number
/-! # The number pattern as a regular expression -/
namespace Verif
open Rx
namespace Number

theorem matchLen_opt (r : Rx) (s : Str) : matchLen (opt r) s = some ((matchLen r s).getD 0) := by
  cases h : matchLen r s with
  | none => rw [opt, matchLen_alt_right h]; rfl
  | some k => rw [opt, matchLen_alt_left h]; rfl

theorem mem_opt {r : Rx} {s : Str} {k : Nat} (h : k ∈ lens (opt r) s) : k ∈ lens r s ∨ k = 0 := by
  rw [opt, lens, List.mem_append] at h
  rcases h with h | h
  · exact .inl h
  · exact .inr (by simpa [lens] using h)

theorem many_cls {p : Char → Bool} : ∀ (n : Nat) (s : Str) (k : Nat), k ∈ many (lens (cls p)) n s → k ≤ (s.takeWhile p).length
  | 0, s, k, h => by simp [many] at h; omega
  | n + 1, s, k, h => by
    rw [many, List.mem_append] at h
    rcases h with h | h
    · rw [List.mem_flatMap] at h
      obtain ⟨j, hj, hk⟩ := h
      have hj' := (List.mem_filter.1 hj).1
      cases s with
      | nil => simp [lens] at hj'
      | cons c t =>
        rw [lens] at hj'
        split at hj'
        · rename_i hc
          simp at hj'
          subst hj'
          rw [List.mem_map] at hk
          obtain ⟨i, hi, rfl⟩ := hk
          have := many_cls n t i (by simpa using hi)
          rw [List.takeWhile_cons, hc]
          simp; omega
        · cases hj'
    · simp at h; omega

theorem mem_star_cls {p : Char → Bool} {s : Str} {k : Nat} (h : k ∈ lens (star (cls p)) s) : k ≤ (s.takeWhile p).length :=
  many_cls _ _ _ h

theorem mem_plus_cls {p : Char → Bool} {s : Str} {k : Nat} (h : k ∈ lens (plus (cls p)) s) : 1 ≤ k ∧ k ≤ (s.takeWhile p).length := by
  rw [plus] at h
  obtain ⟨i, j, h1, h2, rfl⟩ := mem_seq h
  have hi := cls_pos h1
  subst hi
  cases s with
  | nil => simp [lens] at h1
  | cons c t =>
    have hc : p c = true := by
      rw [lens] at h1
      split at h1
      · assumption
      · cases h1
    have := mem_star_cls (s := t) (by simpa using h2)
    rw [List.takeWhile_cons, hc]
    simp; omega

theorem getElem_takeWhile {p : Char → Bool} {s : Str} {k : Nat} (h : k < (s.takeWhile p).length) : ∃ c t, s.drop k = c :: t ∧ p c = true := by
  induction s generalizing k with
  | nil => simp at h
  | cons c t ih =>
    rw [List.takeWhile_cons] at h
    split at h
    · rename_i hc
      cases k with
      | zero => exact ⟨c, t, rfl, hc⟩
      | succ k => exact ih (by simpa using h)
    · cases h

theorem drop_takeWhile (p : Char → Bool) (s : Str) : s.drop (s.takeWhile p).length = s.dropWhile p := by
  induction s with
  | nil => rfl
  | cons c t ih =>
    rw [List.takeWhile_cons, List.dropWhile_cons]
    split
    · simpa using ih
    · rfl

theorem dropWhile_stops (p : Char → Bool) (s : Str) : ∀ c t, s.dropWhile p = c :: t → p c = false := by
  induction s with
  | nil => intro c t h; cases h
  | cons x r ih =>
    intro c t h
    rw [List.dropWhile_cons] at h
    split at h
    · exact ih c t h
    · rename_i hx
      cases h
      simpa using hx

theorem of_takeWhile {p : Char → Bool} {s : Str} : ∀ c ∈ s.takeWhile p, p c = true := by
  induction s with
  | nil => intro c h; cases h
  | cons x r ih =>
    intro c h
    rw [List.takeWhile_cons] at h
    split at h
    · rename_i hx
      rcases List.mem_cons.1 h with e | e
      · subst e; exact hx
      · exact ih c e
    · cases h

theorem star_run (p : Char → Bool) (s : Str) : matchLen (star (cls p)) s = some (s.takeWhile p).length := by
  have := matchLen_star_cls (p := p) (s.takeWhile p) (s.dropWhile p) of_takeWhile (dropWhile_stops p s)
  rwa [List.takeWhile_append_dropWhile] at this

theorem plus_run (p : Char → Bool) (s : Str) (h : s.takeWhile p ≠ []) : matchLen (plus (cls p)) s = some (s.takeWhile p).length := by
  have := matchLen_plus_cls (p := p) (s.takeWhile p) (s.dropWhile p) h of_takeWhile (dropWhile_stops p s)
  rwa [List.takeWhile_append_dropWhile] at this

theorem plus_none (p : Char → Bool) (s : Str) (h : s.takeWhile p = []) : matchLen (plus (cls p)) s = none := by
  rw [matchLen_none]
  rw [List.eq_nil_iff_forall_not_mem]
  intro k hk
  have := mem_plus_cls hk
  rw [h] at this
  simp at this
  omega

/-! ## The mantissa -/

/-- The length of what was consumed. -/
theorem matchBody_len {s b : Str} {dad : Option Str} {r : Str} (h : matchBody s = some (b, dad, r)) : s.drop b.length = r := by
  obtain ⟨_, _, _, _, _, _, _, rfl⟩ := matchBody_some h
  simp

theorem ch_none {x : Char} {s : Str} (h : ∀ t, s ≠ x :: t) : matchLen (ch x) s = none := by
  cases s with
  | nil => rfl
  | cons c t =>
    apply matchLen_cls_neg
    simp only [beq_eq_false_iff_ne, ne_eq]
    intro e
    exact h t (by rw [e])

/-- `[0-9]*[.][0-9]+` matches only after all leading digits. -/
theorem point_none {s : Str} (h : ∀ t, s.dropWhile isDigit = '.' :: t → t.takeWhile isDigit = []) :
    matchLen (seqs [star (cls isDigit), ch '.', plus (cls isDigit)]) s = none := by
  rw [matchLen_none, List.eq_nil_iff_forall_not_mem]
  intro k hk
  obtain ⟨i, j, h1, h2, rfl⟩ := mem_seq (a := star (cls isDigit)) (b := seqs [ch '.', plus (cls isDigit)]) hk
  obtain ⟨i2, j2, h3, h4, rfl⟩ := mem_seq (a := ch '.') (b := plus (cls isDigit)) h2
  obtain ⟨rfl, t, ht⟩ := mem_ch h3
  have hi := mem_star_cls h1
  rcases Nat.lt_or_eq_of_le hi with hlt | heq
  · obtain ⟨c, u, hc, hd⟩ := getElem_takeWhile hlt
    rw [ht] at hc
    cases hc
    revert hd; decide
  · rw [heq, drop_takeWhile] at ht
    have := mem_plus_cls h4
    rw [heq, drop_takeWhile, ht] at this
    simp only [List.drop_succ_cons, List.drop_zero, h t ht] at this
    simp at this
    omega

theorem point_some {s t : Str} (h1 : s.dropWhile isDigit = '.' :: t) (h2 : t.takeWhile isDigit ≠ []) :
    matchLen (seqs [star (cls isDigit), ch '.', plus (cls isDigit)]) s = some ((s.takeWhile isDigit).length + (1 + (t.takeWhile isDigit).length)) := by
  apply matchLen_seq (a := star (cls isDigit)) (b := seqs [ch '.', plus (cls isDigit)]) (star_run _ _)
  rw [drop_takeWhile, h1]
  apply matchLen_seq (a := ch '.') (b := plus (cls isDigit)) (matchLen_ch '.' t)
  exact plus_run _ _ h2

theorem int_some {s : Str} (h : s.takeWhile isDigit ≠ []) :
    matchLen (seq (plus (cls isDigit)) (opt (ch '.'))) s =
      some ((s.takeWhile isDigit).length + (matchLen (ch '.') (s.dropWhile isDigit)).getD 0) := by
  apply matchLen_seq (plus_run _ _ h)
  rw [drop_takeWhile, matchLen_opt]

theorem matchLen_body (s : Str) : matchLen bodyRx s = (matchBody s).map fun m => m.1.length := by
  unfold matchBody bodyRx
  cases hd : s.dropWhile isDigit with
  | nil =>
    have hp := point_none (s := s) (fun t ht => by rw [hd] at ht; cases ht)
    rw [matchLen_alt_right hp]
    by_cases hi : s.takeWhile isDigit = []
    · simp only [hi, ne_eq, not_true_eq_false, if_false, Option.map_none]
      exact matchLen_seq_none (plus_none _ _ hi)
    · rw [int_some hi, hd]
      simp [hi, matchLen_cls_nil, ch]
  | cons c t =>
    by_cases hc : c = '.'
    · subst hc
      by_cases hf : t.takeWhile isDigit = []
      · have hp := point_none (s := s) (fun u hu => by rw [hd] at hu; cases hu; exact hf)
        rw [matchLen_alt_right hp]
        by_cases hi : s.takeWhile isDigit = []
        · simp only [hi, hf, ne_eq, not_true_eq_false, if_false, if_true, Option.map_none]
          exact matchLen_seq_none (plus_none _ _ hi)
        · rw [int_some hi, hd, matchLen_ch]
          simp [hi, hf]
      · rw [matchLen_alt_left (point_some hd hf)]
        simp [hf]; omega
    · have hp := point_none (s := s) (fun u hu => by rw [hd] at hu; cases hu; exact absurd rfl hc)
      rw [matchLen_alt_right hp]
      by_cases hi : s.takeWhile isDigit = []
      · simp only [hi, hc, ne_eq, not_true_eq_false, if_false, Option.map_none]
        exact matchLen_seq_none (plus_none _ _ hi)
      · rw [int_some hi, hd, ch_none (fun u hu => by cases hu; exact hc rfl)]
        simp [hi, hc]

/-! ## Bracket and exponent -/

theorem matchLen_esd (s : Str) : (matchLen esdRx s).getD 0 + (matchEsd s).2.length = s.length := by
  cases s with
  | nil => rfl
  | cons c t =>
    rw [matchEsd]
    have hlen : (t.takeWhile isDigit).length + (t.dropWhile isDigit).length = t.length := by
      rw [← List.length_append, List.takeWhile_append_dropWhile]
    split
    · rename_i h
      obtain ⟨h1, h2, h3⟩ := h
      subst h1
      cases hd : t.dropWhile isDigit with
      | nil => rw [hd] at h3; cases h3
      | cons x r =>
        rw [hd] at h3
        simp only [List.head?_cons, Option.some.injEq] at h3
        subst h3
        have : matchLen esdRx ('(' :: t) = some (1 + ((t.takeWhile isDigit).length + 1)) := by
          apply matchLen_seq (a := ch '(') (b := seqs [plus (cls isDigit), ch ')']) (matchLen_ch _ _)
          apply matchLen_seq (a := plus (cls isDigit)) (b := ch ')') (plus_run _ _ h2)
          show matchLen (ch ')') (t.drop (t.takeWhile isDigit).length) = some 1
          rw [drop_takeWhile, hd]
          exact matchLen_ch _ _
        rw [this]
        rw [hd] at hlen
        simp at hlen ⊢
        omega
    · rename_i h
      have : matchLen esdRx (c :: t) = none := by
        rw [matchLen_none, List.eq_nil_iff_forall_not_mem]
        intro k hk
        obtain ⟨i, j, h1, h2, rfl⟩ := mem_seq (a := ch '(') (b := seqs [plus (cls isDigit), ch ')']) hk
        obtain ⟨i2, j2, h3, h4, rfl⟩ := mem_seq (a := plus (cls isDigit)) (b := ch ')') h2
        obtain ⟨rfl, u, hu⟩ := mem_ch h1
        cases hu
        simp only [List.drop_succ_cons, List.drop_zero] at h3 h4
        have h5 := mem_plus_cls h3
        obtain ⟨rfl, w, hw⟩ := mem_ch h4
        apply h
        refine ⟨rfl, ?_, ?_⟩
        · intro e; rw [e] at h5; simp at h5; omega
        · rcases Nat.lt_or_eq_of_le h5.2 with hlt | heq
          · obtain ⟨x, y, hx, hy⟩ := getElem_takeWhile hlt
            rw [hw] at hx
            cases hx
            exact absurd hy (by decide)
          · rw [heq, drop_takeWhile] at hw
            rw [hw]; rfl
      rw [this]; simp

theorem signCls (c : Char) : (c == '+' || c == '-') = true ↔ c = '+' ∨ c = '-' := by simp

theorem matchLen_sign (s : Str) : matchLen (opt (cls fun c => c == '+' || c == '-')) s = some (optSign s).1.length ∧
    s.drop (optSign s).1.length = (optSign s).2 := by
  rw [matchLen_opt]
  cases s with
  | nil => exact ⟨rfl, rfl⟩
  | cons c t =>
    rw [optSign]
    by_cases h : c = '+' ∨ c = '-'
    · rw [matchLen_cls_pos ((signCls c).2 h), if_pos h]; exact ⟨rfl, rfl⟩
    · rw [matchLen_cls_neg (by rw [← Bool.not_eq_true]; exact fun e => h ((signCls c).1 e)), if_neg h]; exact ⟨rfl, rfl⟩

theorem expCls (c : Char) : (c == 'e' || c == 'E' || c == 'd' || c == 'D') = true ↔ c = 'e' ∨ c = 'E' ∨ c = 'd' ∨ c = 'D' := by
  simp [or_assoc]

theorem matchLen_exp (s : Str) : (matchLen expRx s).getD 0 + (matchExp s).2.length = s.length := by
  cases s with
  | nil => rfl
  | cons c t =>
    rw [matchExp]
    obtain ⟨hs1, hs2⟩ := matchLen_sign t
    have hlen : (optSign t).1.length + (optSign t).2.length = t.length := by
      obtain ⟨sg, e1, e2⟩ := optSign_some t
      conv => rhs; rw [e2]
      rw [e1, List.length_append]
    have hlen2 : ((optSign t).2.takeWhile isDigit).length + ((optSign t).2.dropWhile isDigit).length = (optSign t).2.length := by
      rw [← List.length_append, List.takeWhile_append_dropWhile]
    split
    · rename_i h
      obtain ⟨h1, h2⟩ := h
      have : matchLen expRx (c :: t) = some (1 + ((optSign t).1.length + ((optSign t).2.takeWhile isDigit).length)) := by
        apply matchLen_seq (a := cls fun c => c == 'e' || c == 'E' || c == 'd' || c == 'D')
          (b := seqs [opt (cls fun c => c == '+' || c == '-'), plus (cls isDigit)]) (matchLen_cls_pos ((expCls c).2 h1))
        apply matchLen_seq (a := opt (cls fun c => c == '+' || c == '-')) (b := plus (cls isDigit)) hs1
        show matchLen (plus (cls isDigit)) (t.drop (optSign t).1.length) = _
        rw [hs2]
        exact plus_run _ _ h2
      rw [this]
      simp
      omega
    · rename_i h
      have : matchLen expRx (c :: t) = none := by
        rw [matchLen_none, List.eq_nil_iff_forall_not_mem]
        intro k hk
        obtain ⟨i, j, h1, h2, rfl⟩ := mem_seq (a := cls fun c => c == 'e' || c == 'E' || c == 'd' || c == 'D')
          (b := seqs [opt (cls fun c => c == '+' || c == '-'), plus (cls isDigit)]) hk
        obtain ⟨i2, j2, h3, h4, rfl⟩ := mem_seq (a := opt (cls fun c => c == '+' || c == '-')) (b := plus (cls isDigit)) h2
        have hi := cls_pos h1
        subst hi
        have hc : c = 'e' ∨ c = 'E' ∨ c = 'd' ∨ c = 'D' := by
          rw [lens] at h1
          split at h1
          · rename_i e; exact (expCls c).1 e
          · cases h1
        simp only [List.drop_succ_cons, List.drop_zero] at h3 h4
        have h5 := mem_plus_cls h4
        apply h
        refine ⟨hc, ?_⟩
        intro e
        rcases mem_opt h3 with h6 | h6
        · have hi2 := cls_pos h6
          subst hi2
          cases t with
          | nil => simp [lens] at h6
          | cons x y =>
            have hx : x = '+' ∨ x = '-' := by
              rw [lens] at h6
              split at h6
              · rename_i e; exact (signCls x).1 e
              · cases h6
            simp only [optSign, if_pos hx] at e
            simp only [List.drop_succ_cons, List.drop_zero, e] at h5
            simp at h5
            omega
        · subst h6
          cases t with
          | nil => simp at h5; omega
          | cons x y =>
            rw [List.drop_zero] at h5
            by_cases hx : x = '+' ∨ x = '-'
            · have : isDigit x = false := isDigit_false (by rcases hx with e | e <;> simp [e])
              rw [List.takeWhile_cons, this] at h5
              simp at h5; omega
            · simp only [optSign, if_neg hx] at e
              rw [e] at h5
              simp at h5; omega
      rw [this]; simp

/-- The number pattern matches what the model takes apart. -/
theorem matchLen_num (s : Str) : matchLen numRx s = (matchNumb s).map fun m => s.length - m.2.length := by
  have htail : ∀ u : Str, ∃ k, matchLen (seqs [opt esdRx, opt expRx]) u = some k ∧
      k + (matchExp (matchEsd u).2).2.length = u.length := by
    intro u
    have h1 := matchLen_esd u
    have h2 := matchLen_exp (matchEsd u).2
    refine ⟨(matchLen esdRx u).getD 0 + (matchLen expRx (matchEsd u).2).getD 0, ?_, by omega⟩
    have hdrop : u.drop ((matchLen esdRx u).getD 0) = (matchEsd u).2 := by
      have e := (matchEsd_some u).1
      have hl : (Spec.Numeral.suText (matchEsd u).1).length = (matchLen esdRx u).getD 0 := by
        have : u.length = (Spec.Numeral.suText (matchEsd u).1).length + (matchEsd u).2.length := by
          conv => lhs; rw [e]
          rw [List.length_append]
        omega
      rw [← hl]
      have := List.drop_left (l₁ := Spec.Numeral.suText (matchEsd u).1) (l₂ := (matchEsd u).2)
      rwa [← e] at this
    apply matchLen_seq (a := opt esdRx) (b := opt expRx) (matchLen_opt _ _)
    rw [hdrop, matchLen_opt]
  have hbody : ∀ v : Str, ∀ b dad r, matchBody v = some (b, dad, r) →
      ∃ k, matchLen (seqs [bodyRx, opt esdRx, opt expRx]) v = some k ∧ k + (matchExp (matchEsd r).2).2.length = v.length := by
    intro v b dad r hb
    obtain ⟨k, h1, h2⟩ := htail r
    have hd := matchBody_len hb
    refine ⟨b.length + k, ?_, ?_⟩
    · apply matchLen_seq (a := bodyRx) (b := seqs [opt esdRx, opt expRx])
      · rw [matchLen_body, hb]; rfl
      · rw [hd]; exact h1
    · obtain ⟨_, _, _, _, _, _, _, e⟩ := matchBody_some hb
      rw [e, List.length_append]; omega
  have hnone : ∀ v : Str, matchBody v = none → matchLen (seqs [bodyRx, opt esdRx, opt expRx]) v = none := by
    intro v hb
    exact matchLen_seq_none (a := bodyRx) (by rw [matchLen_body, hb]; rfl)
  have hplain : ∀ v : Str, (∀ t, v ≠ '-' :: t) → matchLen numRx v = matchLen (seqs [bodyRx, opt esdRx, opt expRx]) v := by
    intro v hv
    have h0 : lens (opt (ch '-')) v = [0] := by
      rw [opt, lens, matchLen_none.1 (ch_none hv)]; rfl
    rw [matchLen, matchLen]
    have : lens numRx v = (lens (seqs [bodyRx, opt esdRx, opt expRx]) (v.drop 0)).map (0 + ·) := lens_seq_one h0
    rw [this]; simp
  cases hb : matchBase s with
  | none =>
    rw [matchNumb, hb]
    simp only [Option.map_none]
    by_cases hs : ∃ t, s = '-' :: t
    · obtain ⟨t, rfl⟩ := hs
      have ht : matchBody t = none := by
        rw [matchBase] at hb
        simpa using hb
      rw [matchLen_none, List.eq_nil_iff_forall_not_mem]
      intro k hk
      obtain ⟨i, j, h1, h2, rfl⟩ := mem_seq (a := opt (ch '-')) (b := seqs [bodyRx, opt esdRx, opt expRx]) hk
      rcases mem_opt h1 with e | e
      · obtain ⟨rfl, u, hu⟩ := mem_ch e
        cases hu
        have := hnone t ht
        rw [matchLen_none] at this
        simp only [List.drop_succ_cons, List.drop_zero] at h2
        rw [this] at h2; cases h2
      · subst e
        rw [List.drop_zero] at h2
        have : matchBody ('-' :: t) = none := by
          unfold matchBody
          have : isDigit '-' = false := by decide
          simp [this]
        have := hnone _ this
        rw [matchLen_none] at this
        rw [this] at h2; cases h2
    · rw [hplain s (fun t e => hs ⟨t, e⟩)]
      apply hnone
      cases s with
      | nil => exact hb
      | cons c t =>
        rw [matchBase, if_neg (fun e => hs ⟨t, by rw [e]⟩)] at hb
        exact hb
  | some m =>
    obtain ⟨b, dad, r⟩ := m
    rw [matchNumb, hb]
    simp only [Option.map_some]
    by_cases hs : ∃ t, s = '-' :: t
    · obtain ⟨t, rfl⟩ := hs
      rw [matchBase, if_pos rfl] at hb
      cases hm : matchBody t with
      | none => rw [hm] at hb; cases hb
      | some m =>
        rw [hm] at hb
        obtain ⟨b', d', r'⟩ := m
        cases hb
        obtain ⟨k, h1, h2⟩ := hbody t _ _ _ hm
        have : matchLen numRx ('-' :: t) = some (1 + k) := by
          apply matchLen_seq (a := opt (ch '-')) (b := seqs [bodyRx, opt esdRx, opt expRx])
          · rw [matchLen_opt, matchLen_ch]; rfl
          · exact h1
        rw [this]
        simp
        omega
    · have hb' : matchBody s = some (b, dad, r) := by
        cases s with
        | nil => exact hb
        | cons c t =>
          rw [matchBase, if_neg (fun e => hs ⟨t, by rw [e]⟩)] at hb
          exact hb
      obtain ⟨k, h1, h2⟩ := hbody s _ _ _ hb'
      rw [hplain s (fun t e => hs ⟨t, e⟩), h1]
      congr 1; omega

end Number
end Verif
