import Verif.Lemmas.Regex
/-! # What the token patterns match -/
namespace Verif.Rx

theorem matchLen_none {r : Rx} {s : Str} : matchLen r s = none ↔ lens r s = [] := by
  rw [matchLen]; cases lens r s <;> simp

theorem matchLen_eps (s : Str) : matchLen eps s = some 0 := rfl

theorem matchLen_cls_pos {p : Char → Bool} {c : Char} {s : Str} (h : p c = true) : matchLen (cls p) (c :: s) = some 1 := by
  simp [matchLen, lens, h]

theorem matchLen_cls_neg {p : Char → Bool} {c : Char} {s : Str} (h : p c = false) : matchLen (cls p) (c :: s) = none := by
  simp [matchLen, lens, h]

theorem matchLen_cls_nil {p : Char → Bool} : matchLen (cls p) [] = none := rfl

theorem head_flatMap {α β : Type} {l : List α} {f : α → List β} {a : α} {b : β} (h1 : l.head? = some a) (h2 : (f a).head? = some b) :
    (l.flatMap f).head? = some b := by
  cases l with
  | nil => simp at h1
  | cons x r =>
    simp only [List.head?_cons, Option.some.injEq] at h1
    subst h1
    rw [List.flatMap_cons]
    cases hf : f x with
    | nil => rw [hf] at h2; simp at h2
    | cons y t => rw [hf] at h2; simpa using h2

theorem matchLen_seq {a b : Rx} {s : Str} {i j : Nat} (h1 : matchLen a s = some i) (h2 : matchLen b (s.drop i) = some j) :
    matchLen (seq a b) s = some (i + j) := by
  rw [matchLen, lens]
  apply head_flatMap (a := i) h1
  rw [List.head?_map]
  rw [matchLen] at h2
  rw [h2]; rfl

theorem matchLen_seq_none {a b : Rx} {s : Str} (h1 : matchLen a s = none) : matchLen (seq a b) s = none := by
  rw [matchLen_none] at h1 ⊢
  simp [lens, h1]

/-- The first part matches in one way only. -/
theorem lens_seq_one {a b : Rx} {s : Str} {i : Nat} (h1 : lens a s = [i]) : lens (seq a b) s = (lens b (s.drop i)).map (i + ·) := by
  rw [lens, h1]; simp

theorem matchLen_alt_left {a b : Rx} {s : Str} {k : Nat} (h : matchLen a s = some k) : matchLen (alt a b) s = some k := by
  rw [matchLen] at h
  rw [matchLen, lens, List.head?_append, h]; rfl

theorem matchLen_alt_right {a b : Rx} {s : Str} (h : matchLen a s = none) : matchLen (alt a b) s = matchLen b s := by
  rw [matchLen_none] at h
  rw [matchLen, lens, h]; rfl

theorem many_run {f : Str → List Nat} : ∀ (n m : Nat) (s : Str), n ≤ m → (∀ i, i < n → (f (s.drop i)).head? = some 1) →
    (n < m → f (s.drop n) = []) → (many f m s).head? = some n
  | 0, 0, s, _, _, _ => rfl
  | 0, m + 1, s, _, _, h => by
    have := h (by omega)
    simp only [List.drop_zero] at this
    simp [many, this]
  | n + 1, 0, s, h, _, _ => by omega
  | n + 1, m + 1, s, hm, h1, h2 => by
    have ih := many_run n m (s.drop 1) (by omega)
      (fun i hi => by rw [List.drop_drop, Nat.add_comm]; exact h1 (i + 1) (by omega))
      (fun hlt => by rw [List.drop_drop, Nat.add_comm]; exact h2 (by omega))
    have h0 := h1 0 (by omega)
    rw [List.drop_zero] at h0
    rw [many, List.head?_append]
    have : (((f s).filter (0 < ·)).flatMap fun k => (many f m (s.drop k)).map (k + ·)).head? = some (n + 1) := by
      apply head_flatMap (a := 1)
      · cases hf : f s with
        | nil => rw [hf] at h0; simp at h0
        | cons x t =>
          rw [hf] at h0
          simp only [List.head?_cons, Option.some.injEq] at h0
          subst h0
          simp
      · rw [List.head?_map, ih]
        simp [Nat.add_comm]
    rw [this]; rfl

/-- Greedy repetition of a pattern that matches one character at a time. -/
theorem matchLen_star {r : Rx} {s : Str} {n : Nat} (hn : n ≤ s.length) (h1 : ∀ i, i < n → matchLen r (s.drop i) = some 1)
    (h2 : n < s.length → matchLen r (s.drop n) = none) : matchLen (star r) s = some n := by
  rw [matchLen, lens]
  exact many_run n s.length s hn h1 (fun h => matchLen_none.1 (h2 h))

theorem drop_cons_get {s : Str} {i : Nat} (h : i < s.length) : s.drop i = s[i] :: s.drop (i + 1) := by simp

/-- A class repeated over a run of its characters. -/
theorem matchLen_star_cls {p : Char → Bool} (w rest : Str) (hw : ∀ c ∈ w, p c = true)
    (hr : ∀ c t, rest = c :: t → p c = false) : matchLen (star (cls p)) (w ++ rest) = some w.length := by
  apply matchLen_star
  · simp
  · intro i hi
    rw [drop_cons_get (s := w ++ rest) (i := i) (by simp; omega)]
    apply matchLen_cls_pos
    rw [List.getElem_append_left hi]
    exact hw _ (List.getElem_mem _)
  · intro h
    rw [List.drop_left]
    cases hrest : rest with
    | nil => rfl
    | cons c t => exact matchLen_cls_neg (hr c t hrest)

theorem matchLen_plus_cls {p : Char → Bool} (w rest : Str) (hne : w ≠ []) (hw : ∀ c ∈ w, p c = true)
    (hr : ∀ c t, rest = c :: t → p c = false) : matchLen (plus (cls p)) (w ++ rest) = some w.length := by
  cases w with
  | nil => simp at hne
  | cons c w =>
    rw [plus, List.cons_append, List.length_cons, Nat.add_comm]
    exact matchLen_seq (matchLen_cls_pos (hw c (by simp))) (matchLen_star_cls w rest (fun x hx => hw x (by simp [hx])) hr)

theorem matchLen_ch (c : Char) (s : Str) : matchLen (ch c) (c :: s) = some 1 := matchLen_cls_pos (by simp)

/-! ## First characters -/

/-- May the empty text be matched? -/
def nul : Rx → Bool
  | eps => true
  | cls _ => false
  | seq a b => nul a && nul b
  | alt a b => nul a || nul b
  | star _ => true
  | lazy _ => true
  | ahead _ => true
  | notAhead _ => true
  | eol => true

/-- May a non-empty text starting with `c` be matched? -/
def eat : Rx → Char → Bool
  | eps, _ => false
  | cls p, c => p c
  | seq a b, c => eat a c || (nul a && eat b c)
  | alt a b, c => eat a c || eat b c
  | star a, c => eat a c
  | lazy a, c => eat a c
  | ahead _, _ => false
  | notAhead _, _ => false
  | eol, _ => false

theorem many_first {f : Str → List Nat} {c : Char} {s : Str} (h : ∀ k, k ∈ f (c :: s) → 0 < k → False) :
    ∀ n k, k ∈ many f n (c :: s) → k = 0
  | 0, k, hk => by simpa [many] using hk
  | n + 1, k, hk => by
    simp only [many, List.mem_append, List.mem_flatMap, List.mem_filter, decide_eq_true_eq, List.mem_map, List.mem_singleton] at hk
    rcases hk with ⟨i, ⟨hi, hi0⟩, -⟩ | hk
    · exact (h i hi hi0).elim
    · exact hk

theorem manyLazy_first {f : Str → List Nat} {c : Char} {s : Str} (h : ∀ k, k ∈ f (c :: s) → 0 < k → False) :
    ∀ n k, k ∈ manyLazy f n (c :: s) → k = 0
  | 0, k, hk => by simpa [manyLazy] using hk
  | n + 1, k, hk => by
    simp only [manyLazy, List.mem_cons, List.mem_flatMap, List.mem_filter, decide_eq_true_eq, List.mem_map] at hk
    rcases hk with hk | ⟨i, ⟨hi, hi0⟩, -⟩
    · exact hk
    · exact (h i hi hi0).elim

theorem first_char : ∀ (r : Rx) (c : Char) (s : Str) (k : Nat), k ∈ lens r (c :: s) →
    (k = 0 → nul r = true) ∧ (0 < k → eat r c = true)
  | eps, c, s, k, h => by simp [lens] at h; subst h; simp [nul]
  | cls p, c, s, k, h => by
    simp only [lens] at h
    split at h
    · simp only [List.mem_singleton] at h; subst h; simpa [eat] using ‹_›
    · simp at h
  | seq a b, c, s, k, h => by
    simp only [lens, List.mem_flatMap, List.mem_map] at h
    obtain ⟨i, hi, j, hj, rfl⟩ := h
    have ha := first_char a c s i hi
    cases i with
    | zero =>
      rw [List.drop_zero] at hj
      have hb := first_char b c s j hj
      simp only [nul, eat]
      refine ⟨fun h => ?_, fun h => ?_⟩
      · rw [ha.1 rfl, hb.1 (by omega)]; rfl
      · rw [ha.1 rfl, hb.2 (by omega)]; simp
    | succ i =>
      simp only [nul, eat]
      refine ⟨fun h => by omega, fun h => ?_⟩
      rw [ha.2 (by omega)]; rfl
  | alt a b, c, s, k, h => by
    simp only [lens, List.mem_append] at h
    simp only [nul, eat]
    rcases h with h | h
    · have := first_char a c s k h
      exact ⟨fun hk => by rw [this.1 hk]; rfl, fun hk => by rw [this.2 hk]; rfl⟩
    · have := first_char b c s k h
      exact ⟨fun hk => by rw [this.1 hk]; simp, fun hk => by rw [this.2 hk]; simp⟩
  | star a, c, s, k, h => by
    refine ⟨fun _ => rfl, fun hk => ?_⟩
    cases he : eat a c with
    | true => simp [eat, he]
    | false =>
      have := many_first (f := lens a) (c := c) (s := s)
        (fun i hi h0 => by have := (first_char a c s i hi).2 h0; simp [he] at this) _ _ h
      omega
  | lazy a, c, s, k, h => by
    refine ⟨fun _ => rfl, fun hk => ?_⟩
    cases he : eat a c with
    | true => simp [eat, he]
    | false =>
      have := manyLazy_first (f := lens a) (c := c) (s := s)
        (fun i hi h0 => by have := (first_char a c s i hi).2 h0; simp [he] at this) _ _ h
      omega
  | ahead a, c, s, k, h => by
    simp only [lens] at h
    split at h
    · simp at h
    · simp only [List.mem_singleton] at h; subst h; simp [nul]
  | notAhead a, c, s, k, h => by
    simp only [lens] at h
    split at h
    · simp only [List.mem_singleton] at h; subst h; simp [nul]
    · simp at h
  | eol, c, s, k, h => by
    simp only [lens] at h
    split at h
    · simp only [List.mem_singleton] at h; subst h; simp [nul]
    · simp at h

/-- The pattern cannot match a text that starts with `c`. -/
def dead (r : Rx) (c : Char) : Bool := !(eat r c) && !(nul r)

theorem dead_none {r : Rx} {c : Char} {s : Str} (h : dead r c = true) : matchLen r (c :: s) = none := by
  rw [matchLen_none]
  simp only [dead, Bool.and_eq_true, Bool.not_eq_true'] at h
  cases hl : lens r (c :: s) with
  | nil => rfl
  | cons k t =>
    have := first_char r c s k (by rw [hl]; simp)
    rcases Nat.eq_zero_or_pos k with hk | hk
    · have := this.1 hk; simp [h.2] at this
    · have := this.2 hk; simp [h.1] at this

/-- A pattern that cannot match anything but the empty text. -/
theorem idle_zero {r : Rx} {c : Char} {s : Str} {k : Nat} (h : eat r c = false) (hk : matchLen r (c :: s) = some k) : k = 0 := by
  rcases Nat.eq_zero_or_pos k with h0 | h0
  · exact h0
  · have := (first_char r c s k (mem_of_matchLen hk)).2 h0
    simp [h] at this

/-! ## Words in any combination of capitals -/

theorem mem_letter {u l : Char} {s : Str} {k : Nat} (h : k ∈ lens (letter u l) s) : k = 1 ∧ ∃ c t, s = c :: t ∧ (c = u ∨ c = l) := by
  cases s with
  | nil => simp [letter, ch, lens] at h
  | cons c t =>
    simp only [letter, ch, lens, List.mem_append] at h
    rcases h with h | h
    · split at h
      · rename_i hc
        simp only [beq_iff_eq] at hc
        exact ⟨by simpa using h, c, t, rfl, .inl hc⟩
      · simp at h
    · split at h
      · rename_i hc
        simp only [beq_iff_eq] at hc
        exact ⟨by simpa using h, c, t, rfl, .inr hc⟩
      · simp at h

theorem mem_ch {x : Char} {s : Str} {k : Nat} (h : k ∈ lens (ch x) s) : k = 1 ∧ ∃ t, s = x :: t := by
  cases s with
  | nil => simp [ch, lens] at h
  | cons c t =>
    simp only [ch, lens] at h
    split at h
    · rename_i hc
      simp only [beq_iff_eq] at hc
      exact ⟨by simpa using h, t, by rw [hc]⟩
    · simp at h

theorem mem_seq {a b : Rx} {s : Str} {k : Nat} (h : k ∈ lens (seq a b) s) :
    ∃ i j, i ∈ lens a s ∧ j ∈ lens b (s.drop i) ∧ k = i + j := by
  simp only [lens, List.mem_flatMap, List.mem_map] at h
  obtain ⟨i, hi, j, hj, rfl⟩ := h
  exact ⟨i, j, hi, hj, rfl⟩

/-- Letters given in both cases. -/
def word : List (Char × Char) → Rx → Rx
  | [], last => last
  | (u, l) :: r, last => seq (letter u l) (word r last)

theorem mem_word : ∀ {ws : List (Char × Char)} {last : Rx} {s : Str} {k : Nat}, k ∈ lens (word ws last) s →
    ∃ a t j, s = a ++ t ∧ a.length = ws.length ∧ j ∈ lens last t ∧ k = ws.length + j ∧
      ∀ i (h1 : i < a.length) (h2 : i < ws.length), a[i] = ws[i].1 ∨ a[i] = ws[i].2
  | [], last, s, k, h => ⟨[], s, k, rfl, rfl, h, by simp, by simp⟩
  | (u, l) :: ws, last, s, k, h => by
    obtain ⟨i, j, hi, hj, rfl⟩ := mem_seq h
    obtain ⟨rfl, c, t, rfl, hc⟩ := mem_letter hi
    obtain ⟨a, t', j', h1, h2, h3, h4, h5⟩ := mem_word (ws := ws) hj
    simp only [List.drop_succ_cons, List.drop_zero] at h1
    refine ⟨c :: a, t', j', by simp [h1], by simp [h2], h3, by simp; omega, ?_⟩
    intro i h1 h2
    cases i with
    | zero => simpa using hc
    | succ i => simpa using h5 i (by simpa using h1) (by simpa using h2)

end Verif.Rx
