import Verif.Lemmas.DrelLexTok
/-! # Reading numbers and strings -/
namespace Verif
namespace Drel
namespace Lex
open LR Rx

/-- Characters of numbers. -/
def numChar (c : Char) : Prop := digit c = true ∨ c = '.' ∨ c = 'e' ∨ c = 'E' ∨ c = '+' ∨ c = '-'

theorem numChar_ne {c x : Char} (h : numChar c) (hx : digit x = false) (h1 : x ≠ '.') (h2 : x ≠ 'e') (h3 : x ≠ 'E') (h4 : x ≠ '+') (h5 : x ≠ '-') : c ≠ x := by
  rintro rfl
  rcases h with h | h | h | h | h | h
  · rw [hx] at h; cases h
  · exact h1 h
  · exact h2 h
  · exact h3 h
  · exact h4 h
  · exact h5 h

/-- Not a separator. -/
def notBlank (c : Char) : Prop := c ∉ separators

theorem within_two {a b : Char} (ha : a ∉ separators) (hb : b ∉ separators) : Within notBlank (two a b) := by
  intro c hc
  simp only [Bool.or_eq_true, beq_iff_eq] at hc
  rcases hc with rfl | rfl
  · exact ha
  · exact hb

theorem within_ch {a : Char} (ha : a ∉ separators) : Within notBlank (ch a) := by
  intro c hc
  simp only [beq_iff_eq] at hc
  subst hc
  exact ha

theorem within_cls {p : Char → Bool} (h : separators.all (fun c => !p c) = true) : Within notBlank (cls p) := by
  intro c hc e
  have hc : p c = true := hc
  rw [sep_not h e] at hc
  cases hc

theorem within_digits : Within notBlank digits := ⟨within_cls (by decide), within_cls (by decide)⟩

theorem within_expo : Within notBlank expo := ⟨within_two (by decide) (by decide), ⟨within_two (by decide) (by decide), trivial⟩, within_digits⟩

theorem within_real : Within notBlank real :=
  ⟨⟨⟨within_digits, within_ch (by decide), within_cls (by decide)⟩, within_ch (by decide), within_digits⟩, within_expo, trivial⟩

theorem within_imaginary : Within notBlank imaginary := ⟨⟨within_real, within_digits⟩, within_two (by decide) (by decide)⟩

theorem within_binint : Within notBlank binint := ⟨within_ch (by decide), within_two (by decide) (by decide), within_two (by decide) (by decide), within_two (by decide) (by decide)⟩

theorem within_octint : Within notBlank octint := ⟨within_ch (by decide), within_two (by decide) (by decide), within_cls (by decide), within_cls (by decide)⟩

theorem within_hexint : Within notBlank hexint := ⟨within_ch (by decide), within_two (by decide) (by decide), within_cls (by decide), within_cls (by decide)⟩

/-- One of two characters is needed. -/
def isOne (a b c : Char) : Prop := c = a ∨ c = b

theorem needs_two {a b : Char} : Needs (isOne a b) (two a b) := by
  intro c hc
  simpa [isOne] using hc

theorem imaginary_none {x : Char} (hx : x ∈ separators) {s : Str} (h : ∀ c ∈ s, c ≠ 'j' ∧ c ≠ 'J') (r : Str) : lens imaginary (s ++ x :: r) = [] :=
  needs_none within_imaginary (.inr needs_two) (fun h => h hx) (fun c hc hn => hn.elim (h c hc).1 (h c hc).2)

theorem real_none {x : Char} (hx : x ∈ separators) {s : Str} (h : ∀ c ∈ s, c ≠ '.') (r : Str) : lens real (s ++ x :: r) = [] :=
  needs_none (q := fun c => c = '.') within_real (.inl ⟨.inr (.inl (by intro c hc; simpa using hc)), .inl (by intro c hc; simpa using hc)⟩) (fun h => h hx) h

theorem binint_none {x : Char} (hx : x ∈ separators) {s : Str} (h : ∀ c ∈ s, c ≠ 'b' ∧ c ≠ 'B') (r : Str) : lens binint (s ++ x :: r) = [] :=
  needs_none within_binint (.inr (.inl needs_two)) (fun h => h hx) (fun c hc hn => hn.elim (h c hc).1 (h c hc).2)

theorem octint_none {x : Char} (hx : x ∈ separators) {s : Str} (h : ∀ c ∈ s, c ≠ 'o' ∧ c ≠ 'O') (r : Str) : lens octint (s ++ x :: r) = [] :=
  needs_none within_octint (.inr (.inl needs_two)) (fun h => h hx) (fun c hc hn => hn.elim (h c hc).1 (h c hc).2)

theorem hexint_none {x : Char} (hx : x ∈ separators) {s : Str} (h : ∀ c ∈ s, c ≠ 'x' ∧ c ≠ 'X') (r : Str) : lens hexint (s ++ x :: r) = [] :=
  needs_none within_hexint (.inr (.inl needs_two)) (fun h => h hx) (fun c hc hn => hn.elim (h c hc).1 (h c hc).2)

theorem digits_head {s t : Str} (hn : s ≠ []) (hs : ∀ c ∈ s, digit c = true) (ht : ∀ c ∈ t.head?, digit c = false) : (lens digits (s ++ t)).head? = some s.length :=
  plusCls_head hn hs ht

/-- The first two rules do not match what begins with a digit or a point. -/
theorem pick_num {c : Char} {t : Str} (h : digit c = true ∨ c = '.') : pick (c :: t) initial = pick (c :: t) (initial.drop 2) := by
  have n : ∀ x : Char, digit x = false → x ≠ '.' → c ≠ x := by
    intro x h1 h2 e
    subst e
    rcases h with h | h
    · rw [h1] at h; cases h
    · exact h2 h
  have ha : starts augop c = false := by
    have e : starts augop c = (starts (lit "++=".toList) c || (starts (lit "+=".toList) c || (starts (lit "-=".toList) c || (starts (lit "--=".toList) c ||
      (starts (lit "*=".toList) c || starts (lit "/=".toList) c))))) := rfl
    rw [e]
    have l1 : starts (lit "++=".toList) c = false := starts_lit (n _ (by decide) (by decide))
    have l2 : starts (lit "+=".toList) c = false := starts_lit (n _ (by decide) (by decide))
    have l3 : starts (lit "-=".toList) c = false := starts_lit (n _ (by decide) (by decide))
    have l4 : starts (lit "--=".toList) c = false := starts_lit (n _ (by decide) (by decide))
    have l5 : starts (lit "*=".toList) c = false := starts_lit (n _ (by decide) (by decide))
    have l6 : starts (lit "/=".toList) c = false := starts_lit (n _ (by decide) (by decide))
    rw [l1, l2, l3, l4, l5, l6]; rfl
  have hb : starts (ch '(') c = false := by simpa [starts, ch] using n '(' (by decide) (by decide)
  show pick (c :: t) ((augop, .give K.augop) :: (ch '(', .opens) :: initial.drop 2) = _
  rw [pick_skip (starts_none _ ha), pick_skip (starts_none _ hb)]

/-- A number that is picked. -/
theorem round_num {c x : Char} {t : Str} {k : Nat} (hc : digit c = true ∨ c = '.') (d : Nat) (r : Str)
    (h : pick (c :: t ++ x :: r) (initial.drop 2) = some (.give k, t.length + 1)) : round d (c :: t ++ x :: r) = .tok (k, .str (c :: t)) d (x :: r) := by
  have n : ∀ x : Char, digit x = false → x ≠ '.' → c ≠ x := by
    intro x h1 h2 e
    subst e
    rcases hc with h | h
    · rw [h1] at h; cases h
    · exact h2 h
  have hp : pick (c :: (t ++ x :: r)) initial = some (.give k, t.length + 1) := by rw [pick_num hc]; exact h
  show round d (c :: (t ++ x :: r)) = _
  rw [round_of (d := d) (n _ (by decide) (by decide)) (n _ (by decide) (by decide))
    (ignored_false (n _ (by decide) (by decide)) (n _ (by decide) (by decide)) (n _ (by decide) (by decide))) hp]
  have h1 : (c :: (t ++ x :: r)).take (t.length + 1) = c :: t := by simp
  have h2 : (c :: (t ++ x :: r)).drop (t.length + 1) = x :: r := by simp
  simp only [act, h1, h2]

theorem round_int {x : Char} (hx : x ∈ separators) {s : Str} (hn : s ≠ []) (hs : ∀ c ∈ s, digit c = true) (d : Nat) (r : Str) : round d (s ++ x :: r) = .tok (K.integer, .str s) d (x :: r) := by
  obtain ⟨c, t, rfl⟩ := List.exists_cons_of_ne_nil hn
  apply round_num (.inl (hs c (by simp)))
  have ne : ∀ x : Char, digit x = false → ∀ c' ∈ c :: t, c' ≠ x := fun x hx c' hc' => digit_ne (hs c' hc') hx
  show pick (c :: t ++ x :: r) ((imaginary, .give K.imaginary) :: (real, .give K.real) :: (binint, .number K.binint 2) :: (octint, .number K.octint 8) ::
    (hexint, .number K.hexint 16) :: (digits, .give K.integer) :: initial.drop 8) = _
  rw [pick_skip (imaginary_none hx (fun c' h => ⟨ne 'j' (by decide) c' h, ne 'J' (by decide) c' h⟩) r), pick_skip (real_none hx (ne '.' (by decide)) r),
    pick_skip (binint_none hx (fun c' h => ⟨ne 'b' (by decide) c' h, ne 'B' (by decide) c' h⟩) r),
    pick_skip (octint_none hx (fun c' h => ⟨ne 'o' (by decide) c' h, ne 'O' (by decide) c' h⟩) r),
    pick_skip (hexint_none hx (fun c' h => ⟨ne 'x' (by decide) c' h, ne 'X' (by decide) c' h⟩) r),
    pick_take (digits_head hn hs (by simpa using sep_not (p := digit) (by decide) hx))]
  rfl

/-! ## Real numbers -/

theorem isInt_iff {s : Str} : IsInt s ↔ s ≠ [] ∧ ∀ c ∈ s, digit c = true := by simp only [IsInt, digit_iff]

theorem opt_head {r : Rx} {s : Str} (h : lens r s = []) : (lens (opt r) s).head? = some 0 := by simp [opt, lens, h]

/-- What comes after a real number: neither a digit nor `e` or `E`. -/
def Ends (t : Str) : Prop := ∀ c ∈ t.head?, digit c = false ∧ c ≠ 'e' ∧ c ≠ 'E'

theorem expo_head {e t : Str} (he : IsExpo e) (ht : Ends t) : (lens (opt expo) (e ++ t)).head? = some e.length := by
  rcases he with rfl | ⟨c, sign, ds, hc, hsign, hds, rfl⟩
  · refine opt_head ?_
    cases t with
    | nil => rfl
    | cons x t => exact seq_none (two_none (ht x (by simp)).2.2 (ht x (by simp)).2.1)
  · rw [isInt_iff] at hds
    have htw : (lens (two 'E' 'e') (c :: (sign ++ ds) ++ t)).head? = some 1 := by rcases hc with rfl | rfl <;> simp [two, lens]
    have hdig : (lens digits (ds ++ t)).head? = some ds.length := digits_head hds.1 hds.2 (fun c hc => (ht c hc).1)
    have hsg : (lens (opt (two '+' '-')) (sign ++ (ds ++ t))).head? = some sign.length := by
      rcases hsign with rfl | rfl | rfl
      · obtain ⟨x, ds, rfl⟩ := List.exists_cons_of_ne_nil hds.1
        exact opt_head (two_none (digit_ne (hds.2 x (by simp)) (by decide)) (digit_ne (hds.2 x (by simp)) (by decide)))
      · exact alt_left (by simp [two, lens])
      · exact alt_left (by simp [two, lens])
    have h2 : (lens (seq (opt (two '+' '-')) digits) (sign ++ (ds ++ t))).head? = some (sign.length + ds.length) :=
      seq_head hsg (by rw [List.drop_left]; exact hdig)
    have h1 : (lens expo (c :: (sign ++ ds) ++ t)).head? = some (1 + (sign.length + ds.length)) := seq_head htw (by
      have : (c :: (sign ++ ds) ++ t).drop 1 = sign ++ (ds ++ t) := by simp
      rw [this]
      exact h2)
    have := alt_left (b := eps) h1
    rw [show (c :: (sign ++ ds)).length = 1 + (sign.length + ds.length) by simp [Nat.add_comm]]
    exact this

theorem expo_ends {e t : Str} (he : IsExpo e) (ht : Ends t) : ∀ c ∈ (e ++ t).head?, digit c = false := by
  rcases he with rfl | ⟨c, sign, ds, hc, -, -, rfl⟩
  · exact fun c hc => (ht c hc).1
  · intro x hx
    simp only [List.cons_append, List.head?_cons, Option.mem_def, Option.some.injEq] at hx
    subst hx
    rcases hc with rfl | rfl <;> decide

theorem real_head {s t : Str} (h : IsReal s) (ht : Ends t) : (lens real (s ++ t)).head? = some s.length := by
  obtain ⟨a, b, e, ha, hb, hne, he, rfl⟩ := h
  simp only [← digit_iff] at ha hb
  have hee := expo_ends he ht
  have hx := expo_head he ht
  have hm : (lens (alt (seqs [digits, ch '.', star (cls digit)]) (seq (ch '.') digits)) (a ++ '.' :: (b ++ (e ++ t)))).head? = some (a.length + (1 + b.length)) := by
    by_cases han : a = []
    · subst han
      have hbn : b ≠ [] := by simpa using hne
      have h0 : lens (seqs [digits, ch '.', star (cls digit)]) ([] ++ '.' :: (b ++ (e ++ t))) = [] := starts_none _ (by decide)
      rw [alt_right h0]
      have : (lens (seq (ch '.') digits) ('.' :: (b ++ (e ++ t)))).head? = some (1 + b.length) := seq_head (cls_head (by decide)) (digits_head hbn hb hee)
      simpa using this
    · refine alt_left (seq_head (digits_head han ha (by simp; decide)) ?_)
      rw [List.drop_left]
      exact seq_head (cls_head (by decide)) (starCls_head hb hee)
  have := seq_head (b := opt expo) hm (by
    have : (a ++ '.' :: (b ++ (e ++ t))).drop (a.length + (1 + b.length)) = e ++ t := by
      rw [← List.drop_drop, List.drop_left, ← List.drop_drop]
      simp
    rw [this]
    exact hx)
  have e1 : a ++ '.' :: (b ++ e) ++ t = a ++ '.' :: (b ++ (e ++ t)) := by simp
  have e2 : (a ++ '.' :: (b ++ e)).length = a.length + (1 + b.length) + e.length := by simp; omega
  rw [e1, e2]
  exact this

theorem expo_chars {e : Str} (he : IsExpo e) : ∀ c ∈ e, numChar c := by
  rcases he with rfl | ⟨c, sign, ds, hc, hsign, hds, rfl⟩
  · simp
  · rw [isInt_iff] at hds
    intro x hx
    rw [List.mem_cons, List.mem_append] at hx
    rcases hx with rfl | hx | hx
    · rcases hc with rfl | rfl
      · exact .inr (.inr (.inl rfl))
      · exact .inr (.inr (.inr (.inl rfl)))
    · rcases hsign with rfl | rfl | rfl
      · cases hx
      · simp only [List.mem_singleton] at hx
        exact .inr (.inr (.inr (.inr (.inl hx))))
      · simp only [List.mem_singleton] at hx
        exact .inr (.inr (.inr (.inr (.inr hx))))
    · exact .inl (hds.2 x hx)

theorem real_chars {s : Str} (h : IsReal s) : ∀ c ∈ s, numChar c := by
  obtain ⟨a, b, e, ha, hb, hne, he, rfl⟩ := h
  simp only [← digit_iff] at ha hb
  intro c hc
  rw [List.mem_append, List.mem_cons, List.mem_append] at hc
  rcases hc with hc | rfl | hc | hc
  · exact .inl (ha c hc)
  · exact .inr (.inl rfl)
  · exact .inl (hb c hc)
  · exact expo_chars he c hc

theorem real_first {s : Str} (h : IsReal s) : ∃ c t, s = c :: t ∧ (digit c = true ∨ c = '.') := by
  obtain ⟨a, b, e, ha, hb, hne, he, rfl⟩ := h
  simp only [← digit_iff] at ha hb
  cases a with
  | nil => exact ⟨_, _, rfl, .inr rfl⟩
  | cons c a => exact ⟨_, _, rfl, .inl (ha c (by simp))⟩

theorem ends_blank {x : Char} (hx : x ∈ separators) (r : Str) : Ends (x :: r) := by
  intro c hc
  simp only [List.head?_cons, Option.mem_def, Option.some.injEq] at hc
  subst hc
  exact ⟨sep_not (p := digit) (by decide) hx, sep_ne hx (by decide), sep_ne hx (by decide)⟩

theorem round_real {x : Char} (hx : x ∈ separators) {s : Str} (h : IsReal s) (d : Nat) (r : Str) : round d (s ++ x :: r) = .tok (K.real, .str s) d (x :: r) := by
  have hh := real_head h (ends_blank hx r)
  have hch := real_chars h
  obtain ⟨c, t, rfl, hc⟩ := real_first h
  apply round_num hc
  show pick (c :: t ++ x :: r) ((imaginary, .give K.imaginary) :: (real, .give K.real) :: initial.drop 4) = _
  rw [pick_skip (imaginary_none hx (fun c' h => ⟨numChar_ne (hch c' h) (by decide) (by decide) (by decide) (by decide) (by decide) (by decide),
    numChar_ne (hch c' h) (by decide) (by decide) (by decide) (by decide) (by decide) (by decide)⟩) r), pick_take hh]
  rfl

theorem round_imaginary {x : Char} (hx : x ∈ separators) {s : Str} (h : IsImaginary s) (d : Nat) (r : Str) : round d (s ++ x :: r) = .tok (K.imaginary, .str s) d (x :: r) := by
  obtain ⟨a, j, ha, hj, rfl⟩ := h
  have hjd : digit j = false := by rcases hj with rfl | rfl <;> decide
  have htw : (lens (two 'j' 'J') (j :: x :: r)).head? = some 1 := by rcases hj with rfl | rfl <;> simp [two, lens]
  have hm : (lens (alt real digits) (a ++ j :: x :: r)).head? = some a.length := by
    rcases ha with ha | ha
    · rw [isInt_iff] at ha
      have h0 : lens real (a ++ j :: x :: r) = [] := by
        have := real_none hx (s := a ++ [j]) (by
          intro c hc
          rw [List.mem_append, List.mem_singleton] at hc
          rcases hc with hc | rfl
          · exact digit_ne (ha.2 c hc) (by decide)
          · rcases hj with rfl | rfl <;> decide) r
        simpa using this
      rw [alt_right h0]
      exact digits_head ha.1 ha.2 (by simpa using hjd)
    · refine alt_left (real_head ha ?_)
      intro c hc
      simp only [List.head?_cons, Option.mem_def, Option.some.injEq] at hc
      subst hc
      rcases hj with rfl | rfl <;> decide
  have hi : (lens imaginary (a ++ [j] ++ x :: r)).head? = some (a ++ [j]).length := by
    have := seq_head hm (b := two 'j' 'J') (by rw [List.drop_left]; exact htw)
    simpa [imaginary] using this
  obtain ⟨c, t, rfl, hc⟩ : ∃ c t, a = c :: t ∧ (digit c = true ∨ c = '.') := by
    rcases ha with ha | ha
    · rw [isInt_iff] at ha
      obtain ⟨c, t, rfl⟩ := List.exists_cons_of_ne_nil ha.1
      exact ⟨c, t, rfl, .inl (ha.2 c (by simp))⟩
    · exact real_first ha
  have := round_num (c := c) (t := t ++ [j]) (k := K.imaginary) hc d r (by
    show pick (c :: t ++ [j] ++ x :: r) ((imaginary, .give K.imaginary) :: initial.drop 3) = _
    rw [pick_take hi]
    rfl)
  exact this

/-! ## Strings -/

/-- A greedy repetition that takes characters one by one up to where its pattern does not match. -/
theorem starRx_head {x : Rx} : ∀ (s : Str) {t : Str} (n : Nat), s.length ≤ n → (∀ c ∈ s, ∀ u, (lens x (c :: u)).head? = some 1) → lens x t = [] →
    (many (lens x) n (s ++ t)).head? = some s.length
  | [], t, 0, _, _, _ => rfl
  | [], t, n + 1, _, _, ht => by simp [many, ht]
  | c :: s, t, 0, h, _, _ => by simp at h
  | c :: s, t, n + 1, h, hs, ht => by
    have ih := starRx_head s (t := t) n (by simpa using h) (fun c' hc => hs c' (List.mem_cons_of_mem _ hc)) ht
    have h1 := hs c (by simp) (s ++ t)
    cases hl : lens x (c :: (s ++ t)) with
    | nil => rw [hl] at h1; cases h1
    | cons k ks =>
      rw [hl] at h1
      simp only [List.head?_cons, Option.some.injEq] at h1
      subst h1
      cases hm : many (lens x) n (s ++ t) with
      | nil => rw [hm] at ih; cases ih
      | cons m ms =>
        rw [hm] at ih
        simp only [List.head?_cons, Option.some.injEq] at ih
        subst ih
        simp [many, hl, hm, Nat.add_comm]

theorem short_head {q : Char} (hq : q = '\'' ∨ q = '"') {m : Str} (hm : ∀ x ∈ m, x ≠ q ∧ x ≠ '\n') (t : Str) :
    (lens (shortOf q) (q :: (m ++ q :: t))).head? = some (1 + (m.length + 1)) := by
  have hq' : q ≠ '\\' := by rcases hq with rfl | rfl <;> decide
  have hst : (lens (star (alt (cls fun c => c != q && c != '\n') escaped)) (m ++ q :: t)).head? = some m.length := by
    refine starRx_head m (t := q :: t) _ (by simp) ?_ ?_
    · intro c hc u
      have := hm c hc
      exact alt_left (cls_head (by simp [this.1, this.2]))
    · exact alt_none (by simp [lens]) (seq_none (by simp [lens, ch, hq']))
  refine seq_head (cls_head (by simp)) (seq_head hst ?_)
  rw [List.drop_succ_cons, List.drop_zero, List.drop_left]
  exact cls_head (by simp)

theorem long_none {q x : Char} {m : Str} (hm : ∀ x ∈ m, x ≠ q) (hq : q ≠ x) (r : Str) : lens (longOf q) (q :: (m ++ q :: x :: r)) = [] := by
  refine seq_none ?_
  show lens (seqs [ch q, ch q, ch q]) (q :: (m ++ q :: x :: r)) = []
  cases m with
  | nil => simp [seqs, lens, ch, hq.symm]
  | cons c m => simp [seqs, lens, ch, hm c (by simp)]

theorem round_short {x : Char} (hx : x ∈ separators) {s : Str} (h : IsShort s) (d : Nat) (r : Str) : round d (s ++ x :: r) = .tok (K.shortString, .str s) d (x :: r) := by
  obtain ⟨q, m, hq, hm, rfl⟩ := h
  have hh := short_head hq hm (x :: r)
  have hlq := long_none (q := q) (m := m) (fun x hx => (hm x hx).1) (by rcases hq with rfl | rfl <;> exact (sep_ne hx (by decide)).symm) r
  have hlong : lens longString (q :: (m ++ q :: x :: r)) = [] := by
    rcases hq with rfl | rfl
    · exact alt_none hlq (starts_none _ (by decide))
    · exact alt_none (starts_none _ (by decide)) hlq
  have hshort : (lens shortString (q :: (m ++ q :: x :: r))).head? = some (1 + (m.length + 1)) := by
    rcases hq with rfl | rfl
    · exact alt_left hh
    · have h0 : lens (shortOf '\'') ('"' :: (m ++ '"' :: x :: r)) = [] := starts_none _ (by decide)
      show (lens (alt (shortOf '\'') (shortOf '"')) ('"' :: (m ++ '"' :: x :: r))).head? = _
      rw [alt_right h0]
      exact hh
  have hp : pick (q :: (m ++ q :: x :: r)) initial = some (.give K.shortString, 1 + (m.length + 1)) := by
    have := pick_starts (c := q) (t := m ++ q :: x :: r) (initial.take 9) (rest := initial.drop 9) (by rcases hq with rfl | rfl <;> decide)
    rw [List.take_append_drop] at this
    rw [this]
    show pick (q :: (m ++ q :: x :: r)) ((longString, .give K.longString) :: (shortString, .give K.shortString) :: initial.drop 11) = _
    rw [pick_skip hlong, pick_take hshort]
  have e : q :: (m ++ [q]) ++ x :: r = q :: (m ++ q :: x :: r) := by simp
  have hne : ∀ x : Char, x ≠ '\'' → x ≠ '"' → q ≠ x := by
    intro x h1 h2 e
    subst e
    exact hq.elim h1 h2
  rw [e, round_of (d := d) (hne _ (by decide) (by decide)) (hne _ (by decide) (by decide))
    (ignored_false (hne _ (by decide) (by decide)) (hne _ (by decide) (by decide)) (hne _ (by decide) (by decide))) hp]
  have h1 : (q :: (m ++ q :: x :: r)).take (1 + (m.length + 1)) = q :: (m ++ [q]) := by
    rw [Nat.add_comm 1, List.take_succ_cons, List.take_length_add_append]
    rfl
  have h2 : (q :: (m ++ q :: x :: r)).drop (1 + (m.length + 1)) = x :: r := by
    rw [Nat.add_comm 1, List.drop_succ_cons, List.drop_length_add_append]
    rfl
  simp only [act, h1, h2]

end Lex
end Drel
end Verif
