import Verif.Lemmas.Dialect
import Verif.Lemmas.Match
/-! # Tokens of CIF 1.1 -/
set_option linter.unusedSectionVars false
namespace Verif.Lex
open Rx Scanner

/-- All tokens the parsers of 1.0 and 1.1 ask for outside text fields. -/
def full : List Tk := [.loop, .saveHeading, .saveEnd, .dataName, .dataHeading, .startSc, .value, .fin]

/-- The scanner is asked for some of the tokens `F`. -/
def Within (F R : List Tk) : Prop := R ≠ [] ∧ R ⊆ F

/-- The scanner is asked for some of the tokens that stand outside text fields. -/
abbrev Outside (R : List Tk) : Prop := Within full R

theorem Within.asked {F R : List Tk} (h : Within F R) {n : Tk} (ha : Asked R n) : n ∈ F ++ Pat.ignored := by
  rcases ha with ha | ha | ha
  · exact (h.1 ha).elim
  · exact List.mem_append_left _ (h.2 ha)
  · exact List.mem_append_right _ ha

/-- Patterns that lose against any match of at least one character of a text starting with `c`, except for names in `X`. -/
def Quiet (F X : List Tk) (l : Pat.Table) (c : Char) : Bool :=
  l.all fun q => decide (q.1 ∈ X) || !decide (q.1 ∈ F ++ Pat.ignored) || !eat q.2 c

theorem best_but {tb : Pat.Table} {F R : List Tk} (hR : Within F R) {pre post : Pat.Table} {n : Tk} {r : Rx} (X : List Tk)
    (e : tb = pre ++ (n, r) :: post) (hn : n ∈ R ∨ n ∈ Pat.ignored) {c : Char} {s : Str} {k : Nat} (hk : 0 < k)
    (hm : matchLen r (c :: s) = some k) (hq : Quiet F X (pre ++ post) c = true)
    (h1 : ∀ q ∈ pre, q.1 ∈ X → ∀ j, matchLen q.2 (c :: s) = some j → j < k)
    (h2 : ∀ q ∈ post, q.1 ∈ X → ∀ j, matchLen q.2 (c :: s) = some j → j ≤ k) : Best tb R (c :: s) n k := by
  have key : ∀ q ∈ pre ++ post, Asked R q.1 → q.1 ∉ X → ∀ j, matchLen q.2 (c :: s) = some j → j = 0 := by
    intro q hqm ha hx j hj
    have := List.all_eq_true.1 hq q hqm
    simp only [Bool.or_eq_true, decide_eq_true_eq, Bool.not_eq_true', decide_eq_false_iff_not] at this
    rcases this with (h | h) | h
    · exact (hx h).elim
    · exact (h (hR.asked ha)).elim
    · exact idle_zero h hj
  refine ⟨pre, r, post, e, .inr hn, hm, ?_, ?_⟩
  · intro q hq' ha j hj
    by_cases hx : q.1 ∈ X
    · exact h1 q hq' hx j hj
    · have := key q (List.mem_append_left _ hq') ha hx j hj
      omega
  · intro q hq' ha j hj
    by_cases hx : q.1 ∈ X
    · exact h2 q hq' hx j hj
    · have := key q (List.mem_append_right _ hq') ha hx j hj
      omega

theorem best_sole {tb : Pat.Table} {F R : List Tk} (hR : Within F R) {pre post : Pat.Table} {n : Tk} {r : Rx}
    (e : tb = pre ++ (n, r) :: post) (hn : n ∈ R ∨ n ∈ Pat.ignored) {c : Char} {s : Str} {k : Nat} (hk : 0 < k)
    (hm : matchLen r (c :: s) = some k) (hq : Quiet F [] (pre ++ post) c = true) : Best tb R (c :: s) n k :=
  best_but hR [] e hn hk hm hq (by simp) (by simp)

/-- Entry number `i` of the table and what stands before and after it. -/
theorem table_split (tb : Pat.Table) (i : Nat) (h : i < tb.length) : tb = tb.take i ++ tb[i] :: tb.drop (i + 1) := by
  rw [List.getElem_cons_drop, List.take_append_drop]

theorem Stops.cls {p : Char → Bool} {rest : Str} (h : Stops rest) (h1 : p ' ' = false) (h2 : p '\n' = false) :
    ∀ c t, rest = c :: t → p c = false := by
  intro c t e
  rcases h c t e with rfl | rfl
  · exact h1
  · exact h2

/-! ## White space -/

theorem best_blank {R : List Tk} (hR : Outside R) (s : Str) : Best Pat.table11 R (' ' :: s) .ignore1 1 := by
  refine best_sole hR (table_split Pat.table11 0 (by decide)) (.inr (by decide)) (by omega) ?_ (by decide +kernel)
  show matchLen Pat.ignore1 (' ' :: s) = some 1
  by_cases h : matchLen (ch ';') s = none
  · apply matchLen_alt_left
    apply matchLen_seq (i := 1) (j := 0) (matchLen_cls_pos (by decide))
    rw [matchLen_none] at h
    simp [matchLen, lens, h]
  · rw [Pat.ignore1, matchLen_alt_right]
    · exact matchLen_cls_pos (by decide)
    · rw [matchLen_none] at h ⊢
      rw [lens_seq_one (i := 1) (by simp [lens])]
      simp [lens, h]

theorem semi_none {s : Str} (h : s.head? ≠ some ';') : matchLen (ch ';') s = none := by
  cases s with
  | nil => rfl
  | cons c t =>
    apply matchLen_cls_neg
    simpa using h

theorem startSc_eq : Pat.startSc = seq (alt (ch '\n') (lit ['\r', '\n'])) (seq (ch ';') (seq (star (cls Pat.notNlCr)) Pat.lineEnds)) := rfl

theorem best_nl {R : List Tk} (hR : Outside R) {s : Str} (h : s.head? ≠ some ';') : Best Pat.table11 R ('\n' :: s) .ignore1 1 := by
  refine best_but hR [.startSc] (table_split Pat.table11 0 (by decide)) (.inr (by decide)) (by omega) ?_ (by decide +kernel) (by simp) ?_
  · show matchLen Pat.ignore1 ('\n' :: s) = some 1
    apply matchLen_alt_left
    apply matchLen_seq (i := 1) (j := 0) (matchLen_cls_pos (by decide))
    have := semi_none h
    rw [matchLen_none] at this
    simp [matchLen, lens, this]
  · intro q hq hx j hj
    have : q.2 = Pat.startSc := by
      simp [Pat.table11, Pat.table1] at hq
      simp only [List.mem_singleton] at hx
      rcases hq with rfl | rfl | rfl | rfl | rfl | rfl | rfl | rfl | rfl | rfl | rfl | rfl | rfl <;> first | rfl | simp at hx
    rw [this] at hj
    have hn : matchLen Pat.startSc ('\n' :: s) = none := by
      rw [startSc_eq, matchLen_none, lens_seq_one (i := 1) (by simp [lens, ch, lit])]
      have := semi_none h
      rw [matchLen_none] at this
      simp [lens, this]
    rw [hn] at hj
    simp at hj

theorem lexes_blank {R : List Tk} (hR : Outside R) {s : Str} {n : Tk} {w rest : Str} (h : Lexes Pat.table11 R s n w rest) :
    Lexes Pat.table11 R (' ' :: s) n w rest :=
  .skip (best_blank hR s) (by decide) (by omega) h

theorem lexes_nl {R : List Tk} (hR : Outside R) {s : Str} {n : Tk} {w rest : Str} (hs : s.head? ≠ some ';')
    (h : Lexes Pat.table11 R s n w rest) : Lexes Pat.table11 R ('\n' :: s) n w rest :=
  .skip (best_nl hR hs) (by decide) (by omega) h

theorem lexes_gap {R : List Tk} (hR : Outside R) {s : Str} {n : Tk} {w rest : Str} (hs : s.head? ≠ some ';')
    (h : Lexes Pat.table11 R s n w rest) : ∀ (g : Str), (∀ c ∈ g, c = ' ' ∨ c = '\n') → Lexes Pat.table11 R (g ++ s) n w rest
  | [], _ => h
  | c :: g, hg => by
    have ih := lexes_gap hR hs h g (fun x hx => hg x (by simp [hx]))
    rcases hg c (by simp) with rfl | rfl
    · exact lexes_blank hR ih
    · refine lexes_nl hR ?_ ih
      cases g with
      | nil => exact hs
      | cons d g =>
        rcases hg d (by simp) with rfl | rfl <;> simp

/-! ## Names, headings, keywords -/

theorem lexes_of_best {tb : Pat.Table} {R : List Tk} {w rest : Str} {n : Tk} (hb : Best tb R (w ++ rest) n w.length)
    (hn : n ∉ Pat.ignored) : Lexes tb R (w ++ rest) n w rest := by
  have := Lexes.tok hb hn
  simpa using this

theorem lexes_name {R : List Tk} (hR : Outside R) (hn : Tk.dataName ∈ R) {w rest : Str} (hw : ∀ c ∈ w, Pat.nameChar1 c = true)
    (hne : w ≠ []) (hr : Stops rest) : Lexes Pat.table11 R (('_' :: w) ++ rest) .dataName ('_' :: w) rest := by
  apply lexes_of_best (hn := by decide)
  refine best_sole hR (table_split Pat.table11 7 (by decide)) (.inl hn) (by simp) ?_ (by decide +kernel)
  show matchLen (seq (ch '_') (plus (cls Pat.nameChar1))) ('_' :: (w ++ rest)) = _
  rw [List.length_cons, Nat.add_comm]
  exact matchLen_seq (matchLen_ch _ _) (matchLen_plus_cls w rest hne hw (hr.cls (by decide) (by decide)))

theorem matchLen_lit_word : ∀ (ws : List (Char × Char)) (last : Rx) (s : Str) (k : Nat), matchLen last s = some k →
    (∀ x ∈ ws, x.1 ≠ x.2) → matchLen (word ws last) (ws.map (·.2) ++ s) = some (ws.length + k)
  | [], last, s, k, h, _ => by simpa [word] using h
  | (u, l) :: ws, last, s, k, h, hd => by
    have ih := matchLen_lit_word ws last s k h (fun x hx => hd x (by simp [hx]))
    have : matchLen (letter u l) (l :: (ws.map (·.2) ++ s)) = some 1 := by
      rw [letter, matchLen_alt_right]
      · exact matchLen_ch _ _
      · apply matchLen_cls_neg
        have := hd (u, l) (by simp)
        simpa using fun h => this h.symm
    have h2 := matchLen_seq (a := letter u l) (b := word ws last) this (by simpa using ih)
    rw [word, List.map_cons, List.cons_append, h2]
    simp; omega

/-- Letters of reserved words in both cases. -/
def dataL : List (Char × Char) := [('D', 'd'), ('A', 'a'), ('T', 't'), ('A', 'a')]
/-- See `dataL`. -/
def saveL : List (Char × Char) := [('S', 's'), ('A', 'a'), ('V', 'v'), ('E', 'e')]
/-- See `dataL`. -/
def loopL : List (Char × Char) := [('L', 'l'), ('O', 'o'), ('O', 'o'), ('P', 'p')]
/-- See `dataL`. -/
def stopL : List (Char × Char) := [('S', 's'), ('T', 't'), ('O', 'o'), ('P', 'p')]
/-- See `dataL`. -/
def globalL : List (Char × Char) := [('G', 'g'), ('L', 'l'), ('O', 'o'), ('B', 'b'), ('A', 'a'), ('L', 'l')]

/-- The text starts with the word and an underscore, in any combination of capitals. -/
def StartsWord (ws : List (Char × Char)) (s : Str) : Prop :=
  ∃ a t, s = a ++ '_' :: t ∧ a.length = ws.length ∧ asciiLower a = ws.map (·.2)

theorem dataWord_eq : Pat.dataWord = word dataL (ch '_') := rfl
theorem saveWord_eq : Pat.saveWord = word saveL (ch '_') := rfl
theorem loopWord_eq : Pat.loopWord = word loopL (ch '_') := rfl
theorem stopWord_eq : Pat.stopWord = word stopL (ch '_') := rfl
theorem globalWord_eq : Pat.globalWord = word globalL (ch '_') := rfl

theorem mem_word_lower {ws : List (Char × Char)} (hw : ∀ x ∈ ws, asciiLowerChar x.1 = x.2 ∧ asciiLowerChar x.2 = x.2) {s : Str} {k : Nat}
    (h : k ∈ lens (word ws (ch '_')) s) : StartsWord ws s ∧ k = ws.length + 1 := by
  obtain ⟨a, t, j, rfl, h2, h3, h4, h5⟩ := mem_word h
  obtain ⟨rfl, t', rfl⟩ := mem_ch h3
  refine ⟨⟨a, t', rfl, h2, ?_⟩, h4⟩
  apply List.ext_getElem
  · simp [asciiLower, h2]
  · intro i h6 h7
    simp only [asciiLower, List.getElem_map]
    have h8 : i < ws.length := by simpa using h7
    have h9 := hw ws[i] (List.getElem_mem _)
    rcases h5 i (by omega) h8 with h | h
    · rw [h]; exact h9.1
    · rw [h]; exact h9.2

theorem lens_star_cls {p : Char → Bool} : ∀ (n : Nat) (s : Str) (k : Nat), k ∈ many (lens (cls p)) n s → ∀ c ∈ s.take k, p c = true
  | 0, s, k, h => by simp [many] at h; subst h; simp
  | n + 1, s, k, h => by
    simp only [many, List.mem_append, List.mem_flatMap, List.mem_filter, List.mem_map, List.mem_singleton] at h
    rcases h with ⟨i, ⟨hi, -⟩, j, hj, rfl⟩ | h
    · have := cls_pos hi
      subst this
      cases s with
      | nil => simp [lens] at hi
      | cons x s =>
        have hx : p x = true := by
          simp only [lens] at hi
          split at hi
          · assumption
          · simp at hi
        have ih := lens_star_cls n s j (by simpa using hj)
        intro c hc
        rw [Nat.add_comm, List.take_succ_cons, List.mem_cons] at hc
        rcases hc with rfl | hc
        · exact hx
        · exact ih c hc
    · subst h; simp

/-- A repeated class does not go beyond a run of its characters. -/
theorem star_cls_le {p : Char → Bool} {w rest : Str} (hr : ∀ c t, rest = c :: t → p c = false) {k : Nat}
    (h : k ∈ lens (star (cls p)) (w ++ rest)) : k ≤ w.length := by
  apply Classical.byContradiction
  intro hk
  have h1 := lens_star_cls _ _ _ (by rw [lens] at h; exact h)
  cases rest with
  | nil =>
    have := lens_le _ _ _ h
    simp at this
    omega
  | cons c t =>
    have : c ∈ (w ++ c :: t).take k := by
      rw [List.take_append, List.mem_append]
      right
      rw [show k - w.length = (k - w.length - 1) + 1 by omega]
      simp
    have := h1 c this
    rw [hr c t rfl] at this
    simp at this

/-! ## Bare values -/

theorem value_eq (f : Char → Bool) : Pat.dataValue1 f =
    alt (seq Pat.notReserved (seq (cls f) Pat.nonSpaces)) (alt Pat.quoted1 Pat.dquoted1) := rfl

/-- The words a bare value may not start with. -/
def Reserved (s : Str) : Prop := StartsWord saveL s ∨ StartsWord globalL s ∨ StartsWord stopL s ∨ StartsWord dataL s

theorem reserved_of_lens {s : Str} (h : lens Pat.notReserved s = []) : Reserved s := by
  rw [Pat.notReserved, lens] at h
  split at h
  · simp at h
  · rename_i h'
    simp only [List.isEmpty_iff] at h'
    obtain ⟨k, hk⟩ := List.exists_mem_of_ne_nil _ h'
    simp only [lens, List.mem_append] at hk
    rcases hk with hk | hk | hk | hk
    · obtain ⟨i, j, hi, -, -⟩ := mem_seq (a := Pat.saveWord) (b := Pat.nonSpaces) (by rw [lens]; exact hk)
      rw [saveWord_eq] at hi
      exact .inl (mem_word_lower (by decide +kernel) hi).1
    · obtain ⟨i, j, hi, -, -⟩ := mem_seq (a := Pat.globalWord) (b := Pat.nonSpaces) (by rw [lens]; exact hk)
      rw [globalWord_eq] at hi
      exact .inr (.inl (mem_word_lower (by decide +kernel) hi).1)
    · obtain ⟨i, j, hi, -, -⟩ := mem_seq (a := Pat.stopWord) (b := Pat.nonSpaces) (by rw [lens]; exact hk)
      rw [stopWord_eq] at hi
      exact .inr (.inr (.inl (mem_word_lower (by decide +kernel) hi).1))
    · obtain ⟨i, j, hi, -, -⟩ := mem_seq (a := Pat.dataWord) (b := Pat.nonSpaces) (by rw [lens]; exact hk)
      rw [dataWord_eq] at hi
      exact .inr (.inr (.inr (mem_word_lower (by decide +kernel) hi).1))

theorem startsWord_before {ws : List (Char × Char)} {w rest : Str} (E : List Char) (hE : ∀ c ∈ E, c ≠ '_' ∧ ∀ x ∈ ws, asciiLowerChar c ≠ x.2)
    (hr : ∀ c t, rest = c :: t → c ∈ E) (h : StartsWord ws (w ++ rest)) : StartsWord ws w := by
  obtain ⟨a, t, e, hl, ha⟩ := h
  have hlen : a.length < w.length := by
    apply Classical.byContradiction
    intro hle
    have hle : w.length ≤ a.length := by omega
    obtain ⟨x, hx⟩ : ∃ x, a = w ++ x := by
      have h1 : (w ++ rest).take w.length = w := by simp
      rw [e, List.take_append_of_le_length hle] at h1
      exact ⟨a.drop w.length, by conv => lhs; rw [← List.take_append_drop w.length a, h1]⟩
    rw [hx, List.append_assoc] at e
    have e := List.append_cancel_left e
    cases x with
    | nil =>
      exact ((hE _ (hr _ _ e)).1 rfl).elim
    | cons c x =>
      have hc := hr c _ e
      have : asciiLowerChar c ∈ asciiLower a := by
        rw [hx, asciiLower]
        exact List.mem_map_of_mem (by simp)
      rw [ha] at this
      obtain ⟨y, hy, hy'⟩ := List.mem_map.1 this
      exact ((hE c hc).2 y hy hy'.symm).elim
  obtain ⟨x, hx⟩ : ∃ x, w = a ++ x := by
    have h1 : (a ++ '_' :: t).take a.length = a := by simp
    rw [← e, List.take_append_of_le_length (by omega)] at h1
    exact ⟨w.drop a.length, by conv => lhs; rw [← List.take_append_drop a.length w, h1]⟩
  subst hx
  rw [List.append_assoc] at e
  have e := List.append_cancel_left e
  cases x with
  | nil => simp at hlen
  | cons c x =>
    simp only [List.cons_append, List.cons.injEq] at e
    exact ⟨a, x, by rw [e.1], hl, ha⟩

theorem Stops.mem {rest : Str} (h : Stops rest) : ∀ c t, rest = c :: t → c ∈ [' ', '\n'] := by
  intro c t e
  rcases h c t e with rfl | rfl <;> simp

theorem startsWord_append {ws : List (Char × Char)} {w rest : Str} (hw : ∀ c ∈ [' ', '\n'], c ≠ '_' ∧ ∀ x ∈ ws, asciiLowerChar c ≠ x.2)
    (hr : Stops rest) (h : StartsWord ws (w ++ rest)) : StartsWord ws w := startsWord_before _ hw hr.mem h

theorem reserved_append {w rest : Str} (hr : Stops rest) (h : Reserved (w ++ rest)) : Reserved w := by
  rcases h with h | h | h | h
  · exact .inl (startsWord_append (by decide) hr h)
  · exact .inr (.inl (startsWord_append (by decide) hr h))
  · exact .inr (.inr (.inl (startsWord_append (by decide) hr h)))
  · exact .inr (.inr (.inr (startsWord_append (by decide) hr h)))

theorem stops_solid {rest : Str} (h : Stops rest) : ∀ c t, rest = c :: t → (!isSpace c) = false :=
  h.cls (p := fun c => !isSpace c) (by decide) (by decide)

/-- A text the scanner takes as one value without delimiters. -/
structure Bare (w : Str) : Prop where
  first : ∃ c t, w = c :: t ∧ Pat.bareStart11 c = true ∧ c ≠ ';'
  solid : ∀ c ∈ w, isSpace c = false
  free : ¬ Reserved w
  noLoop : asciiLower w ≠ "loop_".toList

theorem matchLen_bare {w rest : Str} (hw : Bare w) (hr : Stops rest) :
    matchLen (Pat.dataValue1 Pat.bareStart11) (w ++ rest) = some w.length := by
  obtain ⟨c, t, rfl, hc, -⟩ := hw.first
  rw [value_eq]
  apply matchLen_alt_left
  have h1 : matchLen Pat.notReserved (c :: t ++ rest) = some 0 := by
    cases hl : lens Pat.notReserved (c :: t ++ rest) with
    | nil => exact (hw.free (reserved_append hr (reserved_of_lens hl))).elim
    | cons k l =>
      rw [Pat.notReserved, lens] at hl
      rw [matchLen, Pat.notReserved, lens]
      split at hl
      · rename_i h; rw [if_pos h]; rfl
      · simp at hl
  have h2 : matchLen (seq (cls Pat.bareStart11) Pat.nonSpaces) (c :: t ++ rest) = some (1 + t.length) :=
    matchLen_seq (matchLen_cls_pos hc) (matchLen_star_cls t rest (fun x hx => by rw [hw.solid x (by simp [hx])]; rfl) (stops_solid hr))
  have := matchLen_seq h1 (by rw [List.drop_zero]; exact h2)
  rw [this]
  simp; omega

theorem entry_only {tb : Pat.Table} (hd : (tb.map (·.1)).Nodup) {q : Tk × Rx} (hq : q ∈ tb) (i : Nat) (h : i < tb.length) (hn : q.1 = tb[i].1) :
    q.2 = tb[i].2 := by
  obtain ⟨j, hj, rfl⟩ := List.getElem_of_mem hq
  have : j = i := by
    apply Classical.byContradiction
    intro hne
    have key : ∀ a b (ha : a < tb.length) (hb : b < tb.length), a < b → tb[a].1 ≠ tb[b].1 := by
      intro a b ha hb hab
      have := List.pairwise_iff_getElem.1 hd a b (by simpa using ha) (by simpa using hb) hab
      simpa using this
    rcases Nat.lt_or_gt_of_ne hne with h' | h'
    · exact key j i hj h h' hn
    · exact key i j h hj h' hn.symm
  subst this
  rfl

theorem entry_unique {q : Tk × Rx} (hq : q ∈ Pat.table11) (i : Nat) (h : i < Pat.table11.length) (hn : q.1 = Pat.table11[i].1) :
    q.2 = Pat.table11[i].2 := entry_only (by decide +kernel) hq i h hn

theorem mem_take11 {q : Tk × Rx} {i : Nat} (h : q ∈ Pat.table11.take i) : q ∈ Pat.table11 := List.mem_of_mem_take h
theorem mem_drop11 {q : Tk × Rx} {i : Nat} (h : q ∈ Pat.table11.drop i) : q ∈ Pat.table11 := List.mem_of_mem_drop h

/-- Two different patterns cannot have the same number of entries before them. -/
theorem bare_le {w rest : Str} (hw : ∀ c ∈ w, isSpace c = false) (hr : Stops rest) {k : Nat}
    (h : k ∈ lens (seq Pat.notReserved (seq (cls Pat.bareStart11) Pat.nonSpaces)) (w ++ rest)) : k ≤ w.length := by
  obtain ⟨i, j, hi, hj, rfl⟩ := mem_seq h
  have hi0 : i = 0 := by
    rw [Pat.notReserved, lens] at hi
    split at hi <;> simp at hi
    exact hi
  subst hi0
  obtain ⟨i', j', hi', hj', rfl⟩ := mem_seq hj
  have := cls_pos hi'
  subst this
  rw [List.drop_zero] at hi' hj'
  cases w with
  | nil =>
    rw [List.nil_append] at hi'
    cases rest with
    | nil => simp [lens] at hi'
    | cons c t =>
      simp only [lens] at hi'
      have : Pat.bareStart11 c = false := hr.cls (by decide) (by decide) c t rfl
      simp [this] at hi'
  | cons c w =>
    have := star_cls_le (p := fun c => !isSpace c) (w := w) (stops_solid hr) (k := j') (by simpa [Pat.nonSpaces] using hj')
    simp; omega

theorem value_quote_none {c : Char} {s : Str} (h1 : c ≠ '\'') (h2 : c ≠ '"') {k : Nat}
    (hk : k ∈ lens (alt Pat.quoted1 Pat.dquoted1) (c :: s)) : False := by
  have h := first_char _ _ _ _ hk
  rcases Nat.eq_zero_or_pos k with h0 | h0
  · have := h.1 h0
    revert this
    decide +kernel
  · have := h.2 h0
    simp only [eat, Pat.quoted1, Pat.dquoted1, seqs, ch, nul, Bool.or_eq_true, Bool.and_eq_true, beq_iff_eq, Bool.false_eq_true,
      false_and, or_false] at this
    exact this.elim h1 h2

theorem value_le {w rest : Str} (hw : ∀ c ∈ w, isSpace c = false) (hr : Stops rest) {c : Char} {t : Str} (e : w = c :: t) (h1 : c ≠ '\'')
    (h2 : c ≠ '"') {k : Nat} (h : matchLen (Pat.dataValue1 Pat.bareStart11) (w ++ rest) = some k) : k ≤ w.length := by
  have hm := mem_of_matchLen h
  rw [value_eq, lens, List.mem_append] at hm
  rcases hm with hm | hm
  · exact bare_le hw hr hm
  · subst e
    exact (value_quote_none h1 h2 hm).elim

theorem lexes_loop {R : List Tk} (hR : Outside R) (hn : Tk.loop ∈ R) {rest : Str} (hr : Stops rest) :
    Lexes Pat.table11 R ("loop_".toList ++ rest) .loop "loop_".toList rest := by
  apply lexes_of_best (hn := by decide)
  refine best_but hR [.value] (table_split Pat.table11 2 (by decide)) (.inl hn) (by decide) ?_ (by decide +kernel) ?_ ?_
  · show matchLen Pat.loopWord _ = _
    rw [loopWord_eq]
    have := matchLen_lit_word loopL (ch '_') ('_' :: rest) 1 (matchLen_ch _ _) (by decide)
    exact this
  · intro q hq hx
    rw [List.mem_singleton] at hx
    have : q ∈ [(Tk.ignore1, Pat.ignore1), (.ignore2, Pat.ignore2)] := hq
    simp only [List.mem_cons, List.not_mem_nil, or_false] at this
    rcases this with rfl | rfl <;> simp at hx
  · intro q hq hx j hj
    rw [List.mem_singleton] at hx
    rw [entry_unique (mem_drop11 hq) 12 (by decide) hx] at hj
    exact value_le (w := "loop_".toList) (by decide) hr rfl (by decide) (by decide) hj

theorem value_reserved {s : Str} {c : Char} {t : Str} (e : s = c :: t) (h1 : c ≠ '\'') (h2 : c ≠ '"')
    (h : lens Pat.notReserved s = []) : matchLen (Pat.dataValue1 Pat.bareStart11) s = none := by
  rw [matchLen_none, value_eq, lens, lens, h]
  simp only [List.flatMap_nil, List.nil_append]
  cases hl : lens (alt Pat.quoted1 Pat.dquoted1) s with
  | nil => rfl
  | cons k l =>
    subst e
    exact (value_quote_none (k := k) h1 h2 (by rw [hl]; simp)).elim

theorem lexes_heading {R : List Tk} (hR : Outside R) (hn : Tk.dataHeading ∈ R) {w rest : Str} (hw : ∀ c ∈ w, Pat.nameChar1 c = true)
    (hne : w ≠ []) (hr : Stops rest) : Lexes Pat.table11 R (("data_".toList ++ w) ++ rest) .dataHeading ("data_".toList ++ w) rest := by
  apply lexes_of_best (hn := by decide)
  have hword : matchLen Pat.dataWord ("data_".toList ++ w ++ rest) = some 5 := by
    rw [dataWord_eq]
    exact matchLen_lit_word dataL (ch '_') ('_' :: (w ++ rest)) 1 (matchLen_ch _ _) (by decide)
  refine best_but hR [.value] (table_split Pat.table11 8 (by decide)) (.inl hn) (by simp) ?_ (by decide +kernel) ?_ ?_
  · show matchLen (seq Pat.dataWord (plus (cls Pat.nameChar1))) ("data_".toList ++ w ++ rest) = _
    rw [List.length_append]
    exact matchLen_seq hword (matchLen_plus_cls w rest hne hw (hr.cls (by decide) (by decide)))
  · intro q hq hx
    rw [List.mem_singleton] at hx
    have h' : (Pat.table11.take 8).all (fun q => decide (q.1 ≠ .value)) = true := by decide +kernel
    have := List.all_eq_true.1 h' q hq
    simp [hx] at this
  · intro q hq hx j hj
    rw [List.mem_singleton] at hx
    rw [entry_unique (mem_drop11 hq) 12 (by decide) hx] at hj
    have hres : lens Pat.notReserved ("data_".toList ++ w ++ rest) = [] := by
      rw [Pat.notReserved, lens, if_neg]
      simp only [List.isEmpty_iff, lens, List.append_eq_nil_iff, not_and]
      intro _ _ _ h5
      have : matchLen (seq Pat.dataWord Pat.nonSpaces) ("data_".toList ++ w ++ rest) = none := by
        rw [matchLen_none, lens]; exact h5
      obtain ⟨j, hj⟩ : ∃ j, matchLen Pat.nonSpaces (("data_".toList ++ w ++ rest).drop 5) = some j := by
        cases hx : matchLen Pat.nonSpaces (("data_".toList ++ w ++ rest).drop 5) with
        | some j => exact ⟨j, rfl⟩
        | none =>
          rw [matchLen_none, Pat.nonSpaces, lens] at hx
          generalize (List.drop 5 ("data_".toList ++ w ++ rest)).length = n at hx
          cases n <;> simp [many] at hx
      rw [matchLen_seq hword hj] at this
      simp at this
    have := value_reserved (s := "data_".toList ++ w ++ rest) rfl (by decide) (by decide) hres
    have hj : matchLen (Pat.dataValue1 Pat.bareStart11) ("data_".toList ++ w ++ rest) = some j := hj
    rw [this] at hj
    simp at hj

theorem save_word (rest : Str) : matchLen Pat.saveWord ("save_".toList ++ rest) = some 5 := by
  rw [saveWord_eq]
  exact matchLen_lit_word saveL (ch '_') ('_' :: rest) 1 (matchLen_ch _ _) (by decide)

theorem save_reserved (rest : Str) : lens Pat.notReserved ("save_".toList ++ rest) = [] := by
  rw [Pat.notReserved, lens, if_neg]
  simp only [List.isEmpty_iff, lens, List.append_eq_nil_iff, not_and]
  intro h5
  have : matchLen (seq Pat.saveWord Pat.nonSpaces) ("save_".toList ++ rest) = none := by
    rw [matchLen_none, lens]; exact h5
  obtain ⟨j, hj⟩ : ∃ j, matchLen Pat.nonSpaces (("save_".toList ++ rest).drop 5) = some j := by
    cases hx : matchLen Pat.nonSpaces (("save_".toList ++ rest).drop 5) with
    | some j => exact ⟨j, rfl⟩
    | none =>
      rw [matchLen_none, Pat.nonSpaces, lens] at hx
      generalize (List.drop 5 ("save_".toList ++ rest)).length = n at hx
      cases n <;> simp [many] at hx
  rw [matchLen_seq (save_word rest) hj] at this
  simp at this

/-- The heading of a save frame does not match the bare `save_`. -/
theorem save_bare {p : Char → Bool} {rest : Str} (hr : ∀ c t, rest = c :: t → p c = false) {j : Nat}
    (h : matchLen (seq Pat.saveWord (plus (cls p))) ("save_".toList ++ rest) = some j) : False := by
  obtain ⟨i, k, hi, hk, -⟩ := mem_seq (mem_of_matchLen h)
  rw [saveWord_eq] at hi
  obtain ⟨-, rfl⟩ := mem_word_lower (by decide +kernel) hi
  have hd : ("save_".toList ++ rest).drop (saveL.length + 1) = rest := rfl
  rw [hd, plus] at hk
  obtain ⟨i, k', hi, -, -⟩ := mem_seq hk
  cases rest with
  | nil => simp [lens] at hi
  | cons c t =>
    simp only [lens] at hi
    rw [hr c t rfl] at hi
    simp at hi

theorem lexes_saveHead {R : List Tk} (hR : Outside R) (hn : Tk.saveHeading ∈ R) {w rest : Str} (hw : ∀ c ∈ w, Pat.nameChar1 c = true)
    (hne : w ≠ []) (hr : Stops rest) : Lexes Pat.table11 R (("save_".toList ++ w) ++ rest) .saveHeading ("save_".toList ++ w) rest := by
  apply lexes_of_best (hn := by decide)
  rw [List.append_assoc]
  refine best_but hR [.saveEnd, .value] (table_split Pat.table11 5 (by decide)) (.inl hn) (by simp) ?_ (by decide +kernel) ?_ ?_
  · show matchLen (seq Pat.saveWord (plus (cls Pat.nameChar1))) ("save_".toList ++ (w ++ rest)) = _
    rw [List.length_append]
    exact matchLen_seq (save_word _) (matchLen_plus_cls w rest hne hw (hr.cls (by decide) (by decide)))
  · intro q hq hx
    have h' : (Pat.table11.take 5).all (fun q => decide (q.1 ∉ [Tk.saveEnd, .value])) = true := by decide +kernel
    have := List.all_eq_true.1 h' q hq
    simp only [decide_eq_true_eq] at this
    exact (this hx).elim
  · intro q hq hx j hj
    have hj : matchLen q.2 ("save_".toList ++ (w ++ rest)) = some j := hj
    simp only [List.mem_cons, List.not_mem_nil, or_false] at hx
    rcases hx with hx | hx
    · rw [entry_unique (mem_drop11 hq) 6 (by decide) hx] at hj
      have hj : matchLen Pat.saveWord ("save_".toList ++ (w ++ rest)) = some j := hj
      rw [save_word, Option.some.injEq] at hj
      simp; omega
    · rw [entry_unique (mem_drop11 hq) 12 (by decide) hx] at hj
      have hj : matchLen (Pat.dataValue1 Pat.bareStart11) ("save_".toList ++ (w ++ rest)) = some j := hj
      rw [value_reserved (s := "save_".toList ++ (w ++ rest)) rfl (by decide) (by decide) (save_reserved _)] at hj
      simp at hj

theorem lexes_saveEnd {R : List Tk} (hR : Outside R) (hn : Tk.saveEnd ∈ R) {rest : Str} (hr : Stops rest) :
    Lexes Pat.table11 R ("save_".toList ++ rest) .saveEnd "save_".toList rest := by
  apply lexes_of_best (hn := by decide)
  refine best_but hR [.saveHeading, .value] (table_split Pat.table11 6 (by decide)) (.inl hn) (by decide) (save_word rest) (by decide +kernel) ?_ ?_
  · intro q hq hx j hj
    have hj : matchLen q.2 ("save_".toList ++ rest) = some j := hj
    simp only [List.mem_cons, List.not_mem_nil, or_false] at hx
    rcases hx with hx | hx
    · rw [entry_unique (mem_take11 hq) 5 (by decide) hx] at hj
      exact (save_bare (hr.cls (by decide) (by decide)) hj).elim
    · have h' : (Pat.table11.take 6).all (fun q => decide (q.1 ≠ .value)) = true := by decide +kernel
      have := List.all_eq_true.1 h' q hq
      simp [hx] at this
  · intro q hq hx j hj
    have hj : matchLen q.2 ("save_".toList ++ rest) = some j := hj
    simp only [List.mem_cons, List.not_mem_nil, or_false] at hx
    rcases hx with hx | hx
    · have h' : (Pat.table11.drop 7).all (fun q => decide (q.1 ≠ .saveHeading)) = true := by decide +kernel
      have := List.all_eq_true.1 h' q hq
      simp [hx] at this
    · rw [entry_unique (mem_drop11 hq) 12 (by decide) hx] at hj
      have hj : matchLen (Pat.dataValue1 Pat.bareStart11) ("save_".toList ++ rest) = some j := hj
      rw [value_reserved (s := "save_".toList ++ rest) rfl (by decide) (by decide) (save_reserved _)] at hj
      simp at hj

end Verif.Lex
