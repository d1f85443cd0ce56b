import Verif.Lemmas.Lex11
/-! # Values of CIF 1.1 -/
set_option linter.unusedSectionVars false
namespace Verif.Lex
open Rx Scanner

theorem startsWord_of_mem {ws : List (Char × Char)} (hw : ∀ x ∈ ws, asciiLowerChar x.1 = x.2 ∧ asciiLowerChar x.2 = x.2) {b : Rx}
    {s : Str} {k : Nat} (h : k ∈ lens (seq (word ws (ch '_')) b) s) : StartsWord ws s := by
  obtain ⟨i, j, hi, -, -⟩ := mem_seq h
  exact (mem_word_lower hw hi).1

theorem bareStart_ne {c d : Char} (h : Pat.bareStart11 c = true) (hd : Pat.bareStart11 d = false) : c ≠ d := by
  intro e; rw [e, hd] at h; simp at h

theorem lexes_bare {R : List Tk} (hR : Outside R) (hn : Tk.value ∈ R) {w rest : Str} (hw : Bare w) (hr : Stops rest) :
    Lexes Pat.table11 R (w ++ rest) .value w rest := by
  apply lexes_of_best (hn := by decide)
  obtain ⟨c, t, e, hc, hsemi⟩ := hw.first
  have hlen : 0 < w.length := by rw [e]; simp
  refine ⟨Pat.table11.take 12, _, Pat.table11.drop 13, table_split Pat.table11 12 (by decide), .inr (.inl hn), matchLen_bare hw hr, ?_, ?_⟩
  · intro q hq ha j hj
    have hfull := hR.asked ha
    have hidle : eat q.2 c = false → j < w.length := by
      intro h
      rw [e, List.cons_append] at hj
      rw [idle_zero h hj]
      exact hlen
    have hq : q ∈ [(Tk.ignore1, Pat.ignore1), (.ignore2, Pat.ignore2), (.loop, Pat.loopWord), (.global, Pat.globalWord), (.stop, Pat.stopWord),
      (.saveHeading, seq Pat.saveWord (plus (cls Pat.nameChar1))), (.saveEnd, Pat.saveWord),
      (.dataName, seq (ch '_') (plus (cls Pat.nameChar1))), (.dataHeading, seq Pat.dataWord (plus (cls Pat.nameChar1))),
      (.startSc, Pat.startSc), (.scLine, Pat.scLine), (.endSc, ch ';')] := hq
    simp only [List.mem_cons, List.not_mem_nil, or_false] at hq
    rcases hq with rfl | rfl | rfl | rfl | rfl | rfl | rfl | rfl | rfl | rfl | rfl | rfl
    · apply hidle
      simp [Pat.ignore1, eat, ch, nul, bareStart_ne hc (d := ' ') (by decide), bareStart_ne hc (d := '\t') (by decide),
        bareStart_ne hc (d := '\n') (by decide), bareStart_ne hc (d := '\r') (by decide)]
    · apply hidle
      simp [Pat.ignore2, seqs, eat, ch, nul, bareStart_ne hc (d := '#') (by decide)]
    · have hm := mem_of_matchLen hj
      simp only [loopWord_eq] at hm
      obtain ⟨h1, rfl⟩ := mem_word_lower (by decide +kernel) hm
      obtain ⟨a, t', e', hl, hlow⟩ := startsWord_append (by decide) hr h1
      cases t' with
      | nil =>
        refine (hw.noLoop ?_).elim
        rw [e']
        simp only [asciiLower, List.map_append] at hlow ⊢
        rw [hlow]
        decide
      | cons x t' =>
        rw [e']
        simp [hl]
    · exact absurd hfull (by decide)
    · exact absurd hfull (by decide)
    · have hm := mem_of_matchLen hj
      simp only [saveWord_eq] at hm
      exact (hw.free (.inl (startsWord_append (by decide) hr (startsWord_of_mem (by decide +kernel) hm)))).elim
    · have hm := mem_of_matchLen hj
      simp only [saveWord_eq] at hm
      exact (hw.free (.inl (startsWord_append (by decide) hr (mem_word_lower (by decide +kernel) hm).1))).elim
    · apply hidle
      simp [eat, ch, nul, bareStart_ne hc (d := '_') (by decide)]
    · have hm := mem_of_matchLen hj
      simp only [dataWord_eq] at hm
      exact (hw.free (.inr (.inr (.inr (startsWord_append (by decide) hr (startsWord_of_mem (by decide +kernel) hm)))))).elim
    · apply hidle
      simp [Pat.startSc, seqs, lit, eat, ch, nul, bareStart_ne hc (d := '\n') (by decide), bareStart_ne hc (d := '\r') (by decide)]
    · exact absurd hfull (by decide)
    · exact absurd hfull (by decide)
  · intro q hq ha j hj
    have hq : q ∈ [(Tk.fin, eol)] := hq
    rw [List.mem_singleton] at hq
    subst hq
    rw [e, List.cons_append] at hj
    rw [idle_zero (by rfl) hj]
    exact Nat.zero_le _

/-! ## Quoted values -/

theorem matchLen_close {c : Char} {rest : Str} (h : ∀ t, rest ≠ c :: t) : matchLen (plus (ch c)) (c :: rest) = some 1 := by
  have := matchLen_plus_cls (p := (· == c)) [c] rest (by simp) (by simp) (by
    intro d t e
    have : d ≠ c := fun hd => h t (by rw [e, hd])
    simpa using this)
  simpa [ch] using this

/-- A quoted text: the content has no quote, and white space or the end follows. -/
theorem matchLen_quoted {q : Char} {p : Char → Bool} {w rest : Str} (hq : p q = false) (hs : isSpace q = false) (hw : ∀ c ∈ w, p c = true)
    (hr : Stops rest) :
    matchLen (seq (ch q) (seq (star (alt (seq (ch q) (ahead (cls fun c => !isSpace c))) (cls p))) (plus (ch q)))) (q :: w ++ q :: rest) =
      some (w.length + 2) := by
  have hne : ∀ t, rest ≠ q :: t := by
    intro t e
    rcases hr _ _ e with h | h <;> rw [h] at hs <;> simp [isSpace] at hs
  have h1 : matchLen (star (alt (seq (ch q) (ahead (cls fun c => !isSpace c))) (cls p))) (w ++ q :: rest) = some w.length := by
    apply matchLen_star
    · simp
    · intro i hi
      rw [drop_cons_get (s := w ++ q :: rest) (i := i) (by simp; omega), List.getElem_append_left hi]
      have hp := hw w[i] (List.getElem_mem _)
      rw [matchLen_alt_right]
      · exact matchLen_cls_pos hp
      · apply matchLen_seq_none
        apply matchLen_cls_neg
        have : w[i] ≠ q := fun he => by rw [he, hq] at hp; simp at hp
        simpa using this
    · intro _
      rw [List.drop_left, matchLen_alt_right]
      · exact matchLen_cls_neg hq
      · rw [matchLen_none, lens_seq_one (i := 1) (by simp [ch, lens])]
        have : lens (cls fun c => !isSpace c) rest = [] := by
          cases hrest : rest with
          | nil => rfl
          | cons c t =>
            have := stops_solid hr c t hrest
            simp only [lens, this]
            rfl
        have h' : lens (ahead (cls fun c => !isSpace c)) rest = [] := by rw [lens, this]; rfl
        show (lens (ahead (cls fun c => !isSpace c)) rest).map _ = []
        rw [h']; rfl
  have h2 := matchLen_seq h1 (b := plus (ch q)) (j := 1) (by rw [List.drop_left]; exact matchLen_close hne)
  have h3 := matchLen_seq (a := ch q) (b := seq (star (alt (seq (ch q) (ahead (cls fun c => !isSpace c))) (cls p))) (plus (ch q)))
    (s := q :: (w ++ q :: rest)) (i := 1) (matchLen_ch q _) (by simpa using h2)
  rw [List.cons_append, h3]
  congr 1
  omega

/-- A character allowed between single quotes. -/
def inSingle (c : Char) : Bool := c != '\n' && c != '\r' && c != '\x0c' && c != '\''
/-- A character allowed between double quotes. -/
def inDouble (c : Char) : Bool := c != '\n' && c != '\r' && c != '"'

theorem lexes_single {R : List Tk} (hR : Outside R) (hn : Tk.value ∈ R) {w rest : Str} (hw : ∀ c ∈ w, inSingle c = true)
    (hr : Stops rest) : Lexes Pat.table11 R (('\'' :: w ++ ['\'']) ++ rest) .value ('\'' :: w ++ ['\'']) rest := by
  apply lexes_of_best (hn := by decide)
  refine best_sole hR (table_split Pat.table11 12 (by decide)) (.inl hn) (by simp) ?_ (by decide +kernel)
  show matchLen (Pat.dataValue1 Pat.bareStart11) ('\'' :: (w ++ ['\''] ++ rest)) = _
  rw [value_eq, matchLen_alt_right (dead_none (by decide +kernel))]
  apply matchLen_alt_left
  have := matchLen_quoted (q := '\'') (p := inSingle) (w := w) (rest := rest) (by decide) (by decide) hw hr
  have e : ('\'' :: (w ++ ['\''] ++ rest)) = '\'' :: w ++ '\'' :: rest := by simp
  have hl : ('\'' :: w ++ ['\'']).length = w.length + 2 := by simp
  rw [e, hl]
  exact this

theorem lexes_double {R : List Tk} (hR : Outside R) (hn : Tk.value ∈ R) {w rest : Str} (hw : ∀ c ∈ w, inDouble c = true)
    (hr : Stops rest) : Lexes Pat.table11 R (('"' :: w ++ ['"']) ++ rest) .value ('"' :: w ++ ['"']) rest := by
  apply lexes_of_best (hn := by decide)
  refine best_sole hR (table_split Pat.table11 12 (by decide)) (.inl hn) (by simp) ?_ (by decide +kernel)
  show matchLen (Pat.dataValue1 Pat.bareStart11) ('"' :: (w ++ ['"'] ++ rest)) = _
  rw [value_eq, matchLen_alt_right (dead_none (by decide +kernel)), matchLen_alt_right (dead_none (by decide +kernel))]
  have := matchLen_quoted (q := '"') (p := inDouble) (w := w) (rest := rest) (by decide) (by decide) hw hr
  have e : ('"' :: (w ++ ['"'] ++ rest)) = '"' :: w ++ '"' :: rest := by simp
  have hl : ('"' :: w ++ ['"']).length = w.length + 2 := by simp
  rw [e, hl]
  exact this

/-! ## Text fields -/

/-- The text does not go on with a line end. -/
def LineStart (rest : Str) : Prop := ∀ c t, rest = c :: t → c ≠ '\n' ∧ c ≠ '\r'

theorem lineEnds_eq : Pat.lineEnds = plus (alt (seq (ch '\r') (ch '\n')) (alt (ch '\r') (ch '\n'))) := rfl

theorem matchLen_lineEnd (s : Str) : matchLen (alt (seq (ch '\r') (ch '\n')) (alt (ch '\r') (ch '\n'))) ('\n' :: s) = some 1 := by
  rw [matchLen_alt_right (dead_none (by decide +kernel)), matchLen_alt_right (dead_none (by decide +kernel))]
  exact matchLen_ch _ _

theorem matchLen_lineEnds (m : Nat) {rest : Str} (hr : LineStart rest) :
    matchLen Pat.lineEnds (List.replicate (m + 1) '\n' ++ rest) = some (m + 1) := by
  have : matchLen (star (alt (seq (ch '\r') (ch '\n')) (alt (ch '\r') (ch '\n')))) (List.replicate m '\n' ++ rest) = some m := by
    apply matchLen_star
    · simp
    · intro i hi
      rw [drop_cons_get (s := List.replicate m '\n' ++ rest) (i := i) (by simp; omega), List.getElem_append_left (by simpa using hi), List.getElem_replicate]
      exact matchLen_lineEnd _
    · intro h
      rw [List.drop_append_of_le_length (by simp)]
      simp only [List.drop_replicate, Nat.sub_self, List.replicate_zero, List.nil_append]
      cases hrest : rest with
      | nil => simp [hrest] at h
      | cons c t =>
        have := hr c t hrest
        apply dead_none
        simp [dead, eat, nul, ch, this]
  rw [lineEnds_eq, plus, List.replicate_succ, List.cons_append, Nat.add_comm]
  exact matchLen_seq (matchLen_lineEnd _) (by simpa using this)

theorem scLine_eq : Pat.scLine = seq (cls fun c => c != ';' && Pat.notNlCr c) (seq (star (cls Pat.notNlCr)) Pat.lineEnds) := rfl

theorem matchLen_scLine {c : Char} {l : Str} (m : Nat) {rest : Str} (hc : c ≠ ';') (hl : ∀ x ∈ c :: l, Pat.notNlCr x = true) (hr : LineStart rest) :
    matchLen Pat.scLine (c :: l ++ (List.replicate (m + 1) '\n' ++ rest)) = some (l.length + m + 2) := by
  have h1 : matchLen (star (cls Pat.notNlCr)) (l ++ (List.replicate (m + 1) '\n' ++ rest)) = some l.length :=
    matchLen_star_cls l _ (fun x hx => hl x (by simp [hx])) (by
      intro d t e
      rw [List.replicate_succ, List.cons_append] at e
      simp only [List.cons.injEq] at e
      rw [← e.1]; decide)
  have h2 := matchLen_seq h1 (b := Pat.lineEnds) (j := m + 1) (by rw [List.drop_left]; exact matchLen_lineEnds m hr)
  have h3 := matchLen_seq (a := cls fun c => c != ';' && Pat.notNlCr c) (s := c :: (l ++ (List.replicate (m + 1) '\n' ++ rest))) (i := 1)
    (matchLen_cls_pos (by have := hl c (by simp); simp [hc, this])) (by simpa using h2)
  rw [scLine_eq, List.cons_append, h3]
  congr 1
  omega

theorem lexes_startSc {R : List Tk} (hR : Outside R) (hn : Tk.startSc ∈ R) {l : Str} (m : Nat) {rest : Str}
    (hl : ∀ x ∈ l, Pat.notNlCr x = true) (hr : LineStart rest) :
    Lexes Pat.table11 R ("\n;".toList ++ l ++ List.replicate (m + 1) '\n' ++ rest) .startSc ("\n;".toList ++ l ++ List.replicate (m + 1) '\n') rest := by
  apply lexes_of_best (hn := by decide)
  refine best_but hR [.ignore1] (table_split Pat.table11 9 (by decide)) (.inl hn) (by simp) ?_ (by decide +kernel) ?_ ?_
  · show matchLen Pat.startSc ("\n;".toList ++ l ++ List.replicate (m + 1) '\n' ++ rest) = _
    have h1 : matchLen (star (cls Pat.notNlCr)) (l ++ (List.replicate (m + 1) '\n' ++ rest)) = some l.length :=
      matchLen_star_cls l _ hl (by
        intro d t e
        rw [List.replicate_succ, List.cons_append] at e
        simp only [List.cons.injEq] at e
        rw [← e.1]; decide)
    have h2 := matchLen_seq h1 (b := Pat.lineEnds) (j := m + 1) (by rw [List.drop_left]; exact matchLen_lineEnds m hr)
    have h3 := matchLen_seq (a := ch ';') (s := ';' :: (l ++ (List.replicate (m + 1) '\n' ++ rest))) (i := 1)
      (matchLen_ch _ _) (by simpa using h2)
    have h4 := matchLen_seq (a := alt (ch '\n') (lit ['\r', '\n'])) (s := '\n' :: ';' :: (l ++ (List.replicate (m + 1) '\n' ++ rest))) (i := 1)
      (matchLen_alt_left (matchLen_ch _ _)) (by simpa using h3)
    have e : "\n;".toList ++ l ++ List.replicate (m + 1) '\n' ++ rest = '\n' :: ';' :: (l ++ (List.replicate (m + 1) '\n' ++ rest)) := by simp
    rw [startSc_eq, e, h4]
    simp; omega
  · intro q hq hx j hj
    rw [List.mem_singleton] at hx
    rw [entry_unique (mem_take11 hq) 0 (by decide) hx] at hj
    have hj : matchLen Pat.ignore1 ('\n' :: ';' :: (l ++ List.replicate (m + 1) '\n' ++ rest)) = some j := hj
    have : matchLen Pat.ignore1 ('\n' :: ';' :: (l ++ List.replicate (m + 1) '\n' ++ rest)) = none := by
      rw [Pat.ignore1, matchLen_alt_right]
      · exact matchLen_cls_neg (by decide)
      · rw [matchLen_none, lens_seq_one (i := 1) (by simp [lens])]
        simp [lens, ch]
    rw [this] at hj
    simp at hj
  · intro q hq hx
    rw [List.mem_singleton] at hx
    have h' : (Pat.table11.drop 10).all (fun q => decide (q.1 ≠ .ignore1)) = true := by decide +kernel
    have := List.all_eq_true.1 h' q hq
    simp [hx] at this

/-! ## Inside text fields -/

/-- What the parser asks for inside a text field. -/
def inField : List Tk := [.endSc, .scLine]

theorem inField_asked {n : Tk} (h : Asked inField n) : n = .endSc ∨ n = .scLine ∨ n = .ignore1 ∨ n = .ignore2 := by
  rcases h with h | h | h
  · simp [inField] at h
  · simp [inField] at h; rcases h with h | h <;> simp [h]
  · simp [Pat.ignored] at h; rcases h with h | h <;> simp [h]

theorem ignore1_le {s : Str} {j : Nat} (h : matchLen Pat.ignore1 s = some j) : j ≤ 1 := by
  have h := mem_of_matchLen h
  rw [Pat.ignore1, lens, List.mem_append] at h
  rcases h with h | h
  · obtain ⟨i, k, hi, hk, rfl⟩ := mem_seq h
    have := cls_pos hi
    rw [lens] at hk
    split at hk <;> simp at hk
    omega
  · have := cls_pos h
    omega

theorem ignore2_eq : Pat.ignore2 = alt (seq (ch '#') (seq (star (cls (· != '\n'))) (seq (cls fun c => c == '\n' || c == '\r') (notAhead (ch ';')))))
    (seq (ch '#') (star (cls (· != '\n')))) := rfl

theorem ignore2_hash {c : Char} {s : Str} {j : Nat} (h : matchLen Pat.ignore2 (c :: s) = some j) : c = '#' := by
  apply Classical.byContradiction
  intro hc
  have : dead Pat.ignore2 c = true := by simp [dead, ignore2_eq, eat, nul, ch, hc]
  rw [dead_none this] at h
  simp at h

/-- A comment takes at most one line end, and none before a semicolon. -/
theorem ignore2_le {l rest : Str} (hl : ∀ x ∈ l, Pat.notNlCr x = true) {j : Nat} (h : matchLen Pat.ignore2 (l ++ '\n' :: rest) = some j) :
    j ≤ l.length + 1 ∧ (rest.head? = some ';' → j ≤ l.length) := by
  have hm := mem_of_matchLen h
  cases l with
  | nil => exact absurd (ignore2_hash (c := '\n') (s := rest) h) (by decide)
  | cons c l =>
    have hstop : ∀ d t, '\n' :: rest = d :: t → (d != '\n') = false := by
      intro d t e; simp only [List.cons.injEq] at e; rw [← e.1]; decide
    rw [ignore2_eq, lens, List.mem_append] at hm
    rcases hm with hm | hm
    · obtain ⟨i, k, hi, hk, rfl⟩ := mem_seq hm
      obtain ⟨rfl, t, e⟩ := mem_ch hi
      simp only [List.cons_append, List.drop_succ_cons, List.drop_zero] at hk
      obtain ⟨i', k', hi', hk', rfl⟩ := mem_seq hk
      have hle := star_cls_le (w := l) (rest := '\n' :: rest) hstop hi'
      obtain ⟨i'', k'', hi'', hk'', rfl⟩ := mem_seq hk'
      have h1 := cls_pos hi''
      subst h1
      have h0 : k'' = 0 := by
        rw [lens] at hk''
        split at hk'' <;> simp at hk''
        exact hk''
      subst h0
      refine ⟨by simp; omega, ?_⟩
      intro hsemi
      rcases Nat.lt_or_ge i' l.length with hlt | hge
      · simp; omega
      · have : i' = l.length := by omega
        subst this
        rw [List.drop_left] at hk''
        cases rest with
        | nil => simp at hsemi
        | cons d t =>
          simp only [List.head?_cons, Option.some.injEq] at hsemi
          subst hsemi
          simp [lens, ch] at hk''
    · obtain ⟨i, k, hi, hk, rfl⟩ := mem_seq hm
      obtain ⟨rfl, t, e⟩ := mem_ch hi
      simp only [List.cons_append, List.drop_succ_cons, List.drop_zero] at hk
      have hle := star_cls_le (w := l) (rest := '\n' :: rest) hstop hk
      simp
      omega

/-- A line of a text field is read with the empty lines after it, unless it is taken as a comment. -/
theorem lexes_scLine {c : Char} {l : Str} (m : Nat) {rest : Str} (hc : c ≠ ';') (hl : ∀ x ∈ c :: l, Pat.notNlCr x = true) (hr : LineStart rest)
    (hcom : c = '#' → 0 < m ∨ rest.head? = some ';') :
    Lexes Pat.table11 inField ((c :: l ++ List.replicate (m + 1) '\n') ++ rest) .scLine (c :: l ++ List.replicate (m + 1) '\n') rest := by
  apply lexes_of_best (hn := by decide)
  refine ⟨Pat.table11.take 10, _, Pat.table11.drop 11, table_split Pat.table11 10 (by decide), .inr (.inl (by decide)), ?_, ?_, ?_⟩
  · show matchLen Pat.scLine _ = _
    rw [List.append_assoc, matchLen_scLine m hc hl hr]
    simp; omega
  · intro q hq ha j hj
    rcases inField_asked ha with h | h | h | h
    · have h' : (Pat.table11.take 10).all (fun q => decide (q.1 ≠ .endSc)) = true := by decide +kernel
      have := List.all_eq_true.1 h' q hq
      simp [h] at this
    · have h' : (Pat.table11.take 10).all (fun q => decide (q.1 ≠ .scLine)) = true := by decide +kernel
      have := List.all_eq_true.1 h' q hq
      simp [h] at this
    · rw [entry_unique (mem_take11 hq) 0 (by decide) h] at hj
      have := ignore1_le hj
      simp; omega
    · rw [entry_unique (mem_take11 hq) 1 (by decide) h] at hj
      have hj : matchLen Pat.ignore2 (c :: l ++ List.replicate (m + 1) '\n' ++ rest) = some j := hj
      have hcm := hcom (ignore2_hash (c := c) hj)
      rw [List.append_assoc, List.replicate_succ, List.cons_append (a := '\n')] at hj
      have hb := ignore2_le (l := c :: l) (rest := List.replicate m '\n' ++ rest) hl hj
      simp only [List.length_cons, List.length_append, List.length_replicate]
      simp only [List.length_cons] at hb
      rcases Nat.eq_zero_or_pos m with h0 | h0
      · subst h0
        have := hb.2 (by simpa using hcm)
        omega
      · omega
  · intro q hq ha j hj
    rcases inField_asked ha with h | h | h | h
    · rw [entry_unique (mem_drop11 hq) 11 (by decide) h] at hj
      have hj : matchLen (ch ';') (c :: (l ++ List.replicate (m + 1) '\n' ++ rest)) = some j := hj
      have hn : matchLen (ch ';') (c :: (l ++ List.replicate (m + 1) '\n' ++ rest)) = none := matchLen_cls_neg (by simpa using hc)
      rw [hn] at hj
      simp at hj
    · have h' : (Pat.table11.drop 11).all (fun q => decide (q.1 ≠ .scLine)) = true := by decide +kernel
      have := List.all_eq_true.1 h' q hq
      simp [h] at this
    · have h' : (Pat.table11.drop 11).all (fun q => decide (q.1 ≠ .ignore1)) = true := by decide +kernel
      have := List.all_eq_true.1 h' q hq
      simp [h] at this
    · have h' : (Pat.table11.drop 11).all (fun q => decide (q.1 ≠ .ignore2)) = true := by decide +kernel
      have := List.all_eq_true.1 h' q hq
      simp [h] at this

theorem lexes_endSc (rest : Str) : Lexes Pat.table11 inField ([';'] ++ rest) .endSc [';'] rest := by
  apply lexes_of_best (hn := by decide)
  refine ⟨Pat.table11.take 11, _, Pat.table11.drop 12, table_split Pat.table11 11 (by decide), .inr (.inl (by decide)), matchLen_ch _ _, ?_, ?_⟩
  · intro q hq ha j hj
    have h' : (Pat.table11.take 11).all (fun q => !(decide (q.1 = .scLine ∨ q.1 = .ignore1 ∨ q.1 = .ignore2)) || dead q.2 ';') = true := by decide +kernel
    have h'' : (Pat.table11.take 11).all (fun q => decide (q.1 ≠ .endSc)) = true := by decide +kernel
    have h1 := List.all_eq_true.1 h' q hq
    have h2 := List.all_eq_true.1 h'' q hq
    rcases inField_asked ha with h | h
    · simp [h] at h2
    · simp only [h, decide_true, Bool.not_true, Bool.false_or] at h1
      have hj : matchLen q.2 (';' :: rest) = some j := hj
      rw [dead_none h1] at hj
      simp at hj
  · intro q hq ha j hj
    have h' : (Pat.table11.drop 12).all (fun q => !(decide (q.1 = .endSc ∨ q.1 = .scLine ∨ q.1 = .ignore1 ∨ q.1 = .ignore2))) = true := by decide +kernel
    have h1 := List.all_eq_true.1 h' q hq
    simp only [Bool.not_eq_true', decide_eq_false_iff_not] at h1
    exact (h1 (inField_asked ha)).elim

/-! ## The end of the text -/

theorem lexes_fin {R : List Tk} (hn : Tk.fin ∈ R) : Lexes Pat.table11 R [] .fin [] [] := by
  refine lexes_of_best (w := []) (rest := []) ?_ (by decide)
  refine ⟨Pat.table11.take 13, _, Pat.table11.drop 14, table_split Pat.table11 13 (by decide), .inr (.inl hn), rfl, ?_, ?_⟩
  · intro q hq ha j hj
    have h' : (Pat.table11.take 13).all (fun q => (matchLen q.2 []).isNone) = true := by decide +kernel
    have h1 := List.all_eq_true.1 h' q hq
    simp only [List.append_nil] at hj
    rw [hj] at h1
    simp at h1
  · intro q hq
    simp [Pat.table11, Pat.table1] at hq

theorem best_comment {R : List Tk} (hR : Outside R) {l s : Str} (hl : '\n' ∉ l) (hs : s.head? ≠ some ';') :
    Best Pat.table11 R ('#' :: (l ++ '\n' :: s)) .ignore2 (l.length + 2) := by
  refine best_sole hR (table_split Pat.table11 1 (by decide)) (.inr (by decide)) (by omega) ?_ (by decide +kernel)
  show matchLen Pat.ignore2 ('#' :: (l ++ '\n' :: s)) = some (l.length + 2)
  rw [ignore2_eq]
  apply matchLen_alt_left
  rw [Nat.add_comm, show 2 + l.length = 1 + (l.length + (1 + 0)) by omega]
  refine matchLen_seq (matchLen_ch _ _) (matchLen_seq (matchLen_star_cls l _ ?_ ?_) ?_)
  · intro c hc
    simp only [bne_iff_ne, ne_eq]
    rintro rfl; exact hl hc
  · intro c t e
    simp only [List.cons.injEq] at e
    rw [← e.1]; rfl
  · have hd : (List.drop 1 ('#' :: (l ++ '\n' :: s))).drop l.length = '\n' :: s := by simp
    rw [hd]
    refine matchLen_seq (matchLen_cls_pos (by decide)) ?_
    have := semi_none hs
    rw [matchLen_none] at this
    simp [matchLen, lens, this]

theorem lexes_comment {R : List Tk} (hR : Outside R) {l s : Str} {n : Tk} {w rest : Str} (hl : '\n' ∉ l) (hs : s.head? ≠ some ';')
    (h : Lexes Pat.table11 R s n w rest) : Lexes Pat.table11 R ('#' :: (l ++ '\n' :: s)) n w rest := by
  refine .skip (best_comment hR hl hs) (by decide) (by omega) ?_
  have : ('#' :: (l ++ '\n' :: s)).drop (l.length + 2) = s := by
    rw [show ('#' :: (l ++ '\n' :: s)) = ('#' :: l ++ ['\n']) ++ s by simp]
    exact List.drop_left' (by simp)
  rw [this]
  exact h

end Verif.Lex
