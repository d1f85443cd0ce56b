import Verif.Lemmas.Wrap
/-! C115: texts laid out anew for a template. -/
namespace Verif
namespace Wrap

/-- The hanging indentation and the filled paragraphs of a text that is not formatted. -/
theorem doWrapping_paras {K : Kinds} {indent : Nat} {fuel : Str → Nat} {s t : Str} (hf : ¬ Formatted s)
    (h : doWrapping K indent fuel s = some t) :
    ∃ ts, mapO (fun p => fillIn K indent (fuel p) p) (splitParas (Number.strip s)) = some ts ∧ t = joinNl ts := by
  unfold doWrapping at h
  rw [if_neg (fun e => hf ((contains_iff (by decide) s).mp e)), Option.map_eq_some_iff] at h
  obtain ⟨ts, h1, h2⟩ := h
  exact ⟨ts, h1, h2.symm⟩

/-- C115: a text without line ends, and a text which has three blanks in a row somewhere, is not laid out anew; the latter gets a
line end at its beginning. -/
theorem C115_untouched (K : Kinds) (indent : Nat) (fuel : Str → Nat) (s : Str) :
    ('\n' ∉ s → reformat K indent fuel s = some s) ∧
    ('\n' ∈ s → Formatted s → reformat K indent fuel s = some ('\n' :: s)) := by
  constructor
  · intro h
    unfold reformat
    rw [if_neg h]
  · intro h hf
    unfold reformat doWrapping
    rw [if_pos h, if_pos ((contains_iff (by decide) s).mpr hf)]
    rfl

/-- C115: whatever the text and the indentation, if the layout ends at all then the characters which are not whitespace are those
of the text, in the same order.
Missing: the words of the text need not be the words of the result (`C115_long_fails`, `C115_hyphen_fails`), blank lines between
paragraphs are lost (`C115_paragraphs_fails`), every output adds one more line end (`C115_grows_fails`) and for indentations above
70 the layout need not end (`C115_endless_fails`). -/
theorem C115_characters_partial (K : Kinds) (indent : Nat) (fuel : Str → Nat) (s t : Str) (h : reformat K indent fuel s = some t) :
    solid t = solid s := by
  unfold reformat at h
  split at h
  · rw [Option.map_eq_some_iff] at h
    obtain ⟨u, hu, rfl⟩ := h
    rw [solid_cons_space _ (by decide)]
    by_cases hf : Formatted s
    · unfold doWrapping at hu
      rw [if_pos ((contains_iff (by decide) s).mpr hf)] at hu
      injection hu with hu
      rw [hu]
    · obtain ⟨ts, h1, rfl⟩ := doWrapping_paras hf hu
      rw [solid_joinNl, mapO_all h1 (g' := solid) (fun p _ x hx => solid_fillIn hx), solid_splitParas, solid_strip]
  · injection h with h
    rw [h]

/-- C115: for indentations up to 70 the layout ends: there are numbers of turns for which it gives a result, and more turns do not
matter. -/
theorem C115_ends (K : Kinds) (indent : Nat) (s : Str) (hi : indent ≤ 70) :
    ∃ enough : Str → Nat, ∀ fuel : Str → Nat, (∀ p, enough p ≤ fuel p) → ∃ t, reformat K indent fuel s = some t := by
  refine ⟨fun p => 2 * (munge p).length, fun fuel hf => ?_⟩
  unfold reformat
  split
  · unfold doWrapping
    split
    · exact ⟨_, rfl⟩
    · obtain ⟨ts, hts⟩ := mapO_some (f := fun p => fillIn K indent (fuel p) p) (ps := splitParas (Number.strip s))
        fun p _ => fillIn_ends K p hi (hf p)
      rw [hts]
      exact ⟨_, rfl⟩
  · exact ⟨_, rfl⟩

/-- C115: every line of a text laid out anew is empty, or is indented and has at most 70 characters. -/
theorem C115_lines (K : Kinds) (indent : Nat) (fuel : Str → Nat) (s t : Str) (hi : indent < 70) (hn : '\n' ∈ s) (hf : ¬ Formatted s)
    (h : reformat K indent fuel s = some t) :
    ∀ l ∈ linesOf t, l = [] ∨ ∃ u, l = List.replicate indent ' ' ++ u ∧ l.length ≤ 70 := by
  unfold reformat at h
  rw [if_pos hn, Option.map_eq_some_iff] at h
  obtain ⟨u, hu, rfl⟩ := h
  obtain ⟨ts, h1, rfl⟩ := doWrapping_paras hf hu
  intro l hl
  rw [linesOf, if_pos rfl] at hl
  rcases List.mem_cons.mp hl with rfl | hl
  · exact .inl rfl
  · by_cases he : ts = []
    · subst he
      simp [joinNl, linesOf] at hl
      exact .inl hl
    · rw [linesOf_joinNl he] at hl
      obtain ⟨m, hm1, hm2⟩ := List.mem_flatMap.mp hl
      obtain ⟨p, -, hp⟩ := mapO_mem h1 m hm1
      exact fillIn_lines hi hp l hm2

/-- C115: a text without hyphens whose words fit on a line keeps its words. -/
theorem C115_words (K : Kinds) (indent : Nat) (fuel : Str → Nat) (s t : Str) (hi : indent < 70) (hp : Plain s) (hh : '-' ∉ s)
    (hs : ∀ x ∈ words s, x.length + indent ≤ 70) (h : reformat K indent fuel s = some t) : words t = words s := by
  unfold reformat at h
  split at h
  · rw [Option.map_eq_some_iff] at h
    obtain ⟨u, hu, rfl⟩ := h
    rw [words_cons (by simp [White])]
    by_cases hf : Formatted s
    · unfold doWrapping at hu
      rw [if_pos ((contains_iff (by decide) s).mpr hf)] at hu
      injection hu with hu
      rw [hu]
    · obtain ⟨ts, h1, rfl⟩ := doWrapping_paras hf hu
      have hw : (splitParas (Number.strip s)).flatMap words = words s := by rw [words_splitParas, words_strip hp]
      rw [words_joinNl, mapO_all h1 (g' := words), hw]
      intro p hpm x hx
      have hsub : ∀ c ∈ p, c ∈ s := fun c hc => strip_mem c (splitParas_mem hpm c hc)
      refine words_fillIn hi (fun c hc => hp c (hsub c hc)) (fun e => hh (hsub _ e)) (fun y hy => hs y ?_) hx
      rw [← hw]
      exact List.mem_flatMap.mpr ⟨p, hpm, hy⟩
  · injection h with h
    rw [h]

/-- C115 is false of long words: a text that is laid out anew never keeps its words if one of them does not fit on a line. -/
theorem C115_long_fails (K : Kinds) (indent : Nat) (fuel : Str → Nat) (s t : Str) (hi : indent < 70) (hn : '\n' ∈ s)
    (hf : ¬ Formatted s) (hl : ∃ x ∈ words s, 70 < x.length + indent) (h : reformat K indent fuel s = some t) : words t ≠ words s := by
  unfold reformat at h
  rw [if_pos hn, Option.map_eq_some_iff] at h
  obtain ⟨u, hu, rfl⟩ := h
  obtain ⟨ts, h1, rfl⟩ := doWrapping_paras hf hu
  obtain ⟨x, hx1, hx2⟩ := hl
  intro e
  rw [← e, words_cons (by simp [White]), words_joinNl] at hx1
  obtain ⟨m, hm1, hm2⟩ := List.mem_flatMap.mp hx1
  obtain ⟨p, -, hp⟩ := mapO_mem h1 m hm1
  have := fillIn_words hi hp x hm2
  simp only [columns] at this
  omega

theorem solid_formatted {K : Kinds} {indent : Nat} {fuel : Str → Nat} {s t : Str} (h3 : 3 ≤ indent) (hi : indent < 70)
    (hs : solid s ≠ []) (hn : '\n' ∈ s) (h : reformat K indent fuel s = some t) : '\n' ∈ t ∧ Formatted t := by
  have hc := C115_characters_partial K indent fuel s t h
  have hl := C115_lines K indent fuel s t hi hn
  unfold reformat at h
  rw [if_pos hn, Option.map_eq_some_iff] at h
  obtain ⟨u, hu, rfl⟩ := h
  refine ⟨by simp, ?_⟩
  by_cases hf : Formatted s
  · unfold doWrapping at hu
    rw [if_pos ((contains_iff (by decide) s).mpr hf)] at hu
    injection hu with hu
    subst hu
    obtain ⟨a, b, e⟩ := hf
    exact ⟨'\n' :: a, b, by rw [e]; rfl⟩
  · have hl := hl hf (by unfold reformat; rw [if_pos hn, hu]; rfl)
    have key : ∀ v : Str, solid v ≠ [] → (∀ l ∈ linesOf v, l = [] ∨ ∃ u, l = List.replicate indent ' ' ++ u ∧ l.length ≤ 70) →
        Formatted v := by
      intro v
      induction v with
      | nil => intro hv; exact absurd rfl hv
      | cons c r ih =>
        intro hv hlv
        by_cases hcn : c = '\n'
        · rw [linesOf, if_pos hcn] at hlv
          rw [solid_cons_space _ (by rw [hcn]; decide)] at hv
          obtain ⟨a, b, e⟩ := ih hv fun l hl => hlv l (by simp [hl])
          exact ⟨c :: a, b, by rw [e]; rfl⟩
        · have hhead : ∃ l ls, linesOf (c :: r) = (c :: l) :: ls := by
            rw [linesOf, if_neg hcn]
            cases linesOf r with
            | nil => exact ⟨_, _, rfl⟩
            | cons l ls => exact ⟨_, _, rfl⟩
          obtain ⟨l, ls, e⟩ := hhead
          rw [e] at hlv
          rcases hlv (c :: l) (by simp) with h0 | ⟨u, hu, -⟩
          · cases h0
          · have hpre : ∀ (v l : Str) (ls : List Str), linesOf v = l :: ls → ∃ b, v = l ++ b := by
              intro v
              induction v with
              | nil =>
                intro l ls hv
                simp [linesOf] at hv
                exact ⟨[], by simp [hv.1]⟩
              | cons d q ihq =>
                intro l ls hv
                rw [linesOf] at hv
                split at hv
                · injection hv with h1 h2
                  exact ⟨d :: q, by simp [← h1]⟩
                · cases hq : linesOf q with
                  | nil =>
                    rw [hq] at hv
                    injection hv with h1 h2
                    exact ⟨q, by simp [← h1]⟩
                  | cons m ms =>
                    rw [hq] at hv
                    injection hv with h1 h2
                    obtain ⟨b, hb⟩ := ihq m ms hq
                    exact ⟨b, by rw [← h1, hb]; rfl⟩
            obtain ⟨b, hb⟩ := hpre _ _ _ e
            obtain ⟨n, rfl⟩ : ∃ n, indent = n + 3 := ⟨indent - 3, by omega⟩
            refine ⟨[], List.replicate n ' ' ++ u ++ b, ?_⟩
            rw [hb, hu, Nat.add_comm n 3, ← List.replicate_append_replicate]
            simp [List.replicate]
    exact key _ (by rw [hc]; exact hs) hl

/-- C115: with indentations from 3 on, a text that has been laid out is not laid out again: what is read back gets the same lines.
But it is false that writing what has been read back changes nothing: every time a line end is put before the text. -/
theorem C115_grows_fails (K : Kinds) (indent : Nat) (fuel fuel' : Str → Nat) (s t : Str) (h3 : 3 ≤ indent) (hi : indent < 70)
    (hs : solid s ≠ []) (hn : '\n' ∈ s) (h : reformat K indent fuel s = some t) : reformat K indent fuel' t = some ('\n' :: t) := by
  obtain ⟨h1, h2⟩ := solid_formatted h3 hi hs hn h
  exact (C115_untouched K indent fuel' t).2 h1 h2

/-- After any number of further outputs there are as many more line ends. -/
theorem C115_outputs_fails (K : Kinds) (indent : Nat) (fuel fuel' : Str → Nat) (s t : Str) (h3 : 3 ≤ indent) (hi : indent < 70)
    (hs : solid s ≠ []) (hn : '\n' ∈ s) (h : reformat K indent fuel s = some t) (n : Nat) :
    (List.range n).foldlM (fun x _ => reformat K indent fuel' x) t = some (List.replicate n '\n' ++ t) := by
  obtain ⟨h1, h2⟩ := solid_formatted h3 hi hs hn h
  induction n with
  | zero => rfl
  | succ n ih =>
    rw [List.range_succ, List.foldlM_append, ih]
    show (reformat K indent fuel' (List.replicate n '\n' ++ t) >>= fun x => some x) = _
    rw [(C115_untouched K indent fuel' _).2 (List.mem_append_right _ h1) ?_]
    · rfl
    · obtain ⟨a, b, e⟩ := h2
      exact ⟨List.replicate n '\n' ++ a, b, by rw [e]; simp⟩

/-! ### Hints -/

/-- Blanks at the beginning of the first line that has any. -/
def FirstIndent (n : Nat) (t : Str) : Prop :=
  ∃ a b u, linesOf t = a ++ (List.replicate n ' ' ++ u) :: b ∧ 0 < n ∧ u.head? ≠ some ' ' ∧ ∀ l ∈ a, l.head? ≠ some ' '

theorem splitNl_linesOf : ∀ t : Str, splitNl t = linesOf t
  | [] => rfl
  | c :: r => by rw [splitNl, linesOf, splitNl_linesOf r]; rfl

theorem takeWhile_blanks : ∀ l : Str, ∃ u, l = List.replicate (l.takeWhile (· == ' ')).length ' ' ++ u ∧ u.head? ≠ some ' '
  | [] => ⟨[], rfl, by simp⟩
  | c :: r => by
    by_cases hc : c = ' '
    · obtain ⟨u, h1, h2⟩ := takeWhile_blanks r
      refine ⟨u, ?_, h2⟩
      rw [List.takeWhile_cons, if_pos (by simp [hc]), List.length_cons, List.replicate_succ, List.cons_append, ← h1, hc]
    · refine ⟨c :: r, ?_, by simpa using hc⟩
      rw [List.takeWhile_cons, if_neg (by simp [hc])]
      rfl

theorem find_indent : ∀ ls : List Str,
    (∀ n, (ls.map fun l => (l.takeWhile (· == ' ')).length).find? (0 < ·) = some n →
      ∃ a b u, ls = a ++ (List.replicate n ' ' ++ u) :: b ∧ 0 < n ∧ u.head? ≠ some ' ' ∧ ∀ l ∈ a, l.head? ≠ some ' ') ∧
    ((ls.map fun l => (l.takeWhile (· == ' ')).length).find? (0 < ·) = none ↔ ∀ l ∈ ls, l.head? ≠ some ' ')
  | [] => by simp
  | l :: ls => by
    obtain ⟨ih1, ih2⟩ := find_indent ls
    obtain ⟨u, hu1, hu2⟩ := takeWhile_blanks l
    by_cases hl : 0 < (l.takeWhile (· == ' ')).length
    · constructor
      · intro n hn
        rw [List.map_cons, List.find?_cons_of_pos (by simpa using hl)] at hn
        injection hn with hn
        subst hn
        exact ⟨[], ls, u, by rw [← hu1]; rfl, hl, hu2, by simp⟩
      · rw [List.map_cons, List.find?_cons_of_pos (by simpa using hl)]
        constructor
        · intro h; cases h
        · intro h
          exfalso
          apply h l (by simp)
          cases l with
          | nil => simp at hl
          | cons c r =>
            rw [List.takeWhile_cons] at hl
            split at hl
            · rename_i hc
              simpa using hc
            · simp at hl
    · have h0 : l.head? ≠ some ' ' := by
        intro hh
        cases l with
        | nil => cases hh
        | cons c r =>
          simp only [List.head?_cons, Option.some.injEq] at hh
          subst hh
          simp at hl
      rw [List.map_cons, List.find?_cons_of_neg (by simpa using hl)]
      constructor
      · intro n hn
        obtain ⟨a, b, u', e1, e2, e3, e4⟩ := ih1 n hn
        refine ⟨l :: a, b, u', by rw [e1]; rfl, e2, e3, ?_⟩
        intro m hm
        rcases List.mem_cons.mp hm with rfl | hm
        · exact h0
        · exact e4 m hm
      · rw [ih2]
        constructor
        · intro h m hm
          rcases List.mem_cons.mp hm with rfl | hm
          · exact h0
          · exact h m hm
        · exact fun h m hm => h m (by simp [hm])

/-- C115: a text of the template asks for a new layout if a line after the first starts with a tab or with two blanks. The
indentation is that of the first line which has one. -/
theorem C115_hint (t : Str) (n : Option Nat) (h : reformatHint t = .ok n) :
    (n ≠ none ↔ Occurs ['\n', '\t'] t ∨ Occurs ['\n', ' ', ' '] t) ∧ ∀ k, n = some k → FirstIndent k t := by
  unfold reformatHint at h
  have e1 := contains_iff (t := ['\n', '\t']) (by decide) t
  have e2 := contains_iff (t := ['\n', ' ', ' ']) (by decide) t
  split at h
  · rename_i hc
    rw [Bool.or_eq_true, e1, e2] at hc
    split at h
    · cases h
    · rename_i k hk
      injection h with h
      subst h
      refine ⟨by simp [hc], fun k' hk' => ?_⟩
      injection hk' with hk'
      subst hk'
      unfold firstIndent at hk
      rw [splitNl_linesOf] at hk
      exact (find_indent _).1 _ hk
  · rename_i hc
    rw [Bool.or_eq_true, e1, e2] at hc
    injection h with h
    subst h
    exact ⟨by simp [hc], by simp⟩

/-- C115 is false of templates indented with tabs: a text with a line starting with a tab and no line starting with a blank makes
the reading of the template raise AttributeError, and only such a text does. -/
theorem C115_tab_fails (t : Str) :
    (∃ e, reformatHint t = .error e) ↔ Occurs ['\n', '\t'] t ∧ ∀ l ∈ linesOf t, l.head? ≠ some ' ' := by
  have e1 := contains_iff (t := ['\n', '\t']) (by decide) t
  have e2 := contains_iff (t := ['\n', ' ', ' ']) (by decide) t
  have hno : Occurs ['\n', ' ', ' '] t → ∃ l ∈ linesOf t, l.head? = some ' ' := by
    rintro ⟨a, b, rfl⟩
    have : a ++ ['\n', ' ', ' '] ++ b = a ++ '\n' :: (' ' :: ' ' :: b) := by simp
    rw [this, linesOf_append]
    cases hb : linesOf (' ' :: b) with
    | nil =>
      refine ⟨[' '], List.mem_append_right _ ?_, rfl⟩
      rw [linesOf, if_neg (by decide), hb]
      simp
    | cons l ls =>
      refine ⟨' ' :: l, List.mem_append_right _ ?_, rfl⟩
      rw [linesOf, if_neg (by decide), hb]
      simp
  unfold reformatHint
  have hfi : firstIndent t = none ↔ ∀ l ∈ linesOf t, l.head? ≠ some ' ' := by
    unfold firstIndent
    rw [splitNl_linesOf]
    exact (find_indent _).2
  constructor
  · rintro ⟨e, h⟩
    split at h
    · rename_i hc
      rw [Bool.or_eq_true, e1, e2] at hc
      split at h
      · rename_i hk
        have hx := hfi.mp hk
        rcases hc with hc | hc
        · exact ⟨hc, hx⟩
        · obtain ⟨l, hl1, hl2⟩ := hno hc
          exact absurd hl2 (hx l hl1)
      · cases h
    · cases h
  · rintro ⟨h1, h2⟩
    rw [if_pos (by rw [Bool.or_eq_true]; exact .inl (e1.mpr h1)), hfi.mpr h2]
    exact ⟨_, rfl⟩

/-! ### Samples -/

/-- ASCII letters, digits and underscores. -/
def asciiKinds : Kinds where
  word c := c.isAlphanum || c == '_'
  digit c := c.isDigit

/-- Enough turns for the samples. -/
def turns (p : Str) : Nat := 2 * (munge p).length

/-- A text of two paragraphs, and how it comes out. -/
theorem C115_paragraphs_fails :
    reformat asciiKinds 3 turns "The first\nparagraph.\n\nThe\tsecond.".toList =
      some "\n   The first paragraph.\n   The     second.".toList := by decide +kernel

/-- C115 is false of hyphenated words: at the end of a line they are cut in two. -/
theorem C115_hyphen_fails :
    reformat asciiKinds 3 turns "The structure was determined from a crystal of salt by\nsingle-crystal diffraction".toList =
      some "\n   The structure was determined from a crystal of salt by single-\n   crystal diffraction".toList := by decide +kernel

/-- The hypotheses of `C115_words`, `C115_lines` and `C115_grows_fails` are met by a text of two paragraphs. -/
example : Plain "The first\nparagraph.\n\nThe\tsecond.".toList ∧ '-' ∉ "The first\nparagraph.\n\nThe\tsecond.".toList ∧
    (∀ x ∈ words "The first\nparagraph.\n\nThe\tsecond.".toList, x.length + 3 ≤ 70) ∧
    solid "The first\nparagraph.\n\nThe\tsecond.".toList = "Thefirstparagraph.Thesecond.".toList := by
  refine ⟨?_, ?_, ?_, ?_⟩
  · have h : ∀ c ∈ "The first\nparagraph.\n\nThe\tsecond.".toList, isSpace c = true → White c := by decide +kernel
    exact h
  all_goals decide +kernel

/-- The words of the sample. -/
example : words "The first\nparagraph.\n\nThe\tsecond.".toList =
    ["The".toList, "first".toList, "paragraph.".toList, "The".toList, "second.".toList] := by decide +kernel

/-- The sample is not formatted, what becomes of it is. -/
example : ¬ Formatted "The first\nparagraph.\n\nThe\tsecond.".toList ∧ Formatted "\n   The first paragraph.\n   The     second.".toList := by
  constructor
  · exact fun h => absurd ((contains_iff (by decide) _).mpr h) (by decide +kernel)
  · exact ⟨['\n'], "The first paragraph.\n   The     second.".toList, by decide +kernel⟩

/-- A long word, for `C115_long_fails`: it is cut where the line is full. -/
example : reformat asciiKinds 60 turns "A http://example.org\nhere".toList =
    some ('\n' :: joinNl [List.replicate 60 ' ' ++ "A http://e".toList, List.replicate 60 ' ' ++ "xample.org".toList,
      List.replicate 60 ' ' ++ "here".toList]) := by decide +kernel

/-- Hints from texts of a template. -/
example : reformatHint "title\n one\n    two".toList = .ok (some 1) ∧ reformatHint "title\none".toList = .ok none ∧
    reformatHint "title\n\tone".toList = .error .attribute := by decide +kernel

/-- C115 is false of wide indentations: with more than 70 blanks the layout of a text with a paragraph that starts with whitespace
does not end, however many turns it is given. -/
theorem C115_endless_fails (K : Kinds) (indent : Nat) (fuel : Str → Nat) (x y : Str) (hi : 70 < indent) (hx : x ≠ []) (hy : y ≠ [])
    (hx' : ∀ c ∈ x, isSpace c = false) (hy' : ∀ c ∈ y, isSpace c = false) :
    reformat K indent fuel (x ++ '\n' :: '\n' :: ' ' :: y) = none := by
  have hnx : ∀ {v : Str}, (∀ c ∈ v, isSpace c = false) → '\n' ∉ v := fun hv e => absurd (hv _ e) (by decide)
  have hf : ¬ Formatted (x ++ '\n' :: '\n' :: ' ' :: y) := by
    rintro ⟨a, b, e⟩
    have hcount := congrArg (List.count ' ') e
    have h0 : ∀ {v : Str}, (∀ c ∈ v, isSpace c = false) → v.count ' ' = 0 := fun hv =>
      List.count_eq_zero.mpr fun hm => absurd (hv _ hm) (by decide)
    simp only [List.count_append, List.count_cons, List.count_nil, h0 hx', h0 hy'] at hcount
    simp at hcount
    omega
  have hstrip : Number.strip (x ++ '\n' :: '\n' :: ' ' :: y) = x ++ '\n' :: '\n' :: ' ' :: y := by
    apply strip_whole
    · intro c hc
      cases x with
      | nil => exact absurd rfl hx
      | cons d r =>
        injection hc with hc
        exact hx' c (by simp [← hc])
    · intro c hc
      obtain ⟨y', d, rfl⟩ : ∃ y' d, y = y' ++ [d] := ⟨y.dropLast, y.getLast hy, (List.dropLast_concat_getLast hy).symm⟩
      rw [show x ++ '\n' :: '\n' :: ' ' :: (y' ++ [d]) = (x ++ '\n' :: '\n' :: ' ' :: y') ++ [d] by simp,
        List.getLast?_concat] at hc
      injection hc with hc
      exact hy' c (by simp [← hc])
  unfold reformat doWrapping
  rw [if_pos (by simp), if_neg (fun e => hf ((contains_iff (by decide) _).mp e)), hstrip, splitParas_two (hnx hx'), splitParas_plain,
    mapO_none]
  · rfl
  · exact ⟨' ' :: y, by simp, fillIn_stuck K hi _ y⟩
  · intro e
    rcases List.mem_cons.mp e with e | e
    · exact absurd e (by decide)
    · exact hnx hy' e

/-- The hypotheses are met. -/
example : ∀ fuel, reformat asciiKinds 71 fuel "a\n\n b".toList = none :=
  fun fuel => C115_endless_fails asciiKinds 71 fuel ['a'] ['b'] (by omega) (by simp) (by simp) (by decide) (by decide)

end Wrap
end Verif
