import Verif.Lemmas.Text
/-! # C01-C03: prefix and folding protocols -/
namespace Verif

/-! ## C01 -/

/-- C01, refusal: `apply_line_prefix` accepts exactly the non-empty prefixes that do not start with a
semicolon and contain no backslash. -/
theorem C01_accepts (s p : Str) :
    (∃ t, applyLinePrefix s p = .ok t) ↔ p ≠ [] ∧ p.head? ≠ some ';' ∧ '\\' ∉ p := by
  cases p with
  | nil => simp [applyLinePrefix]
  | cons c r =>
    simp only [applyLinePrefix, List.head?_cons, ne_eq, Option.some.injEq, reduceCtorEq, not_false_eq_true, true_and]
    split
    · rename_i h; cases matchFoldHeader s <;> simp_all
    · rename_i h; simp_all

/-- C01: prefixing any text that is not itself line-folded and decoding it as the reader does gives
the text back. -/
theorem C01_prefix_roundtrip (s p t : Str) (hp : GoodPrefix p) (hs : ¬ HasFoldHeader s)
    (h : applyLinePrefix s p = .ok t) : decodeProtocols t = s ∧ removeLinePrefix t = s := by
  have h1 := remove_apply_prefix s p hp t h
  have hm := matchFoldHeader_none_of hs
  rw [hm] at h1
  simp only at h1
  refine ⟨?_, h1⟩
  rw [decodeProtocols, h1, removeLineFolding, hm]

/-- C01 for line-folded texts: prefixing is invisible to the reader, which sees the unfolded text
whether or not a prefix was applied. -/
theorem C01_prefix_transparent (s p t : Str) (hp : GoodPrefix p)
    (h : applyLinePrefix s p = .ok t) : decodeProtocols t = removeLineFolding s := by
  have h1 := remove_apply_prefix s p hp t h
  rw [decodeProtocols, h1]
  cases hm : matchFoldHeader s with
  | none => rfl
  | some nh =>
    simp only
    rw [removeLineFolding_header (matchFoldHeader_header nh), removeLineFolding_header hm]

/-- C01: folding and prefixing together are undone by the reader. -/
theorem C01_fold_then_prefix (w : FoldWidths) (s p t : Str) (hp : GoodPrefix p)
    (hf : needsFolding w s = true) (hb : ∀ l ∈ splitNl s, ¬ endsMarkBlank l)
    (h : applyLinePrefix (applyLineFolding w s) p = .ok t) : decodeProtocols t = s := by
  rw [C01_prefix_transparent _ p t hp h, unfold_apply w s hf hb]

/-- The prefixed text never contains a line starting with a semicolon: every physical line starts with
the prefix. -/
theorem C01_lines_prefixed (s p t : Str) (hp : GoodPrefix p) (h : applyLinePrefix s p = .ok t) :
    ∀ l ∈ splitNl t, ∃ r, l = p ++ r := by
  have key : ∀ (x : Str), ∀ l ∈ splitNl (p ++ replaceAll ['\n'] ('\n' :: p) x), ∃ r, l = p ++ r := by
    intro x
    have gen : ∀ (x q : Str), '\n' ∉ q → ∀ l ∈ splitNl (p ++ q ++ replaceAll ['\n'] ('\n' :: p) x), ∃ r, l = p ++ r := by
      intro x
      induction x with
      | nil =>
        intro q hq l hl
        rw [replaceAll, List.append_nil, splitNl_of_noNl _ (by simp [hq, hp.2.2.2])] at hl
        simp at hl
        exact ⟨q, hl⟩
      | cons c r ih =>
        intro q hq l hl
        by_cases hc : c = '\n'
        · subst hc
          have e : replaceAll ['\n'] ('\n' :: p) ('\n' :: r) = '\n' :: (p ++ replaceAll ['\n'] ('\n' :: p) r) := by
            have := replaceAll_head '\n' [] ('\n' :: p) r
            simpa using this
          rw [e, splitNl_append_nl _ _ (by simp [hq, hp.2.2.2])] at hl
          simp only [List.mem_cons] at hl
          rcases hl with rfl | hl
          · exact ⟨q, rfl⟩
          · have := ih [] (by simp) l (by simpa using hl)
            exact this
        · rw [replaceAll_cons_ne _ _ _ _ _ hc] at hl
          exact ih (q ++ [c]) (by simp [hq]; exact fun h => hc h.symm) l (by simpa using hl)
    have := gen x [] (by simp)
    simpa using this
  rw [applyLinePrefix_good s p hp] at h
  simp only [Except.ok.injEq] at h
  subst h
  intro l hl
  split at hl
  · rename_i nh _
    have e : p ++ ['\\', '\\', '\n'] ++ (p ++ replaceAll ['\n'] ('\n' :: p) nh) =
        (p ++ ['\\', '\\']) ++ '\n' :: (p ++ replaceAll ['\n'] ('\n' :: p) nh) := by simp
    rw [e, splitNl_append_nl _ _ (by simp [hp.2.2.2])] at hl
    simp only [List.mem_cons] at hl
    rcases hl with rfl | hl
    · exact ⟨_, rfl⟩
    · exact key nh l hl
  · have e : p ++ ['\\', '\n'] ++ (p ++ replaceAll ['\n'] ('\n' :: p) s) =
        (p ++ ['\\']) ++ '\n' :: (p ++ replaceAll ['\n'] ('\n' :: p) s) := by simp
    rw [e, splitNl_append_nl _ _ (by simp [hp.2.2.2])] at hl
    simp only [List.mem_cons] at hl
    rcases hl with rfl | hl
    · exact ⟨_, rfl⟩
    · exact key s l hl

/-- The hypotheses of C01 are met by the prefix and by texts like those the writer uses. -/
example : GoodPrefix "CIF:> ".toList ∧ ¬ HasFoldHeader "a\n;b".toList ∧
    applyLinePrefix "a\n;b".toList "CIF:> ".toList = .ok "CIF:> \\\nCIF:> a\nCIF:> ;b".toList := by
  refine ⟨⟨by decide, by decide, by decide, by decide⟩, ?_, by decide +kernel⟩
  rintro ⟨b, r, h, _⟩
  exact absurd (congrArg List.head? h) (by simp)

/-- Code disagreement: a one-character prefix is accepted by the writer but not recognised by the reader. -/
theorem C01_short_prefix_fails :
    ∃ s p t, applyLinePrefix s p = .ok t ∧ ¬ HasFoldHeader s ∧ decodeProtocols t ≠ s := by
  refine ⟨"a".toList, ">".toList, ">\\\n>a".toList, by decide +kernel, ?_, by decide +kernel⟩
  rintro ⟨b, r, h, _⟩
  exact absurd (congrArg List.head? h) (by simp)

/-! ## C02 -/

/-- C02: whatever `apply_line_folding` produces by folding, `remove_line_folding` undoes. -/
theorem C02_fold_roundtrip (w : FoldWidths) (s : Str)
    (hf : applyLineFolding w s ≠ s) (hb : ∀ l ∈ splitNl s, ¬ endsMarkBlank l) :
    removeLineFolding (applyLineFolding w s) = s := by
  apply unfold_apply w s _ hb
  cases h : needsFolding w s with
  | true => rfl
  | false => exact absurd (by simp [applyLineFolding, h]) hf

/-- C02: a text is folded whenever one of its lines has reached the wrap length. -/
theorem C02_long_is_folded (w : FoldWidths) (s l : Str) (hl : l ∈ splitNl s) (hlen : w.maxw ≤ l.length) :
    applyLineFolding w s ≠ s := by
  intro h
  cases hn : needsFolding w s with
  | true => have := fold_longer w s hn; rw [h] at this; omega
  | false => have := needsFolding_false hn l hl; omega

/-- The hypotheses are met by a text with a long line, also with small widths. -/
example : applyLineFolding ⟨3, 6, by decide, by decide⟩ "abcd efgh\\".toList = "\\\nabcd\\\n efgh\\\\\n".toList ∧
    ¬ endsMarkBlank "abcd efgh\\".toList := by
  refine ⟨by decide +kernel, ?_⟩
  rintro ⟨a, b, h, hb, hc⟩
  have h2 := congrArg List.getLast? h
  cases hl : b.getLast? with
  | none => simp at hl; exact hb hl
  | some x =>
    simp [hl, List.getLast?_append, List.getLast?_cons] at h2
    have := hc x (List.mem_of_getLast? hl)
    subst h2
    exact absurd this (by decide)

/-- Code disagreement: a short line ending in a backslash and a blank is not protected; the text is
changed by folding and unfolding. -/
theorem C02_blank_after_backslash_fails :
    ∃ s, applyLineFolding .default s ≠ s ∧ removeLineFolding (applyLineFolding .default s) ≠ s := by
  refine ⟨"a\\ \n".toList ++ List.replicate 80 'x', ?_, ?_⟩ <;> decide +kernel

/-! ## C03 -/

/-- C03: with the default widths no line of the result is longer than 139 characters. -/
theorem C03_line_bound (s : Str) : ∀ l ∈ splitNl (applyLineFolding .default s), l.length ≤ 139 := by
  cases h : needsFolding .default s with
  | true => exact fold_lines .default s h
  | false =>
    intro l hl
    have e : applyLineFolding .default s = s := by simp [applyLineFolding, h]
    rw [e] at hl
    have := needsFolding_false h l hl
    simp [FoldWidths.default] at this
    omega

/-- C03: the same for all widths. -/
theorem C03_line_bound_gen (w : FoldWidths) (s : Str) :
    ∀ l ∈ splitNl (applyLineFolding w s), l.length ≤ max (w.minw + w.maxw - 1) (w.maxw + 1) := by
  cases h : needsFolding w s with
  | true => exact fold_lines w s h
  | false =>
    intro l hl
    have e : applyLineFolding w s = s := by simp [applyLineFolding, h]
    rw [e] at hl
    have := needsFolding_false h l hl
    omega

/-- C03: a text comes back unfolded only if all its lines were shorter than the wrap length. -/
theorem C03_unfolded_is_short (w : FoldWidths) (s : Str) (h : applyLineFolding w s = s) :
    ∀ l ∈ splitNl s, l.length < w.maxw := by
  cases hn : needsFolding w s with
  | true => have := fold_longer w s hn; rw [h] at this; omega
  | false => exact needsFolding_false hn

/-- The bound 139 is reached, so folded lines may exceed the nominal maximum of 80. -/
theorem C03_bound_reached :
    ∃ s, ∃ l ∈ splitNl (applyLineFolding .default s), l.length = 139 := by
  refine ⟨List.replicate 138 'x' ++ [' ', 'y'], List.replicate 138 'x' ++ ['\\'], ?_, ?_⟩ <;> decide +kernel

end Verif
