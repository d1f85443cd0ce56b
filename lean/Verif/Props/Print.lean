import Verif.Lemmas.Print
/-! # C11: words stand apart -/
namespace Verif.Print

section samples
/-- A block with an item and a loop. -/
def sampleBlock : Block := letI := asciiFold
  (Reader.makeLoop ((({ overwrite := false } : Block).addItem "_Abc".toList (.str "x y".toList) true).1.addItem "_d".toList (.str "l\n;m".toList) true).1
    ["_P".toList, "_q".toList] [.str "1".toList, .str "2 '".toList, .str "aa".toList, .str "a\nb".toList]).1
/-- Hints as a template gives them. -/
def sampleHints : List Hint :=
  [{ dataname := "_q".toList, column := 30, namePos := some 4 }, { dataname := "_Abc".toList, delimiter := some ['"'], column := 12, namePos := some 2 }]
end samples

variable [CaseFold]

/-- **C11** In the printed text of a block the names and values stand in the order of the entries and apart from each other: white
space comes before every word; only a text field may follow directly, and it starts with its own line feed. For all hints
that ask for no column or for a column other than 0. -/
theorem C11_apart (st : Style) (hints : List Hint) (hh : ∀ h ∈ hints, h.column ≠ 0) (b b' : Block) (indent : Nat) (finish start : Str)
    (out : List Ref) (text : Str) (ho : b.createOrdering (hints.map (·.dataname)) finish start = .ok (b', out))
    (hs : ∀ es, docOf b' out = some es → ∀ e ∈ es, SimpleEntry e)
    (h : printSection st hints b [] indent finish start = .ok text) :
    ∃ es ws, docOf b' out = some es ∧ DocWords st es ws ∧ Laid ws text := by
  unfold printSection at h
  rw [ho] at h
  simp only at h
  split at h
  · cases h
  rename_i s hsk
  simp only [Except.ok.injEq] at h
  subst h
  obtain ⟨s0, h0, h1⟩ := andThen_ok hsk
  obtain ⟨es, hes⟩ := printRefs_doc out s0 s h1
  obtain ⟨g, hg, -⟩ := write_gap h0 isGap_nil
  have hl : LaidTo [] s0.out g := ⟨[], rfl, by rw [hg.2.1]; rfl, hg.1, by simp⟩
  obtain ⟨ws, tail, hw, hl'⟩ := printRefs_laid hh out s0 s es [] g hl hes (hs es hes) h1
  exact ⟨es, ws, hes, hw, hl'.laid⟩

/-- The hypotheses are met. -/
example : letI := asciiFold
    (∀ h ∈ sampleHints, h.column ≠ 0) ∧
    (sampleBlock.createOrdering (sampleHints.map (·.dataname)) [] []).toOption.bind (fun p => docOf p.1 p.2) =
      some [.loop ["_q".toList, "_P".toList] [.str "2 '".toList, .str "1".toList, .str "a\nb".toList, .str "aa".toList],
        .item "_Abc".toList (.str "x y".toList), .item "_d".toList (.str "l\n;m".toList)] ∧
    printSection .v11 sampleHints sampleBlock =
      .ok ("\nloop_\n    _q\n  _P\n                             \"2 '\"     1         \n                             \n;a\nb\n;        aa " ++
        "\n  _Abc      \"x y\"\n_d                                      \n;CIF:> \\\nCIF:> l\nCIF:> ;m\n;").toList := by
  decide +kernel

omit [CaseFold] in
/-- With a request for column 0 two values of a loop may be glued together: the blank after a value that fills the line is not
written, as a line break is expected. -/
theorem C11_column_zero_fails : letI := asciiFold
    ∃ (b : Block) (hints : List Hint),
      docOf b b.order = some [.loop ["_a".toList, "_b".toList] [.str (List.replicate 80 'x'), .str ['y']]] ∧
      printSection .v11 hints b = .ok ("\nloop_\n  _a\n  _b\n    ".toList ++ List.replicate 80 'x' ++ ['y']) := by
  letI := asciiFold
  exact ⟨(Reader.makeLoop { overwrite := false } ["_a".toList, "_b".toList] [.str (List.replicate 80 'x'), .str ['y']]).1,
    [{ dataname := "_a".toList, column := 5 }, { dataname := "_b".toList, column := 0 }], by decide +kernel⟩
end Verif.Print
