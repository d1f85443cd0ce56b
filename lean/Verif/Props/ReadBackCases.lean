import Verif.Props.ReadBack
/-! # Cases of C10 and C63 -/
set_option linter.unusedSectionVars false
namespace Verif.RoundTrip
open Print Reader Lex Block
variable [CaseFold]

/-! ## Examples and counterexamples -/

/-- A printable text that is no reserved word is writable. -/
theorem writable_printable {maxOut : Int} {s : Str} (hs : Printable s) (hl : (s.length : Int) ≤ maxOut - 2) (hstop : ¬ StartsStop s)
    (hloop : asciiLower s ≠ "loop_".toList) : WritableValue (Style.v11 maxOut) (.str s) :=
  fun _ _ h => safe_printable hs hl hstop hloop h

omit [CaseFold]

/-- A block with a loop, a text that needs delimiters and a number. -/
def roundSample : Block := letI := asciiFold
  sample.run [.add "_d".toList (.str "it's a".toList) false, .add "_N".toList (.num "-1.5e3".toList) false]

theorem roundSample_reachable : letI := asciiFold; Reachable roundSample := by
  letI := asciiFold
  refine .step _ _ (.step _ _ sample_reachable ?_) ?_
  · show _ ≠ _; decide +kernel
  · show _ ≠ _; decide +kernel

theorem sample_text {s : Str} (h : s ∈ ["1".toList, "2".toList, "3".toList, "4".toList, "5".toList, "it's a".toList]) :
    letI := asciiFold; WritableValue (Style.v11 2048) (.str s) := by
  letI := asciiFold
  have key : ∀ s ∈ ["1".toList, "2".toList, "3".toList, "4".toList, "5".toList, "it's a".toList],
      (∀ c ∈ s, 32 ≤ c.toNat ∧ c.toNat ≤ 126) ∧ (s.length : Int) ≤ 2048 - 2 ∧ ¬ (asciiLower (s.take 5) = "stop_".toList) ∧ asciiLower s ≠ "loop_".toList := by
    decide +kernel
  obtain ⟨h1, h2, h3, h4⟩ := key s h
  exact writable_printable h1 h2 h3 h4

theorem roundSample_keys : letI := asciiFold
    roundSample.keys = ["_a".toList, "_b".toList, "_c".toList, "_d".toList, "_n".toList] := by decide +kernel

theorem roundSample_writable : letI := asciiFold; WritableBlock (Style.v11 2048) roundSample := by
  letI := asciiFold
  have hk := roundSample_keys
  refine ⟨?_, ?_, ?_, ?_, ?_⟩
  · intro n hn
    rw [hk] at hn
    simp only [List.mem_cons, List.not_mem_nil, or_false] at hn
    rcases hn with rfl | rfl | rfl | rfl | rfl
    · exact ⟨"_A".toList, by decide +kernel, "A".toList, by decide +kernel⟩
    · exact ⟨"_b".toList, by decide +kernel, "b".toList, by decide +kernel⟩
    · exact ⟨"_c".toList, by decide +kernel, "c".toList, by decide +kernel⟩
    · exact ⟨"_d".toList, by decide +kernel, "d".toList, by decide +kernel⟩
    · exact ⟨"_N".toList, by decide +kernel, "N".toList, by decide +kernel⟩
  · intro n hn hl
    rw [hk] at hn
    simp only [List.mem_cons, List.not_mem_nil, or_false] at hn
    rcases hn with rfl | rfl | rfl | rfl | rfl
    · exact absurd hl (by decide +kernel)
    · exact absurd hl (by decide +kernel)
    · exact ⟨.str "5".toList, by decide +kernel, sample_text (by decide +kernel)⟩
    · exact ⟨.str "it's a".toList, by decide +kernel, sample_text (by decide +kernel)⟩
    · exact ⟨.num "-1.5e3".toList, by decide +kernel, by show _ ∧ _; decide +kernel⟩
  · intro n hn hl
    rw [hk] at hn
    simp only [List.mem_cons, List.not_mem_nil, or_false] at hn
    rcases hn with rfl | rfl | rfl | rfl | rfl
    · refine ⟨[.str "1".toList, .str "2".toList], by decide +kernel, by simp, ?_⟩
      intro v hv
      simp only [List.mem_cons, List.not_mem_nil, or_false] at hv
      rcases hv with rfl | rfl <;> exact sample_text (by decide +kernel)
    · refine ⟨[.str "3".toList, .str "4".toList], by decide +kernel, by simp, ?_⟩
      intro v hv
      simp only [List.mem_cons, List.not_mem_nil, or_false] at hv
      rcases hv with rfl | rfl <;> exact sample_text (by decide +kernel)
    · exact absurd (by decide +kernel) hl
    · exact absurd (by decide +kernel) hl
    · exact absurd (by decide +kernel) hl
  · intro n l h
    have hm := dget_mem h
    have hl : roundSample.loops = [(1, ["_a".toList, "_b".toList])] := by decide +kernel
    rw [hl] at hm
    simp only [List.mem_singleton, Prod.mk.injEq] at hm
    rw [hm.2]
    refine ⟨2, ?_⟩
    intro s hs
    simp only [List.mem_cons, List.not_mem_nil, or_false] at hs
    rcases hs with rfl | rfl
    · exact ⟨[.str "1".toList, .str "2".toList], by decide +kernel, rfl⟩
    · exact ⟨[.str "3".toList, .str "4".toList], by decide +kernel, rfl⟩
  · intro n l h
    have hm := dget_mem h
    have hl : roundSample.loops = [(1, ["_a".toList, "_b".toList])] := by decide +kernel
    rw [hl] at hm
    simp only [List.mem_singleton, Prod.mk.injEq] at hm
    rw [hm.2]
    simp

/-- The hypotheses of C10 are met; the text, and what is read from it. -/
example : letI := asciiFold
    Reachable roundSample ∧ WritableBlock (Style.v11 2048) roundSample ∧ FitsStandard (some "CIF".toList) roundSample ∧
    WritableHeading "Ab".toList ∧
    UsableHints [{ dataname := "_d".toList, column := 20, namePos := some 1 }, { dataname := "loop".toList, namePos := some 3 }, { dataname := "_b".toList }] ∧
    printSection .v11 [] roundSample = .ok "\nloop_\n  _A\n  _b\n         1         3         \n         2         4 \n_c                                      5\n_d                                      \"it's a\"\n_N                                      -1.5e3".toList := by
  letI := asciiFold
  refine ⟨roundSample_reachable, roundSample_writable, ?_, ?_, ?_, ?_⟩
  · intro _ n hn
    rw [roundSample_keys] at hn
    revert n
    decide +kernel
  · show _ ∧ _ ∧ _; decide +kernel
  · exact ⟨by decide +kernel, by decide +kernel, by decide +kernel, by decide +kernel⟩
  · decide +kernel

/-- The text that `WriteOut` makes for one block. -/
def oneBlock (b : Block) : Str := letI := asciiFold
  match printSection .v11 [] b with
  | .ok t => "\ndata_x\n".toList ++ t
  | .error _ => []

/-- A block with a loop from which the only row has been removed. -/
def noRows : Block := letI := asciiFold
  ({} : Block).run [.add "_a".toList (.list [.str "1".toList]) false, .createLoop ["_a".toList] 0 true,
    .removePacket "_a".toList (.str "1".toList), .add "_b".toList (.str "2".toList) false]

/-- Loops without rows are written but cannot be read. -/
theorem C10_no_rows_fails : letI := asciiFold
    Reachable noRows ∧ noRows.column "_a".toList = some [] ∧ noRows.lookup "_b".toList = some (.str "2".toList) ∧
      oneBlock noRows = "\ndata_x\n\nloop_\n  _a\n\n_b                                      2".toList ∧
      (Reader.input gram11 { overwrite := false } {} (oneBlock noRows)).2 ≠ .ok () := by
  letI := asciiFold
  refine ⟨.step _ _ (.step _ _ (.step _ _ (.step _ _ (.fresh _ ⟨rfl, rfl, rfl, rfl⟩) ?_) ?_) ?_) ?_, ?_, ?_, ?_, ?_⟩
  · show _ ≠ _; decide +kernel
  · exact ⟨by decide +kernel, .inl rfl⟩
  · trivial
  · show _ ≠ _; decide +kernel
  all_goals decide +kernel

/-- A block with a loop without names. -/
def noNames : Block := letI := asciiFold
  ({} : Block).run [.createLoop [] 0 true, .add "_a".toList (.str "1".toList) false]

/-- A loop without names can be made and is written, but the next item becomes a part of it when the text is read. -/
theorem C10_no_names_fails : letI := asciiFold
    Reachable noNames ∧ noNames.loopOf "_a".toList = [] ∧
      (Reader.input gram11 { overwrite := false } {} (oneBlock noNames)).2 = .ok () ∧
      (((Reader.input gram11 { overwrite := false } {} (oneBlock noNames)).1.getItem "x".toList).toOption.map (·.loopOf "_a".toList)) =
        some ["_a".toList] := by
  letI := asciiFold
  refine ⟨.step _ _ (.step _ _ (.fresh _ ⟨rfl, rfl, rfl, rfl⟩) ?_) ?_, ?_, ?_, ?_⟩
  · exact ⟨by decide +kernel, .inl rfl⟩
  · show _ ≠ _; decide +kernel
  all_goals decide +kernel

/-- A number is read as text. -/
theorem C10_number_is_text : letI := asciiFold
    roundSample.lookup "_n".toList = some (.num "-1.5e3".toList) ∧
      (((Reader.input gram11 { overwrite := false } {} (oneBlock roundSample)).1.getItem "x".toList).toOption.bind (·.lookup "_N".toList)) =
        some (.str "-1.5e3".toList) := by
  decide +kernel

/-- A collection of two blocks as C63 needs it. -/
def twoBlocks : Coll := letI := asciiFold
  let c := (({ standard := some "CIF".toList } : Coll).newBlock "First".toList roundSample true none).1
  (c.newBlock "second".toList sample true none).1

/-- The hypotheses of C63 are met. -/
example : letI := asciiFold
    Coll.Reachable twoBlocks ∧ twoBlocks.lowerKeys = ["first".toList, "second".toList] ∧
      Coll.printedName twoBlocks "first".toList = "First".toList ∧ IsHeader "\n##\n# CIF\n".toList ∧
      twoBlocks.childTable = [("first".toList, ⟨"First".toList, none⟩), ("second".toList, ⟨"second".toList, none⟩)] ∧
      (WriteText.writeOut .v11 [] "\n##\n# CIF\n".toList twoBlocks).toOption.isSome = true := by
  letI := asciiFold
  refine ⟨?_, ?_, ?_, ⟨["".toList, "##".toList, "# CIF".toList], by decide +kernel, by decide +kernel⟩, ?_, ?_⟩
  · refine .step (.new _ _ _ none) (.step (.new _ _ _ none) (.start _ _ _) ?_) ?_ <;>
      exact ⟨(fun q hq => by cases hq), fun h => absurd h (by decide +kernel)⟩
  · decide +kernel
  · decide +kernel
  · decide +kernel
  · decide +kernel

end Verif.RoundTrip
