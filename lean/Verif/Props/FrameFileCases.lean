import Verif.Props.FrameFile
import Verif.Props.ReadBackCases
import Verif.Props.ReadBack20Cases
/-! # Cases of C74 -/
set_option linter.unusedSectionVars false
namespace Verif.RoundTrip
open Print Reader Lex Block

section Samples
attribute [local instance] asciiFold

/-- `Main` encloses `inner`, which encloses `Deep`; `other` stands alone. Every block has the given contents. -/
def nestedFile (std : Option Str) (b : Block) : Coll := Coll.run { scoping := .dictionary, standard := std }
  [.new "Main".toList b true none, .new "inner".toList b true (some "MAIN".toList), .new "other".toList b true none,
   .new "Deep".toList b true (some "Inner".toList)]

end Samples

theorem nestedFile_reachable {std : Option Str} {b : Block} (h : letI := asciiFold; (std = some "Dic".toList ∧ b = roundSample) ∨ (std = some "Dic".toList ∧ b = rich)) :
    letI := asciiFold; Coll.Reachable (nestedFile std b) := by
  letI := asciiFold
  rcases h with ⟨rfl, rfl⟩ | ⟨rfl, rfl⟩
  all_goals
    unfold nestedFile
    simp only [Coll.run]
    refine .step _ (.step _ (.step _ (.step _ (.start _ _ _) ?_) ?_) ?_) ?_ <;>
      refine ⟨?_, fun h => ?_⟩
    all_goals first
      | (exact absurd h (by decide +kernel))
      | skip
    · intro q hq; cases hq
    · intro q hq; injection hq with hq; subst hq; decide +kernel
    · intro q hq; cases hq
    · intro q hq; injection hq with hq; subst hq; decide +kernel

theorem nested_get {c : Coll} {b0 : Block} (h : letI := asciiFold; ∀ p ∈ c.dict, p.2 = b0) {k : Str} {b : Block}
    (hk : letI := asciiFold; c.getItem k = .ok b) : b = b0 := by
  letI := asciiFold
  rw [Coll.getItem] at hk
  split at hk
  · split at hk
    · rename_i x hx
      cases hk
      exact h _ (dget_mem hx)
    · cases hk
  · cases hk

/-- The written file of the example holds no Ctrl-Z. -/
theorem clean_text {e : Except PyErr Str} (h : e.toOption.all (fun t => decide ('\x1a' ∉ t)) = true) : ∀ text, e = .ok text → '\x1a' ∉ text := by
  intro text ht
  subst ht
  simpa [Except.toOption] using h

/-- C74 applies to a dictionary whose save frames are nested; what is read has the order of the file, and the scoping decides what is shown. -/
example : letI := asciiFold
    ∃ text c', WriteText.writeOut (Style.v11 2048) [] "#a comment\n".toList (nestedFile (some "Dic".toList) roundSample) = .ok text ∧
      ReadStar.readStar (ReadStar.parsers { overwrite := false }) { standard := some "CIF".toList, scoping := .dictionary } text none = (c', .ok (some .v11)) ∧
      Restored (ReadInOrder11 []) (nestedFile (some "Dic".toList) roundSample) .dictionary c' := by
  letI := asciiFold
  have hall : ∀ p ∈ (nestedFile (some "Dic".toList) roundSample).dict, p.2 = roundSample := by decide +kernel
  refine C74_file _ (nestedFile_reachable (.inl ⟨rfl, rfl⟩)) (by decide +kernel) 2048 _ ?_ ?_ [] ⟨by simp, by simp, by simp, by simp⟩ _ ?_ ?_
    { overwrite := false } ⟨rfl, rfl, rfl, rfl⟩ rfl rfl .dictionary none (.inr ⟨.inl rfl, by decide +kernel⟩)
  · show ∀ k ∈ _, (_ ∧ _ ∧ _) ∧ _
    decide +kernel
  · intro k b hb
    cases nested_get hall hb
    refine ⟨roundSample_reachable, roundSample_writable, fun _ _ n hn => ?_⟩
    rw [roundSample_keys] at hn
    revert n
    decide +kernel
  · exact ⟨["#a comment".toList, []], by decide +kernel, by decide +kernel⟩
  · exact clean_text (by decide +kernel)

/-- C74 applies to CIF 2.0 files with lists and tables. -/
example : letI := asciiFold
    ∃ text c', WriteText.writeOut (Style.v20 2048) richHints "#\\#CIF_2.0\n".toList (nestedFile (some "Dic".toList) rich) = .ok text ∧
      ReadStar.readStar (ReadStar.parsers { overwrite := false }) { standard := some "CIF".toList } text none = (c', .ok (some .v20)) ∧
      Restored (ReadInOrder richHints) (nestedFile (some "Dic".toList) rich) .instance c' := by
  letI := asciiFold
  have hall : ∀ p ∈ (nestedFile (some "Dic".toList) rich).dict, p.2 = rich := by decide +kernel
  refine C74_file20_partial _ (nestedFile_reachable (.inr ⟨rfl, rfl⟩)) (by decide +kernel) 2048 _ ?_ richHints ?_
    ⟨by decide +kernel, by decide +kernel, by decide +kernel, by decide +kernel⟩ _ ?_ ?_
    { overwrite := false } ⟨rfl, rfl, rfl, rfl⟩ rfl rfl .instance none ⟨.inr (.inl rfl), by decide +kernel⟩
  · intro k hk
    have key : ∀ k ∈ (nestedFile (some "Dic".toList) rich).lowerKeys, ((Coll.printedName (nestedFile (some "Dic".toList) rich) k ≠ [] ∧
      (∀ c ∈ Coll.printedName (nestedFile (some "Dic".toList) rich) k, 33 ≤ c.toNat ∧ c.toNat ≤ 126) ∧
      (Coll.printedName (nestedFile (some "Dic".toList) rich) k).length ≤ 75) ∧ CaseFold.lower (Coll.printedName (nestedFile (some "Dic".toList) rich) k) = k) := by
      decide +kernel
    obtain ⟨⟨h1, h2, h3⟩, h4⟩ := key k hk
    exact ⟨⟨h1, fun c hc => .inl (h2 c hc), h3⟩, h4⟩
  · intro k b hb
    cases nested_get hall hb
    refine ⟨rich_reachable, rich_writable, ?_, fun _ _ n hn => ?_⟩
    · rw [UngluedIn]
      split
      · exact ⟨.inl rich_apart, .inl rich_apart⟩
      · exact .inl rich_apart
    · rw [rich_keys] at hn
      revert n
      decide +kernel
  · exact ⟨["#\\#CIF_2.0".toList, []], by decide +kernel, by decide +kernel⟩
  · exact clean_text (by decide +kernel)

/-- The first lines of CIF 2.0 files. -/
example : WriteText.startText true [] "\n#c\n".toList = "#\\#CIF_2.0\n\n#c\n".toList ∧
    WriteText.startText true "#\\#CIF_2.0 x".toList "#c".toList = "#\\#CIF_2.0 x".toList ∧ IsHeader ("#\\#CIF_2.0 x".toList ++ ['\n']) :=
  ⟨by decide, by decide, ["#\\#CIF_2.0 x".toList], by decide, by decide⟩

section Samples
attribute [local instance] asciiFold

/-- A dictionary whose block has items before and after the divider. -/
def halvesDic : Coll := Coll.run { scoping := .dictionary, standard := some "Dic".toList }
  [.new "D".toList (({} : Block).run [.add "_title".toList (.str "t".toList) true, .add "_dictionary_valid.application".toList (.str "x".toList) true,
      .add "_last".toList (.str "l".toList) true]) true none,
   .new "f".toList (({} : Block).run [.add "_id".toList (.str "1".toList) true]) true (some "D".toList)]

/-- What is read from a written collection. -/
def readAgain (c : Coll) : Coll × Except ReadErr (Option GName) :=
  match WriteText.writeOut .v11 [] "#c\n".toList c with
  | .ok t => ReadStar.readStar (ReadStar.parsers { overwrite := false }) { standard := none, scoping := .dictionary } t none
  | .error _ => ({}, .ok none)

end Samples

example : letI := asciiFold
    (WriteText.writeOut .v11 [] "#c\n".toList halvesDic).toOption = some ("#c\n\ndata_D\n\n_title                                  t\n\nsave_f\n\n".toList ++
      "_id                                     1\n\nsave_\n\n_dictionary_valid.application           x\n_last                                   l".toList) ∧
    (readAgain halvesDic).1.childTable = [("d".toList, ⟨"D".toList, none⟩), ("f".toList, ⟨"f".toList, some "d".toList⟩)] ∧
    ((readAgain halvesDic).1.getItem "d".toList).toOption.map (·.keys) = some ["_title".toList, "_dictionary_valid.application".toList, "_last".toList] := by
  letI := asciiFold
  refine ⟨?_, ?_, ?_⟩
  all_goals decide +kernel

section Samples
attribute [local instance] asciiFold

/-- A block with a control character in a text. -/
def ctrlZ : Coll := Coll.run { standard := some "CIF".toList }
  [.new "d".toList (({} : Block).run [.add "_a".toList (.str "x\x1ay".toList) true, .add "_b".toList (.str "z".toList) true]) true none]

end Samples

/-- What follows the character Ctrl-Z in a written file is not read. -/
theorem C74_ctrlZ_fails : letI := asciiFold
    Coll.Reachable ctrlZ ∧ (ctrlZ.getItem "d".toList).toOption.map (·.keys) = some ["_a".toList, "_b".toList] ∧
      ((readAgain ctrlZ).1.getItem "d".toList).toOption.map (·.keys) = some ["_a".toList] := by
  letI := asciiFold
  refine ⟨?_, ?_, ?_⟩
  · refine .step (.new _ _ _ none) (.start _ _ _) ?_
    exact ⟨(fun q hq => by cases hq), fun h => absurd h (by decide +kernel)⟩
  all_goals decide +kernel

end Verif.RoundTrip
