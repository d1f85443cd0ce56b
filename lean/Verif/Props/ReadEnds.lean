import Verif.Lemmas.ReadEndsColl
/-! # Reading a text ends, and what it raises: C84, C85 -/
set_option linter.unusedSectionVars false

namespace Verif.ReadEnds
open Reader

section
variable [CaseFold]

/-- C84. Whatever the text, the grammar asked for, the options and the collection read into: reading ends. No rule of the parsers
and no repetition in them runs out of the bound given to it, and the deletion of blocks does not go round in circles. -/
theorem C84_ends (blocktype : Block) {prepared : Coll} (hp : Coll.Consistent prepared) (text : Str) (req : Option Str) (maxlength : Int) (cbf : Bool) :
    (ReadStar.readStar (ReadStar.parsers blocktype) prepared text req maxlength cbf).2 ≠ .error (.py .depth) := by
  intro h
  rcases readStar_ends blocktype hp (D := fun _ => True) (S := fun _ => True) (fun _ _ _ => trivial) (fun _ _ _ => trivial)
    (fun _ _ => trivial) (fun _ _ => trivial) h with h | ⟨n, m, h⟩ | h | ⟨h, _⟩ | ⟨h, _⟩
  · unfold ReadStar.tryList at h
    cases req with
    | none => cases h
    | some g =>
      simp only at h
      repeat' split at h
      all_goals cases h
  · cases h
  · cases h
  · cases h
  · cases h

theorem tryList_known {req : Option Str} (h : KnownGrammar req) {e : ReadErr} : ReadStar.tryList req ≠ .error e := by
  intro he
  cases req with
  | none => cases he
  | some g =>
    have := h g rfl
    simp only [List.mem_cons, List.not_mem_nil, or_false] at this
    unfold ReadStar.tryList at he
    simp only at he
    by_cases h1 : g = "auto".toList
    · rw [if_pos h1] at he; cases he
    rw [if_neg h1] at he
    by_cases h2 : g = "1.0".toList
    · rw [if_pos h2] at he; cases he
    rw [if_neg h2] at he
    by_cases h3 : g = "1.1".toList
    · rw [if_pos h3] at he; cases he
    rw [if_neg h3] at he
    by_cases h4 : g = "2.0".toList
    · rw [if_pos h4] at he; cases he
    rw [if_neg h4] at he
    by_cases h5 : g = "STAR2".toList
    · rw [if_pos h5] at he; cases he
    exact (this.elim h1 fun t => t.elim h2 fun t => t.elim h3 fun t => t.elim h4 h5)

/-- C85, in part. Reading a text into a collection with a standard raises `StarError` (with or without the number of a line that is too
long) or `AttributeError`. Missing: that it never raises `AttributeError`, see `C85_fails`; when it does not, see `C85_apart`. -/
theorem C85_partial (blocktype : Block) {prepared : Coll} (hp : Coll.Consistent prepared) (hs : prepared.standard ≠ none) (text : Str)
    {req : Option Str} (hr : KnownGrammar req) (maxlength : Int) (cbf : Bool) {e : ReadErr}
    (h : (ReadStar.readStar (ReadStar.parsers blocktype) prepared text req maxlength cbf).2 = .error e) :
    e = .py .star ∨ (∃ line limit, e = .tooLong line limit) ∨ e = .py .attribute := by
  rcases readStar_ends blocktype hp (D := fun _ => True) (S := fun _ => True) (fun _ _ _ => trivial) (fun _ _ _ => trivial)
    (fun _ _ => trivial) (fun _ _ => trivial) h with h | h | h | ⟨h, _⟩ | ⟨_, h, _⟩
  · exact absurd h (tryList_known hr)
  · exact .inr (.inl h)
  · exact .inl h
  · exact .inr (.inr h)
  · exact absurd h hs

theorem heads_cut {word text n : Str} (h : Heads word (ReadStar.cutCtrlZ text) n) : Heads word text n := by
  unfold ReadStar.cutCtrlZ at h
  split at h
  · rename_i i _
    obtain ⟨a, w, b, e, h2, h3, h4⟩ := h
    refine ⟨a, w, b ++ text.drop i, ?_, h2, h3, h4⟩
    rw [← List.append_assoc, ← e, List.take_append_drop]
  · exact h

/-- Plus signs after the lower-case form of a name in the text. -/
def Named (word text k : Str) : Prop := ∃ n i, Heads word text n ∧ k = lower n ++ List.replicate i '+'

theorem named_closed (word text : Str) : PlusClosed (Named word text) := by
  rintro k i ⟨n, j, hn, rfl⟩
  exact ⟨n, j + i, hn, by rw [List.append_assoc, List.replicate_append_replicate]⟩

/-- C85. If no save frame of the text has, but for letter case and plus signs at the end, the name of a data block of the text or of a
block already in the collection, reading raises nothing but `StarError`. -/
theorem C85_apart (blocktype : Block) {prepared : Coll} (hp : Coll.Consistent prepared) (hs : prepared.standard ≠ none) (text : Str)
    (hd : ∀ frame block, Heads "save_".toList text frame → Heads "data_".toList text block → Apart (lower frame) (lower block))
    (hk : ∀ frame k, Heads "save_".toList text frame → k ∈ prepared.lowerKeys → Apart (lower frame) k)
    {req : Option Str} (hr : KnownGrammar req) (maxlength : Int) {e : ReadErr}
    (h : (ReadStar.readStar (ReadStar.parsers blocktype) prepared text req maxlength).2 = .error e) :
    e = .py .star ∨ ∃ line limit, e = .tooLong line limit := by
  rcases readStar_ends blocktype hp (named_closed "data_".toList text) (named_closed "save_".toList text)
    (fun n hn => ⟨n, 0, heads_cut hn, by simp⟩) (fun n hn => ⟨n, 0, heads_cut hn, by simp⟩) (cbf := false) h with h | h | h | ⟨_, k, h1, n, i, h2, h3⟩ | ⟨_, h, _⟩
  · exact absurd h (tryList_known hr)
  · exact .inr h
  · exact .inl h
  · rcases h1 with h1 | ⟨m, j, h4, h5⟩
    · exact absurd (by simpa using h3.symm) (hk n k h2 h1 i 0)
    · exact absurd (h3.symm.trans h5) (hd n m h2 h4 i j)
  · exact absurd h hs

/-- C85. A text without save frames, read into a collection with or without a standard, raises nothing but `StarError`. -/
theorem C85_frameless (blocktype : Block) {prepared : Coll} (hp : Coll.Consistent prepared) (text : Str)
    (hf : ∀ frame, ¬ Heads "save_".toList text frame) {req : Option Str} (hr : KnownGrammar req) (maxlength : Int) {e : ReadErr}
    (h : (ReadStar.readStar (ReadStar.parsers blocktype) prepared text req maxlength).2 = .error e) :
    e = .py .star ∨ ∃ line limit, e = .tooLong line limit := by
  rcases readStar_ends blocktype hp (named_closed "data_".toList text) (S := fun _ => False) (fun _ _ h => h)
    (fun n hn => ⟨n, 0, heads_cut hn, by simp⟩) (fun n hn => hf n (heads_cut hn)) (cbf := false) h with h | h | h | ⟨_, _, _, h⟩ | ⟨_, _, _, h⟩
  · exact absurd h (tryList_known hr)
  · exact .inr h
  · exact .inl h
  · exact h.elim
  · exact h.elim

end

/-! ## Concrete cases -/
section Cases
attribute [local instance] asciiFold

/-- A data block `a`, and a data block `b` with a save frame `a`. -/
def clash : Str := "data_a\n_x 1\ndata_b\nsave_a\n_y 2\nsave_\n".toList

/-- The same with a frame of another name. -/
def noClash : Str := "data_a\n_x 1\ndata_b\nsave_c\n_y 2\nsave_\n".toList

/-- C85 fails: a save frame with the name of an earlier data block makes `merge_fast` call `None.lower()`, and `AttributeError` reaches the
caller. -/
theorem C85_fails : (ReadStar.readStar (ReadStar.parsers { overwrite := false }) {} clash (some "1.1".toList)).2 = .error (.py .attribute) := by
  decide +kernel

example : (ReadStar.readStar (ReadStar.parsers { overwrite := false }) {} noClash (some "1.1".toList)).2 = .ok (some .v11) := by decide +kernel

/-- The empty collection meets the hypotheses. -/
example : Coll.Consistent ({} : Coll) := Coll.empty_consistent _ _ _

example : KnownGrammar (some "1.1".toList) := by rintro g ⟨⟩; decide
example : KnownGrammar none := nofun

/-- Texts that are refused. -/
example : (ReadStar.readStar (ReadStar.parsers { overwrite := false }) {} "data_a\n_x 1\n_x 2\n".toList none).2 = .error (.py .star) := by
  decide +kernel
example : (ReadStar.readStar (ReadStar.parsers { overwrite := false }) {} "data_a\nloop_ _x _y 1 2 3\n".toList none).2 = .error (.py .star) := by
  decide +kernel
example : (ReadStar.readStar (ReadStar.parsers { overwrite := false }) {} "#\\#CIF_2.0\ndata_a\n_x [[[[[[\n".toList (some "2.0".toList)).2 =
    .error (.py .star) := by decide +kernel

theorem heads_first {word text n : Str} (h : Heads word text n) (hw : word.length = 5) :
    ∃ i ∈ List.range text.length, asciiLower ((text.drop i).take 5) = word ∧ n.head? = (text.drop (i + 5)).head? ∧ n.head? ≠ some '\n' := by
  obtain ⟨a, w, b, rfl, rfl, h3, h4⟩ := h
  have hl : w.length = 5 := by simpa [asciiLower] using hw
  refine ⟨a.length, by simp; omega, ?_, ?_, ?_⟩
  · rw [List.append_assoc, List.append_assoc, List.drop_left' rfl, List.take_left' hl]
  · rw [← List.drop_drop, List.append_assoc, List.append_assoc, List.drop_left' rfl, List.drop_left' hl]
    cases n with
    | nil => exact absurd rfl h3
    | cons => rfl
  · intro e
    exact (h4 _ (List.mem_of_mem_head? e)).2.2.1 rfl

/-- The hypotheses of `C85_apart` hold of the text with the frame `c`. -/
example : ∀ frame block, Heads "save_".toList noClash frame → Heads "data_".toList noClash block → Apart (lower frame) (lower block) := by
  intro n m hn hm i j e
  obtain ⟨x, hx, h1, h2, h0⟩ := heads_first hn rfl
  obtain ⟨y, hy, h3, h4, _⟩ := heads_first hm rfl
  have hc : ∀ x ∈ List.range noClash.length, asciiLower ((noClash.drop x).take 5) = "save_".toList →
      (noClash.drop (x + 5)).head? = some 'c' ∨ (noClash.drop (x + 5)).head? = some '\n' := by
    decide +kernel
  have hab : ∀ x ∈ List.range noClash.length, asciiLower ((noClash.drop x).take 5) = "data_".toList →
      (noClash.drop (x + 5)).head? = some 'a' ∨ (noClash.drop (x + 5)).head? = some 'b' := by
    decide +kernel
  rw [h2] at h0
  rw [(hc x hx h1).resolve_right h0] at h2
  have h5 := hab y hy h3
  rw [← h4] at h5
  cases n with
  | nil => cases h2
  | cons c n =>
    cases m with
    | nil => rcases h5 with h5 | h5 <;> cases h5
    | cons d m =>
      simp only [List.head?_cons, Option.some.injEq] at h2 h5
      subst h2
      have := congrArg List.head? e
      rcases h5 with rfl | rfl <;> simp [lower, asciiLower, asciiLowerChar] at this

/-- The hypothesis of `C85_frameless` holds of a text without frames. -/
example : ∀ frame, ¬ Heads "save_".toList "data_a\n_x 1\n_x 2\n".toList frame := by
  intro n hn
  obtain ⟨x, hx, h1, _⟩ := heads_first hn rfl
  have : ∀ x ∈ List.range "data_a\n_x 1\n_x 2\n".toList.length, asciiLower (("data_a\n_x 1\n_x 2\n".toList.drop x).take 5) ≠ "save_".toList := by
    decide +kernel
  exact this x hx h1

end Cases
end Verif.ReadEnds
