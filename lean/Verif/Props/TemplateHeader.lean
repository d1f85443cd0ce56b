import Verif.Lemmas.TemplateHeader
import Verif.Props.TemplateLoop
/-! # C117: headers of loops in templates -/
namespace Verif
namespace Template
open Print

/-- **C117** The hints for a loop of a template: `loop_` and the names get the columns where they stand, and the values those of `C117_values`, for every template whose loop has a
line for `loop_` and lines for its names (`FirstAt`), with nothing after the last name in its line, and for which no earlier line looks the same. Missing: headers in one line
(`C117_oneline_fails`), comments in headers (`C117_comment_fails`), values after the last name in its line (`C117_sameline_fails`), names that begin like an earlier one
(`C117_prefix_fails`). -/
theorem C117_template_partial (n : Str) (names : List Str) (ks : List Nat) (pre indent kw g nm bl tail : Str) (more : List (Str × Str)) (cells : List Cell)
    (hp : ∀ x ∈ n :: names, Plain x)
    (hpre : LineStart pre) (hi : Blank indent) (hkw : Same "loop_".toList kw) (hg : Sep g) (hnm : Same n nm)
    (hml : more.length = names.length) (hm : ∀ x ∈ more, Sep x.1 ∧ DataName x.2) (hb : Blank bl)
    (hcl : (n :: names).length = cells.length) (hc : ∀ x ∈ cells, x.1 ≠ [] ∧ (∀ c ∈ x.1, isSpace c = true) ∧ Word x.2.1 x.2.2)
    (hnl : (flat cells).head? = some '\n') (hu : Unnamed (flat cells)) (ht : ∀ c ∈ tail.head?, isSpace c = true)
    (hfirst : ∀ a b, pre = a ++ b → b ≠ [] → LineStart a → ¬BeginsLoop n (b ++ (indent ++ (kw ++ (g ++ (nm ++ (flatNames more ++ (bl ++ (flat cells ++ tail)))))))))
    (hkl : (n :: names).length = ks.length)
    (hk : ∀ x ∈ (n :: names).zip ks, FirstAt x.1 x.2 (pre ++ (indent ++ (kw ++ (g ++ (nm ++ (flatNames more ++ (bl ++ (flat cells ++ tail))))))))) :
    templateLoop (n :: names) (pre ++ (indent ++ (kw ++ (g ++ (nm ++ (flatNames more ++ (bl ++ (flat cells ++ tail)))))))) =
      some (.ok ({ dataname := "loop".toList, namePos := some (indent.length : Int) } ::
        List.zipWith (fun (h : Hint) (k : Nat) => { h with namePos := some (k : Int) })
          (List.zipWith (fun n v => { dataname := n, delimiter := v.2, column := (columnAt (flat cells) (v.1 - 1) + 2 : Nat) }) (n :: names) (starts 0 cells)) ks)) := by
  have hh : firstLine (headerAt (n.map plainPiece) more.length) true (pre ++ (indent ++ (kw ++ (g ++ (nm ++ (flatNames more ++ (bl ++ (flat cells ++ tail)))))))) =
      some (indent.length, flat cells ++ tail) := by
    refine firstLine_found hpre (headerAt_item (hp n List.mem_cons_self).1 hi hkw hg hnm hm hb (.inr ?_)) fun a b hab hb' hla => ?_
    · rw [List.head?_append, hnl]; rfl
    · cases hx : headerAt (n.map plainPiece) more.length (b ++ (indent ++ (kw ++ (g ++ (nm ++ (flatNames more ++ (bl ++ (flat cells ++ tail)))))))) with
      | none => rfl
      | some m => exact absurd (headerAt_begins hx) (hfirst a b hab hb' hla)
  have hv := C117_values (n :: names) cells tail hcl hc hu ht
  have hpl := placeNamed_all _ (n :: names) ks _ _ _ hkl (fun x hx => nameAt_found (hp x.1 (List.of_mem_zip hx).1).1 (hk x hx)) hv
  unfold templateLoop
  rw [allPieces_plain _ hp]
  simp only [List.map_cons, List.length_map]
  rw [← hml, hh]
  simp only
  rw [List.map_cons] at hpl
  rw [hpl]
  rfl

section samples
/-- A template with a loop. -/
def headerText : Str := "data_t\n loop_\n   _a\n  _B\n   1    'x y'\n 3  4\n\n_c 2\n".toList
end samples

/-- The hypotheses are met. -/
example : templateLoop ["_a".toList, "_b".toList] headerText = some (.ok [{ dataname := "loop".toList, namePos := some 1 }, { dataname := "_a".toList, column := 4, namePos := some 3 },
      { dataname := "_b".toList, delimiter := some ['\''], column := 9, namePos := some 2 }]) := by
  have hb1 : ∀ x : Str, ¬BeginsLoop "_a".toList ("data_t\n".toList ++ x) := by
    rintro x ⟨indent, kw, g, w, r, h, hi, hkw, _⟩
    cases indent with
    | cons y ys =>
      have : y = 'd' := by simpa using (congrArg List.head? h).symm
      subst this
      exact absurd (hi 'd' List.mem_cons_self) (by decide)
    | nil =>
      cases kw with
      | nil => simp [Same] at hkw
      | cons y ys =>
        have : y = 'd' := by simpa using (congrArg List.head? h).symm
        subst this
        simp [Same] at hkw
  refine (C117_template_partial "_a".toList ["_b".toList] [3, 2] "data_t\n".toList " ".toList "loop_".toList "\n   ".toList "_a".toList [] "\n 3  4\n\n_c 2\n".toList
    [("\n  ".toList, "_B".toList)] [("\n   ".toList, "1".toList, none), ("    ".toList, "'x y'".toList, some ['\''])] ?_ (.inr (by decide)) ?_ (by unfold Same; decide)
    ⟨by decide, by decide⟩ (by unfold Same; decide) rfl ?_ ?_ rfl ?_ (by decide) (unnamed_free (by decide)) (by decide) ?_ rfl ?_).trans (by decide +kernel)
  · intro x hx
    simp only [List.mem_cons, List.not_mem_nil, or_false] at hx
    rcases hx with rfl | rfl <;> exact ⟨by decide, by decide⟩
  · intro c hc
    simp only [String.toList] at hc
    revert c
    decide
  · intro x hx
    have : x = ("\n  ".toList, "_B".toList) := by simpa using hx
    subst this
    exact ⟨⟨by decide, by decide⟩, 'B', [], by decide, by decide⟩
  · intro c hc
    cases hc
  · intro x hx
    simp only [List.mem_cons, List.not_mem_nil, or_false] at hx
    rcases hx with rfl | rfl
    · exact ⟨by decide, by decide, .bare _ (by decide) (by decide) (by decide) (by decide)⟩
    · exact ⟨by decide, by decide, .single "x y".toList (by decide)⟩
  · intro a b hab hb hla
    have h0 : ∀ i, i < "data_t\n".toList.length → ("data_t\n".toList.take i = [] ∨ ("data_t\n".toList.take i).getLast? = some '\n') → i = 0 := by decide +kernel
    have hlen : 0 < b.length := List.length_pos_iff.mpr hb
    have h1 : "data_t\n".toList.take a.length = a := by rw [hab]; simp
    have := h0 a.length (by rw [hab]; simp; omega) (by rw [h1]; exact hla)
    have ha : a = [] := List.eq_nil_of_length_eq_zero this
    subst ha
    rw [List.nil_append] at hab
    rw [← hab]
    exact hb1 _
  · intro x hx
    simp only [List.zip_cons_cons, List.zip_nil_left, List.mem_cons, List.not_mem_nil, or_false] at hx
    rcases hx with rfl | rfl
    · exact firstAt_check (item := "_a".toList) (pre := "data_t\n loop_\n".toList) (indent := "   ".toList) (w := "_a".toList) (r := "\n  _B\n   1    'x y'\n 3  4\n\n_c 2\n".toList)
        (by decide) (.inr (by decide)) (by intro c hc; revert c; decide) (by unfold Same; decide) (by decide +kernel)
    · exact firstAt_check (item := "_b".toList) (pre := "data_t\n loop_\n   _a\n".toList) (indent := "  ".toList) (w := "_B".toList) (r := "\n   1    'x y'\n 3  4\n\n_c 2\n".toList)
        (by decide) (.inr (by decide)) (by intro c hc; revert c; decide) (by unfold Same; decide) (by decide +kernel)

/-- **C117** Hints for a loop are only found if the template has its header: `loop_` first in a line, something like the first name, as many further names as the loop has, all
with white space between them, and nothing more in the line of the last one; and every name begins a line. -/
theorem C117_header (n : Str) (names : List Str) (text : Str) (hs : List Hint) (hp : ∀ x ∈ n :: names, Plain x) (h : templateLoop (n :: names) text = some (.ok hs)) :
    (∃ pre indent kw g w more bl u, text = pre ++ (indent ++ (kw ++ (g ++ (w ++ (flatNames more ++ (bl ++ u)))))) ∧ LineStart pre ∧ Blank indent ∧ Same "loop_".toList kw ∧ Sep g ∧
      Like n w ∧ more.length = names.length ∧ (∀ x ∈ more, Sep x.1 ∧ DataName x.2) ∧ Blank bl ∧ (u = [] ∨ u.head? = some '\n') ∧
      hs.head? = some { dataname := "loop".toList, namePos := some (indent.length : Int) }) ∧
    ∀ x ∈ n :: names, ∃ a b, text = a ++ b ∧ LineStart a ∧ BeginsWith x b := by
  have hls : ∀ {pre : Str}, (pre = [] ∧ true = true ∨ pre.getLast? = some '\n') → LineStart pre := fun h => h.elim (fun h => .inl h.1) .inr
  have hnamed : ∀ (ns : List Str) (vs : List (Nat × Option Str)) (st : Nat × Nat × List Nat) (hs : List Hint), placeNamed text (ns.map fun n => (n, n.map plainPiece)) vs st = .ok hs →
      ∀ x ∈ ns, ∃ a b, text = a ++ b ∧ LineStart a ∧ BeginsWith x b := by
    intro ns
    induction ns with
    | nil => intro vs st hs _ x hx; cases hx
    | cons y ns ih =>
      intro vs st hs hh x hx
      obtain ⟨last, next, ends⟩ := st
      simp only [List.map_cons] at hh
      unfold placeNamed at hh
      split at hh
      · cases hh
      · cases hh
      · rename_i k v vs' hk
        simp only at hh
        split at hh
        · cases hh
        · rename_i hs' hh'
          rcases List.mem_cons.mp hx with rfl | hx
          · obtain ⟨a, b, e, hl, hb⟩ := firstLine_sound _ _ _ _ hk
            exact ⟨a, b, e, hls hl, nameAt_begins hb⟩
          · exact ih _ _ _ hh' x hx
  unfold templateLoop at h
  rw [allPieces_plain _ hp] at h
  simp only [List.map_cons, List.length_map] at h
  split at h
  · cases h
  · rename_i k rest hk
    split at h
    · cases h
    · rename_i hs' h'
      simp only [Option.some.injEq, Except.ok.injEq] at h
      subst h
      refine ⟨?_, hnamed (n :: names) _ _ _ h'⟩
      obtain ⟨pre, s', e, hl, hh⟩ := firstLine_sound _ _ _ _ hk
      obtain ⟨indent, kw, g, w, more, bl, e', h1, rfl, h3⟩ := headerAt_sound hh
      obtain ⟨h4, h5, h6, h7, h8, h9, h10⟩ := h3
      exact ⟨pre, indent, kw, g, w, more, bl, rest, by rw [e, e'], hls hl, h1, h4, h5, h6, h7, h8, h9, h10, rfl⟩

/-- The hypothesis is met. -/
example : (templateLoop ["_a".toList, "_b".toList] headerText).map (·.toOption.isSome) = some true := by decide +kernel

/-- **C117** (fails) If the first name of a loop is not the first word of any line, there is an error: a loop with its names in the line of `loop_` cannot be in a template
(the rules for templates say so, StarFile.nw 2940, but the error does not). -/
theorem C117_oneline_fails (n : Str) (names : List Str) (text : Str) (hp : ∀ x ∈ n :: names, Plain x)
    (h : ∀ a b, text = a ++ b → LineStart a → ¬BeginsWith n b) : templateLoop (n :: names) text = some (.error .attribute) := by
  have h1 : firstLine (nameAt (n.map plainPiece)) true text = none := by
    have hnone : ∀ b, ¬BeginsWith n b → nameAt (n.map plainPiece) b = none := by
      intro b hb
      cases hx : nameAt (n.map plainPiece) b with
      | none => rfl
      | some k => exact absurd (nameAt_begins hx) hb
    exact firstLine_none _ text true (fun _ => hnone _ (h [] text rfl (.inl rfl))) fun x y hxy _ hl => hnone _ (h x y hxy (.inr hl))
  unfold templateLoop
  rw [allPieces_plain _ hp]
  simp only [List.map_cons]
  split
  · rfl
  · rw [placeNamed]
    simp only [h1]

/-- The hypotheses are met by a correct template. -/
example : (∀ a b, "loop_ _a _b\n 1 2\n".toList = a ++ b → LineStart a → ¬BeginsWith "_a".toList b) ∧
    templateLoop ["_a".toList, "_b".toList] "loop_ _a _b\n 1 2\n".toList = some (.error .attribute) := by
  have h0 : ∀ a b, "loop_ _a _b\n 1 2\n".toList = a ++ b → LineStart a → ¬BeginsWith "_a".toList b := by
    intro a b hab hla
    have hc : ∀ i, i < 18 → ("loop_ _a _b\n 1 2\n".toList.take i = [] ∨ ("loop_ _a _b\n 1 2\n".toList.take i).getLast? = some '\n') →
        nameAt ("_a".toList.map plainPiece) ("loop_ _a _b\n 1 2\n".toList.drop i) = none := by decide +kernel
    have hl : a.length + b.length = 17 := by
      have := congrArg List.length hab
      simpa using this.symm
    have h1 : "loop_ _a _b\n 1 2\n".toList.take a.length = a := by rw [hab]; simp
    have h2 : "loop_ _a _b\n 1 2\n".toList.drop a.length = b := by rw [hab]; simp
    have := hc a.length (by omega) (by rw [h1]; exact hla)
    rw [h2] at this
    exact nameAt_none (by decide) this
  refine ⟨h0, C117_oneline_fails _ _ _ ?_ h0⟩
  intro x hx
  simp only [List.mem_cons, List.not_mem_nil, or_false] at hx
  rcases hx with rfl | rfl <;> exact ⟨by decide, by decide⟩

/-- **C117** (fails) A comment in the header of a loop is an error, even on a line of its own, which the rules for templates allow (StarFile.nw 2942). -/
theorem C117_comment_fails : templateLoop ["_a".toList, "_b".toList] "loop_\n _a\n# two\n _b\n 1 2\n".toList = some (.error .attribute) ∧
    templateLoop ["_a".toList, "_b".toList] "loop_\n _a\n _b # two\n 1 2\n".toList = some (.error .attribute) := by decide +kernel

/-- **C117** (fails) So are values in the line of the last name. -/
theorem C117_sameline_fails : templateLoop ["_a".toList] "loop_\n _a 1\n 2\n".toList = some (.error .attribute) := by decide +kernel

/-- **C117** (fails) A name gets the column of an earlier name that begins like it: `_a` that of `_ab`. -/
theorem C117_prefix_fails : templateLoop ["_ab".toList, "_a".toList] "loop_\n  _ab\n    _a\n 1 2\n".toList =
    some (.ok [{ dataname := "loop".toList, namePos := some 0 }, { dataname := "_ab".toList, column := 2, namePos := some 2 }, { dataname := "_a".toList, column := 4, namePos := some 2 }]) := by
  decide +kernel

end Template
end Verif
