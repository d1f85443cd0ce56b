import Verif.Lemmas.TemplateLoop
import Verif.Model.Reader
/-! # C117: loops of a template -/
namespace Verif
namespace Template
open Print

section samples
/-- The text after the header of a loop of a template. -/
def sampleCells : List Cell := [("\n   ".toList, "1".toList, none), ("    ".toList, "'x y'".toList, some ['\'']), ("\t ".toList, "\"z\"".toList, some ['"'])]
/-- A block with a loop. -/
def loopBlock : Block := letI := asciiFold
  (Reader.makeLoop { overwrite := false } ["_a".toList, "_b".toList, "_c".toList] [.str "u".toList, .str "v".toList, .str "w".toList, .str "9".toList, .str "it's".toList, .num "7".toList]).1
end samples

/-- **C117** The hints for the values of a loop, for every text after its header that is made of values that are recognised, and white space: the delimiters are those of the values,
and each value is put two columns after that of the character before it, columns being counted from 0 there and from 1 in hints. -/
theorem C117_values (names : List Str) (cells : List Cell) (tail : Str) (hn : names.length = cells.length)
    (hc : ∀ x ∈ cells, x.1 ≠ [] ∧ (∀ c ∈ x.1, isSpace c = true) ∧ Word x.2.1 x.2.2) (hu : Unnamed (flat cells)) (ht : ∀ c ∈ tail.head?, isSpace c = true) :
    loopHints names (flat cells ++ tail) =
      some (List.zipWith (fun n v => { dataname := n, delimiter := v.2, column := (columnAt (flat cells) (v.1 - 1) + 2 : Nat) }) names (starts 0 cells)) := by
  have hpk : packetText (flat cells ++ tail) = flat cells ++ packetText tail := packetText_append _ _ hu ht
  have hv := (values_cells (packetText tail) (packetText_ends ht) cells 0 hc).1
  have hpos : ∀ (cs : List Cell) (p : Nat), (∀ x ∈ cs, x.1 ≠ []) → ∀ v ∈ starts p cs, 0 < v.1 := by
    intro cs
    cases cs with
    | nil => intro p _ v hv; simp [starts] at hv
    | cons x r =>
      obtain ⟨g, w, d⟩ := x
      intro p h v hv
      have hg : 0 < g.length := List.length_pos_iff.mpr (h _ List.mem_cons_self)
      simp only [starts, List.mem_cons] at hv
      rcases hv with rfl | hv
      · simp only; omega
      · have := starts_bounds r _ v hv
        omega
  have hbnd := starts_bounds cells 0
  have hsl := starts_length cells 0
  unfold loopHints
  rw [hpk, hv]
  rw [place_all names _ 0 0 _ (by simp [hsl, hn]) (by rw [← hv]; exact (values_sorted _ _ _).1)]
  congr 1
  have hz : ∀ (ns : List Str) (vs ws : List (Nat × Option Str)), ns.length = vs.length → (∀ v ∈ vs, 0 < v.1 ∧ v.1 ≤ (flat cells).length) →
      List.zipWith (fun n v => ({ dataname := n, delimiter := v.2, column := (v.1 : Int) - (below v.1 0 (0 :: lineStarts 0 (flat cells ++ packetText tail)) : Nat) + 1 } : Hint)) ns (vs ++ ws) =
      List.zipWith (fun n v => ({ dataname := n, delimiter := v.2, column := (columnAt (flat cells) (v.1 - 1) + 2 : Nat) } : Hint)) ns vs := by
    intro ns
    induction ns with
    | nil => intros; rfl
    | cons n ns ih =>
      intro vs ws hl hv
      cases vs with
      | nil => simp at hl
      | cons v vs =>
        obtain ⟨h1, h2⟩ := hv v List.mem_cons_self
        have hb := below_text (flat cells ++ packetText tail) (v.1 - 1) (by simp; omega)
        have he : v.1 - 1 + 1 = v.1 := by omega
        rw [he, List.take_append_of_le_length (by omega)] at hb
        have hle := col_le ((flat cells).take (v.1 - 1))
        have hlen : ((flat cells).take (v.1 - 1)).length = v.1 - 1 := by simp; omega
        have hcol : columnAt (flat cells) (v.1 - 1) = col ((flat cells).take (v.1 - 1)) := rfl
        have hh : (v.1 : Int) - (below v.1 0 (0 :: lineStarts 0 (flat cells ++ packetText tail)) : Nat) + 1 = (columnAt (flat cells) (v.1 - 1) + 2 : Nat) := by
          rw [hb, hcol]
          omega
        simp only [List.cons_append, List.zipWith_cons_cons, hh, ih vs ws (by simpa using hl) fun x hx => hv x (List.mem_cons_of_mem _ hx)]
  refine hz names _ _ (by simp [hsl, hn]) fun v hv => ⟨hpos cells 0 (fun x hx => (hc x hx).1) v hv, ?_⟩
  have := (hbnd v hv).2
  omega

/-- The hypotheses are met. -/
example : (∀ x ∈ sampleCells, x.1 ≠ [] ∧ (∀ c ∈ x.1, isSpace c = true) ∧ Word x.2.1 x.2.2) ∧ Unnamed (flat sampleCells) ∧
    loopHints ["_a".toList, "_b".toList, "_c".toList] (flat sampleCells ++ "\n\n_d 2\n".toList) =
      some [{ dataname := "_a".toList, column := 4 }, { dataname := "_b".toList, delimiter := some ['\''], column := 9 },
        { dataname := "_c".toList, delimiter := some ['"'], column := 16 }] := by
  refine ⟨?_, unnamed_free (by decide +kernel), by decide +kernel⟩
  intro x hx
  simp only [sampleCells, List.mem_cons, List.not_mem_nil, or_false] at hx
  rcases hx with rfl | rfl | rfl
  · exact ⟨by decide, by decide, .bare _ (by decide) (by decide) (by decide) (by decide)⟩
  · exact ⟨by decide, by decide, .single "x y".toList (by decide)⟩
  · exact ⟨by decide, by decide, .double "z".toList (by decide)⟩

/-- The hypothesis on underscores allows them at the end of values. -/
example : Unnamed (flat [("\n  ".toList, "1".toList, none), ("   ".toList, "x_".toList, none), ("  ".toList, "_".toList, none)]) ∧
    loopHints ["_a".toList, "_b".toList, "_c".toList] "\n  1   x_  _\n".toList =
      some [{ dataname := "_a".toList, column := 3 }, { dataname := "_b".toList, column := 7 }, { dataname := "_c".toList, column := 11 }] := by
  refine ⟨?_, by decide +kernel⟩
  intro a c b e
  have h : ∀ (l : Str), (∀ i, i < l.length → l[i]? = some '_' → ∀ d, l[i + 1]? = some d → isSpace d = true) → Unnamed l := by
    rintro l hl a c b rfl
    refine hl a.length (by simp) (by simp) c ?_
    rw [List.getElem?_append_right (by omega)]
    simp
  refine h _ ?_ a c b e
  decide +kernel

/-- **C117** A value that is not at the start of a line is put into its column (hints count from 1). Missing: values at the start of a line (`C117_start_fails`), values that have
underscores before other characters (`C117_underscore_fails`), values in triple double quotes (`C117_triple_fails`). -/
theorem C117_columns_partial (names : List Str) (cells : List Cell) (tail : Str) (hn : names.length = cells.length)
    (hc : ∀ x ∈ cells, x.1 ≠ [] ∧ (∀ c ∈ x.1, isSpace c = true) ∧ Word x.2.1 x.2.2) (hu : Unnamed (flat cells)) (ht : ∀ c ∈ tail.head?, isSpace c = true) :
    ∃ hs, loopHints names (flat cells ++ tail) = some hs ∧ hs.length = cells.length ∧
      ∀ (i : Nat) (n : Str) (x : Cell) (p : Nat) (d : Option Str), names[i]? = some n → cells[i]? = some x → (starts 0 cells)[i]? = some (p, d) → x.1.getLast? ≠ some '\n' →
        hs[i]? = some { dataname := n, delimiter := d, column := (columnAt (flat cells) p + 1 : Nat) } := by
  refine ⟨_, C117_values names cells tail hn hc hu ht, by simp [starts_length, hn], ?_⟩
  intro i n x p d h1 h2 h3 h4
  obtain ⟨h5, h6⟩ := starts_gap cells 0 i (p, d) x (fun y hy => (hc y hy).1) h3 h2
  simp only [Nat.sub_zero, Nat.zero_add] at h5 h6
  cases hl : x.1.getLast? with
  | none => exact absurd (List.getLast?_eq_none_iff.mp hl) (hc x (List.mem_of_getElem? h2)).1
  | some c =>
    rw [hl] at h6 h4
    have := columnAt_succ h6 (fun e => h4 (by rw [e]))
    have he : p - 1 + 1 = p := by omega
    rw [he] at this
    rw [List.getElem?_zipWith, h1, h3, this]

/-- **C117** (fails) A value at the start of a line is never put there: its column is two more than the length of the line before. -/
theorem C117_start_fails (names : List Str) (cells : List Cell) (tail : Str) (hn : names.length = cells.length)
    (hc : ∀ x ∈ cells, x.1 ≠ [] ∧ (∀ c ∈ x.1, isSpace c = true) ∧ Word x.2.1 x.2.2) (hu : Unnamed (flat cells)) (ht : ∀ c ∈ tail.head?, isSpace c = true)
    (i : Nat) (n : Str) (x : Cell) (p : Nat) (d : Option Str) (h1 : names[i]? = some n) (h2 : cells[i]? = some x) (h3 : (starts 0 cells)[i]? = some (p, d))
    (h4 : x.1.getLast? = some '\n') :
    columnAt (flat cells) p = 0 ∧
    ∃ hs, loopHints names (flat cells ++ tail) = some hs ∧ hs[i]? = some { dataname := n, delimiter := d, column := (columnAt (flat cells) (p - 1) + 2 : Nat) } := by
  obtain ⟨h5, h6⟩ := starts_gap cells 0 i (p, d) x (fun y hy => (hc y hy).1) h3 h2
  simp only [Nat.sub_zero, Nat.zero_add] at h5 h6
  rw [h4] at h6
  refine ⟨?_, _, C117_values names cells tail hn hc hu ht, ?_⟩
  · have := columnAt_line h6
    have he : p - 1 + 1 = p := by omega
    rwa [he] at this
  · rw [List.getElem?_zipWith, h1, h3]

/-- The case occurs: both values of a row are at the start of a line. -/
example : loopHints ["_a".toList, "_b".toList] "\n1\n2\n3\n4\n".toList = some [{ dataname := "_a".toList, column := 2 }, { dataname := "_b".toList, column := 3 }] := by decide +kernel

/-- **C117** No value of a loop is ever asked for at column 0: with the columns of any template, words stand apart (C11). -/
theorem C117_positive (names : List Str) (rest : Str) (hs : List Hint) (h : loopHints names rest = some hs) : ∀ x ∈ hs, x.column ≠ 0 := by
  intro x hx
  have := place_positive names _ 0 0 _ hs (fun v _ => Nat.zero_le _) (values_sorted _ _ _).1 h x hx
  omega

/-- The hypothesis is met. -/
example : (loopHints ["_a".toList, "_b".toList] "1 2\n".toList).map (·.map (·.column)) = some [1, 3] := by decide +kernel

section Laws
variable [CaseFold]

/-- **C117** A row is written with every value at its column, and blanks between them, for all columns that leave room for the values and more than one blank between them. -/
theorem C117_row (st : Style) (hints : List Hint) (l : List Placed) (s : Sink) (h : ∀ x ∈ l, x.Ok st hints) (hr : Room s.width s.pos (l.map fun x => (x.column, x.word))) :
    ∃ s', formatRow st hints s (l.map (·.name)) (l.map (·.value)) = .ok s' ∧ s'.out = s.out ++ rowAt s.pos (l.map fun x => (x.column, x.word)) :=
  formatRow_at l s h hr

end Laws

/-- The hypotheses are met: a block is written with the hints of the template; the blanks at the end of the first row are those of a tab stop. -/
example : letI := asciiFold
    (loopHints ["_a".toList, "_b".toList, "_c".toList] (flat sampleCells ++ "\n".toList)).map (fun hs => printSection .v20 hs loopBlock) =
      some (.ok ("\nloop_\n  _a\n  _b\n  _c\n   u    'v'    \"w\"           \n   9    \"it's\"     7 ".toList)) := by decide +kernel

/-- **C117** (fails) With one blank between two values the second is not written in its column: it goes to the next tab stop. -/
theorem C117_single_fails : letI := asciiFold
    (loopHints ["_a".toList, "_b".toList, "_c".toList] "\n   u v w\n".toList).map (fun hs => printSection .v20 hs loopBlock) =
      some (.ok ("\nloop_\n  _a\n  _b\n  _c\n   u     v         w         \n   9     \"it's\"    7 ".toList)) := by decide +kernel

/-- **C117** (fails) If a value has an underscore, the values end there: there is an error for every loop that has a further name after that of the value. -/
theorem C117_underscore_fails (names : List Str) (cells : List Cell) (g u rest : Str) (c d : Char) (hn : cells.length + 1 < names.length)
    (hc : ∀ x ∈ cells, x.1 ≠ [] ∧ (∀ c ∈ x.1, isSpace c = true) ∧ Word x.2.1 x.2.2) (hu : '_' ∉ flat cells) (hg : g ≠ [] ∧ ∀ c ∈ g, isSpace c = true)
    (hw : u = [] ∨ Word u none) (hu' : '_' ∉ u) (hc' : c ≠ '_') (hd : isSpace d = false) :
    loopHints names (flat cells ++ (g ++ (u ++ c :: '_' :: d :: rest))) = none := by
  have hus : ∀ {l : Str}, (∀ c ∈ l, isSpace c = true) → '_' ∉ l := fun h hm => absurd (h _ hm) (by decide)
  have hpk : packetText (flat cells ++ (g ++ (u ++ c :: '_' :: d :: rest))) = flat cells ++ (g ++ u) := by
    have := packetText_cut (flat cells ++ (g ++ u)) c d rest (by simp [hu, hu', hus hg.2]) hc' hd
    simpa using this
  unfold loopHints
  rw [hpk]
  refine place_short names _ _ ?_
  rcases hw with rfl | hw
  · have hv := (values_cells g (fun c hc => hg.2 c (List.mem_of_mem_head? hc)) cells 0 hc).1
    have h0 := values_gap g [] (0 + (flat cells).length) hg.2
    rw [List.append_nil] at h0
    rw [List.append_nil, hv, h0]
    simp [values, starts_length]
    omega
  · have hv := (values_cells [] (by intro c hc; simp at hc) (cells ++ [(g, u, none)]) 0 (by
      intro x hx
      rcases List.mem_append.mp hx with hx | hx
      · exact hc x hx
      · have : x = (g, u, none) := by simpa using hx
        subst this
        exact ⟨hg.1, hg.2, hw⟩)).1
    have hf : ∀ cs : List Cell, flat (cs ++ [(g, u, none)]) = flat cs ++ (g ++ u) := by
      intro cs
      induction cs with
      | nil => simp [flat]
      | cons x r ih =>
        obtain ⟨g', w', d'⟩ := x
        simp only [List.cons_append, flat, ih, List.append_assoc]
    rw [List.append_nil, hf] at hv
    rw [hv]
    simp [values, starts_length]
    omega

/-- The case occurs. -/
example : loopHints ["_a".toList, "_b".toList] "\n  P_1    x\n".toList = none := by decide +kernel

/-- **C117** (fails) Values in triple double quotes are taken apart, and later values get the columns of their parts. -/
theorem C117_triple_fails : loopHints ["_a".toList, "_b".toList] "\n  \"\"\"x\"\"\"    1\n".toList =
    some [{ dataname := "_a".toList, delimiter := some ['"'], column := 3 }, { dataname := "_b".toList, column := 6 }] := by decide +kernel

end Template
end Verif
