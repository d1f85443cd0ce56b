import Verif.Lemmas.RoundTrip
/-! # C04 and C05: a written value is read back -/
set_option linter.unusedSectionVars false
namespace Verif.RoundTrip
open Print Reader
variable [CaseFold]

theorem isField {maxOut : Int} {s w : Str} {d : Option Str} (h : formatString (Style.v11 maxOut) s d = .ok w)
    (hw : w.head? = some '\n') : textField (Style.v11 maxOut) s = .ok w := by
  rcases format_cases h with ⟨rfl, hn⟩ | ⟨rfl, -, -⟩ | ⟨rfl, -, -⟩ | ht
  · cases w with
    | nil => simp at hw
    | cons c t =>
      simp only [List.head?_cons, Option.some.injEq] at hw
      subst hw
      simp [needsDelimiter] at hn
  · simp at hw
  · simp at hw
  · exact ht

/-! ## C04 -/

/-- **C04** A text field holds its closing delimiter, a line feed with a semicolon, only where it ends: no text ends its own field
early. For all texts, output limits and requested delimiters. -/
theorem C04_no_early_end (maxOut : Int) (s w : Str) (d : Option Str) (h : formatString (Style.v11 maxOut) s d = .ok w)
    (hw : w.head? = some '\n') (a b : Str) (e : w = a ++ "\n;".toList ++ b) : a = [] ∨ b = [] :=
  field_inside (isField h hw) e

example : letI := asciiFold
    formatString .v11 "a\n;b\nCIF:c".toList none = .ok "\n;CIF::> \\\nCIF::> a\nCIF::> ;b\nCIF::> CIF:c\n;".toList := by decide +kernel

/-- **C04** A text written as a text field is read as exactly that text, and the reader goes on right behind the field. Missing from
the claim: texts with a carriage return, texts that begin like a folded or prefixed field, texts to be folded in which a line ends in
a backslash and blanks, and fields in which a line starts with a number sign. For each of them the reader fails, as shown below. -/
theorem C04_roundtrip_partial (maxOut : Int) (s w : Str) (d : Option Str) (h : formatString (Style.v11 maxOut) s d = .ok w)
    (hw : w.head? = some '\n') (hs : FieldSafe (Style.v11 maxOut) s w) (rest : Str) (hr : WhiteNext rest) :
    ReadBack gram11 w (.str s) rest :=
  readBack_of (field_reads (isField h hw) hs) hr

/-- **C04** Texts without carriage return, backslash and number sign are read back for every output limit: whatever their line lengths and
semicolons, so that folding and prefixing take place.
Missing: texts with those characters, see `C04_roundtrip_partial`. -/
theorem C04_plain_partial (maxOut : Int) (s : Str) (h1 : '\r' ∉ s) (h2 : '\\' ∉ s) (h3 : '#' ∉ s) :
    ∃ w, formatString (Style.v11 maxOut) s (some "\n;".toList) = .ok w ∧ w.head? = some '\n' ∧
      ∀ rest, WhiteNext rest → ReadBack gram11 w (.str s) rest := by
  obtain ⟨q, hq, hcase⟩ := textField_ok (Style.v11 maxOut) s
  have hw : formatString (Style.v11 maxOut) s (some "\n;".toList) = .ok (semiDelim ++ q ++ semiDelim) := by
    have : choose (Style.v11 maxOut) s (some "\n;".toList) = some semiDelim := by
      rw [choose, if_pos]
      · rfl
      · have e1 : ("\n;".toList : Str) ≠ ['\''] := by decide
        have e2 : ("\n;".toList : Str) ≠ ['"'] := by decide
        simp only [allowed, if_neg e1, if_neg e2]
        rfl
    rw [formatString, this]
    simp only
    rw [if_neg (by decide), hq]
  refine ⟨_, hw, rfl, fun rest hr => C04_roundtrip_partial maxOut s _ _ hw rfl ⟨h1, ?_, ?_, ?_, ?_⟩ rest hr⟩
  · have hf : '#' ∉ folded (Style.v11 maxOut) s := by
      unfold folded
      split
      · intro h
        rcases mem_applyFolding h with h | h | h
        · exact absurd h (by decide)
        · exact absurd h (by decide)
        · exact h3 h
      · exact h3
    have hm : '#' ∉ semiDelim ++ q ++ semiDelim := by
      have : '#' ∉ q := by
        rcases hcase with ⟨-, rfl⟩ | ⟨-, p, -, -, hp, hpq⟩
        · exact hf
        · intro h
          rcases mem_applyPrefix hpq h with h | h | h | h
          · exact hp.2 h
          · exact absurd h (by decide)
          · exact absurd h (by decide)
          · exact hf h
      simpa [semiDelim] using this
    rintro ⟨a, l, b, e, -⟩
    exact hm (by rw [e]; simp)
  · rintro ⟨b, r, e, -⟩
    exact h2 (by rw [e]; simp)
  · rintro ⟨c, p, m, b, r, e, -, -, -, -, hm, -⟩
    exact h2 (by rw [e]; rcases hm with rfl | rfl <;> simp)
  · rintro - l hl ⟨a, b, e, -⟩
    exact h2 (mem_line hl (by rw [e]; simp))

/-- The theorem covers a text that has to be folded and prefixed. -/
example : letI := asciiFold
    ∃ w, formatString (Style.v11 80) (";x".toList ++ List.replicate 81 'y' ++ "\n;z".toList) (some "\n;".toList) = .ok w ∧
      "\n;CIF:> \\\\\nCIF:> ;x".toList <+: w ∧ ∀ rest, WhiteNext rest → ReadBack gram11 w (.str (";x".toList ++ List.replicate 81 'y' ++ "\n;z".toList)) rest := by
  letI := asciiFold
  obtain ⟨w, h1, -, h2⟩ := C04_plain_partial 80 (";x".toList ++ List.replicate 81 'y' ++ "\n;z".toList) (by decide +kernel) (by decide +kernel) (by decide +kernel)
  refine ⟨w, h1, ?_, h2⟩
  have : (formatString (Style.v11 80) (";x".toList ++ List.replicate 81 'y' ++ "\n;z".toList) (some "\n;".toList)).toOption.elim false
      (fun w => "\n;CIF:> \\\\\nCIF:> ;x".toList.isPrefixOf w) = true := by decide +kernel
  rw [h1] at this
  exact List.isPrefixOf_iff_prefix.1 this

/-- What the reader makes of a written value. -/
def readValue (w : Str) : Option PyVal := ((gram11.value (w.length + 1) { scan := { input := w } }).toOption).map (·.1)

omit [CaseFold] in
/-- A line that starts with a number sign is lost. -/
theorem C04_comment_fails : letI := asciiFold
    ∃ s w, formatString .v11 s none = .ok w ∧ '\r' ∉ s ∧ w.head? = some '\n' ∧
      readValue w = some (.str "a\nc".toList) ∧ s = "a\n#b\nc".toList :=
  ⟨"a\n#b\nc".toList, "\n;a\n#b\nc\n;".toList, by decide +kernel⟩

omit [CaseFold] in
/-- Folding may put a number sign at the start of a line, so that text without a line end is lost as well. -/
theorem C04_folded_comment_fails : letI := asciiFold
    ∃ s w, formatString (Style.v11 80) s none = .ok w ∧ '\n' ∉ s ∧ w.head? = some '\n' ∧
      s = List.replicate 79 'a' ++ '#' :: List.replicate 100 'b' ∧ readValue w = some (.str (List.replicate 79 'a' ++ List.replicate 22 'b')) :=
  ⟨List.replicate 79 'a' ++ '#' :: List.replicate 100 'b',
   "\n;\\\n".toList ++ List.replicate 79 'a' ++ "\\\n#".toList ++ List.replicate 78 'b' ++ "\\\n".toList ++ List.replicate 22 'b' ++ "\n;".toList,
   by decide +kernel⟩

omit [CaseFold] in
/-- A carriage return before a semicolon ends the field early. -/
theorem C04_return_fails : letI := asciiFold
    ∃ s w, formatString .v11 s (some "\n;".toList) = .ok w ∧ w.head? = some '\n' ∧
      s = "a\r;b".toList ∧ readValue w = some (.str "a".toList) :=
  ⟨"a\r;b".toList, "\n;a\r;b\n;".toList, by decide +kernel⟩

omit [CaseFold] in
/-- A text that begins like a prefixed or a folded field is changed. -/
theorem C04_header_fails : letI := asciiFold
    (∃ s w, formatString .v11 s none = .ok w ∧ w.head? = some '\n' ∧ s = "ab\\\nabc".toList ∧ readValue w = some (.str "c".toList)) ∧
    (∃ s w, formatString .v11 s none = .ok w ∧ w.head? = some '\n' ∧ s = "\\\nab\\\nc".toList ∧ readValue w = some (.str "abc".toList)) :=
  ⟨⟨"ab\\\nabc".toList, "\n;ab\\\nabc\n;".toList, by decide +kernel⟩, ⟨"\\\nab\\\nc".toList, "\n;\\\nab\\\nc\n;".toList, by decide +kernel⟩⟩

/-! ## C05 -/

/-- **C05** Every text has a representation. -/
theorem C05_total (st : Style) (s : Str) (d : Option Str) : ∃ w, formatString st s d = .ok w := by
  rw [formatString]
  cases choose st s d with
  | none => exact ⟨_, rfl⟩
  | some x =>
    simp only
    split
    · exact ⟨_, rfl⟩
    · obtain ⟨q, hq, -⟩ := textField_ok st s
      exact ⟨_, hq⟩

/-- **C05** The chosen representation of a text, followed by white space, is read as one value, which is exactly that text. Missing
from the claim: a value without delimiters that holds white space other than blank, tab, vertical tab and line feed, or that reads
`loop_` or starts with `stop_`; a quoted value that holds a carriage return or, in single quotes, a form feed; and the text fields
left out of `C04_roundtrip_partial`. -/
theorem C05_read_partial (maxOut : Int) (s w : Str) (d : Option Str) (h : formatString (Style.v11 maxOut) s d = .ok w)
    (hs : Safe (Style.v11 maxOut) s w) (rest : Str) (hr : WhiteNext rest) : ReadBack gram11 w (.str s) rest :=
  readBack_of (format_reads h hs) hr

theorem printable_space {s : Str} (h : Printable s) {c : Char} (hc : c ∈ s) (hb : c ≠ ' ') : isSpace c = false := by
  have h1 := h c hc
  have h2 : c.toNat ≠ 32 := fun e => hb (by
    have := Char.ofNat_toNat c
    rw [e] at this
    exact this.symm)
  simp only [isSpace, Bool.or_eq_false_iff, decide_eq_false_iff_not, Bool.and_eq_false_iff, beq_eq_false_iff_ne]
  omega

/-- Printable texts within the output limit that are no reserved words are safe. -/
theorem safe_printable {maxOut : Int} {s : Str} {d : Option Str} (hs : Printable s) (hl : (s.length : Int) ≤ maxOut - 2)
    (hstop : ¬ StartsStop s) (hloop : asciiLower s ≠ "loop_".toList) {w : Str} (hw : formatString (Style.v11 maxOut) s d = .ok w) :
    Safe (Style.v11 maxOut) s w := by
  have hn : '\n' ∉ s := fun h => absurd (hs _ h) (by decide)
  have hcr : '\r' ∉ s := fun h => absurd (hs _ h) (by decide)
  have hff : '\x0c' ∉ s := fun h => absurd (hs _ h) (by decide)
  have hsplit : splitNl s = [s] := splitNl_of_noNl s hn
  have hlong : ¬ ∃ l ∈ splitNl s, (Style.v11 maxOut).maxOut < l.length := by
    rintro ⟨l, hl', h⟩
    rw [hsplit] at hl'
    simp only [List.mem_singleton] at hl'
    subst hl'
    simp only [Style.v11] at h
    omega
  refine ⟨fun e => ⟨fun c hc => ?_, hstop, hloop⟩, fun _ => ⟨hcr, hff⟩, fun _ => hcr, fun hw' => ⟨hcr, ?_, ?_, ?_, fun h => (hlong h).elim⟩⟩
  · refine printable_space hs hc fun e' => ?_
    rcases format_cases hw with ⟨-, hnd⟩ | ⟨e2, -⟩ | ⟨e2, -⟩ | ht
    · subst e'
      simp only [needsDelimiter, Bool.or_eq_false_iff, List.any_eq_false] at hnd
      exact absurd (hnd.1.1.1.1.1.2 ' ' hc) (by simp)
    · have := congrArg List.length (e.symm.trans e2)
      simp at this
      omega
    · have := congrArg List.length (e.symm.trans e2)
      simp at this
      omega
    · obtain ⟨q, hq, -⟩ := textField_ok (Style.v11 maxOut) s
      rw [hq] at ht
      simp only [Except.ok.injEq] at ht
      apply hn
      rw [← e, ← ht]
      simp [semiDelim]
  · rintro ⟨a, l, b, e, hnl, -, h2⟩
    have ht := isField hw hw'
    obtain ⟨q, hq, hcase⟩ := textField_ok (Style.v11 maxOut) s
    have hf : folded (Style.v11 maxOut) s = s := by
      unfold folded
      rw [if_neg]
      simpa using hlong
    rw [hf] at hcase
    have hoc : ¬ Occurs semiDelim s := by
      rintro ⟨a, b, rfl⟩
      exact hn (by simp [semiDelim])
    rcases hcase with ⟨-, rfl⟩ | ⟨h, -⟩
    · rw [hq] at ht
      simp only [Except.ok.injEq] at ht
      rw [← ht] at e
      cases a with
      | nil => simp [semiDelim] at e
      | cons c a =>
        have e1 : (semiDelim ++ q ++ semiDelim).count '\n' = (c :: a ++ "\n#".toList ++ l ++ '\n' :: b).count '\n' := by rw [e]
        have h0 : c = '\n' := by
          simp only [semiDelim, List.cons_append] at e
          have := congrArg List.head? e
          simpa using this.symm
        have h1 : q.count '\n' = 0 := List.count_eq_zero.2 hn
        rw [h0] at e1
        simp [semiDelim, h1] at e1
        omega
    · exact absurd h hoc
  · rintro ⟨b, r, e, -⟩
    exact hn (by rw [e]; simp)
  · rintro ⟨c, p, m, b, r, e, -⟩
    exact hn (by rw [e]; simp)

/-- **C05** For a text of printable characters within the output limit the only condition left is that it is not mistaken for a
reserved word.
Missing: texts with other characters or beyond the limit, see `C05_read_partial`. -/
theorem C05_printable_partial (maxOut : Int) (s : Str) (d : Option Str) (hs : Printable s) (hl : (s.length : Int) ≤ maxOut - 2)
    (hstop : ¬ StartsStop s) (hloop : asciiLower s ≠ "loop_".toList) :
    ∃ w, formatString (Style.v11 maxOut) s d = .ok w ∧ ∀ rest, WhiteNext rest → ReadBack gram11 w (.str s) rest := by
  obtain ⟨w, hw⟩ := C05_total (Style.v11 maxOut) s d
  exact ⟨w, hw, fun rest hr => C05_read_partial maxOut s w d hw (safe_printable hs hl hstop hloop hw) rest hr⟩

/-- The conditions are met by texts with quotes, blanks and reserved beginnings, in every kind of representation. -/
example : letI := asciiFold
    formatString .v11 "data_x".toList none = .ok "'data_x'".toList ∧ formatString .v11 "it's".toList (some ['\'']) = .ok "\"it's\"".toList ∧
    formatString .v11 "a'b\"c".toList none = .ok "\n;a'b\"c\n;".toList ∧ formatString .v11 "1.5(2)".toList none = .ok "1.5(2)".toList ∧
    readValue "'data_x'".toList = some (.str "data_x".toList) ∧ readValue "\n;a'b\"c\n;".toList = some (.str "a'b\"c".toList) := by
  decide +kernel

omit [CaseFold] in
/-- A value that starts with `stop_` is written without delimiters and cannot be read. -/
theorem C05_stop_fails : letI := asciiFold
    formatString .v11 "stop_1".toList none = .ok "stop_1".toList ∧ readValue "stop_1".toList = none := by decide +kernel

omit [CaseFold] in
/-- A carriage return in a value without delimiters cuts the value off. -/
theorem C05_return_fails : letI := asciiFold
    formatString .v11 "a\rb".toList none = .ok "a\rb".toList ∧ readValue "a\rb".toList = some (.str "a".toList) := by decide +kernel

omit [CaseFold] in
/-- A form feed in single quotes makes the value unreadable. -/
theorem C05_form_feed_fails : letI := asciiFold
    formatString .v11 "a \x0cb".toList none = .ok "'a \x0cb'".toList ∧ readValue "'a \x0cb'".toList = none := by decide +kernel

end Verif.RoundTrip
