import Verif.Lemmas.Template
/-! # C116: items of a template -/
namespace Verif
namespace Template
open Print

section samples
/-- A template. -/
def sampleTemplate : Str := "#\\#CIF_2.0\ndata_t\n_cell.id  x\n  _Cell.angle      'ninety'\n_note\n;text\n;\n".toList
/-- A block that is to be written like the template. -/
def templateBlock : Block := letI := asciiFold
  ((({ overwrite := false } : Block).addItem "_cell.angle".toList (.str "a b".toList) true).1.addItem "_cell.id".toList (.str "y".toList) true).1
end samples

/-- **C116** The hints for an item are those of its line in the template: the column of the name, and the column of the value counted from the start of the line with the name,
unless the value is a text field; the delimiter is that of the value. For all templates where no earlier line begins with the name, or with something that differs from it only
where it has dots. Missing: names with other signs of regular expressions (`C116_bracket_fails`), templates where an earlier line looks like the item (`C116_dot_fails`,
`C116_text_fails`), and the column within the line when the value is on a later line than the name (`C116_nextline_fails`). -/
theorem C116_hint_partial (item pre indent nm gap val : Str) (hp : Plain item) (hn : '\n' ∉ item) (hl : LineStart pre) (hi : Blank indent) (hs : Same item nm) (hg : Gap gap)
    (hv : ∃ c r, val = c :: r ∧ isSpace c = false)
    (he : ∀ a b, pre = a ++ b → b ≠ [] → LineStart a → ¬Begins item (b ++ (indent ++ (nm ++ (gap ++ val))))) :
    itemHint item (pre ++ (indent ++ (nm ++ (gap ++ val)))) =
      some (.ok { dataname := item, delimiter := delimiterOf val, namePos := some indent.length,
                  column := if val.head? = some ';' then -1 else (indent.length + nm.length + gap.length : Nat) }) := by
  have hm := matchAt_item hp.1 hn hi hs hg hv
  have none_of : ∀ s, ¬Begins item s → matchAt (item.map plainPiece) s = none := by
    intro s h
    cases hx : matchAt (item.map plainPiece) s with
    | none => rfl
    | some m => exact absurd (matchAt_begins hx) h
  have hsearch : search (item.map plainPiece) true (pre ++ (indent ++ (nm ++ (gap ++ val)))) = some (indent.length, indent.length + nm.length + gap.length, val) := by
    rw [search_skip (item.map plainPiece) pre _ true (fun _ => rfl) (fun h => hl.resolve_left h) (fun _ h => none_of _ (he [] pre rfl h (.inl rfl)))
      (fun a b hab _ hb hla => none_of _ (he a b hab hb (.inr hla)))]
    revert hm
    generalize indent ++ (nm ++ (gap ++ val)) = s
    intro hm
    cases s with
    | nil => rw [search]; exact hm
    | cons c r => rw [search, hm]
  simp only [itemHint, pieces_plain item hp.2, Option.map_some, hsearch]

/-- The hypotheses are met: the second item of the template. -/
example : Plain "_cell.angle".toList ∧ '\n' ∉ "_cell.angle".toList ∧ Blank "  ".toList ∧ Same "_cell.angle".toList "_Cell.angle".toList ∧ Gap "      ".toList ∧
    sampleTemplate = "#\\#CIF_2.0\ndata_t\n_cell.id  x\n".toList ++ ("  ".toList ++ ("_Cell.angle".toList ++ ("      ".toList ++ "'ninety'\n_note\n;text\n;\n".toList))) ∧
    itemHint "_cell.angle".toList sampleTemplate = some (.ok { dataname := "_cell.angle".toList, delimiter := some ['\''], column := 19, namePos := some 2 }) ∧
    itemHint "_note".toList sampleTemplate = some (.ok { dataname := "_note".toList, delimiter := some "\n;".toList, column := -1, namePos := some 0 }) := by
  simp only [Plain, Blank, Same, Gap]
  decide +kernel

/-- **C116** If no line of the template begins with the name, or with something like it, there is an error instead of hints. -/
theorem C116_missing (item text : Str) (hp : Plain item) (he : ∀ a b, text = a ++ b → LineStart a → ¬Begins item b) : itemHint item text = some (.error .attribute) := by
  have hsearch : search (item.map plainPiece) true text = none := by
    refine search_none _ text true (fun _ => ?_) (fun a b hab _ hl => ?_)
    · cases hx : matchAt (item.map plainPiece) text with
      | none => rfl
      | some m => exact absurd (matchAt_begins hx) (he [] text rfl (.inl rfl))
    · cases hx : matchAt (item.map plainPiece) b with
      | none => rfl
      | some m => exact absurd (matchAt_begins hx) (he a b hab (.inr hl))
  simp only [itemHint, pieces_plain item hp.2, Option.map_some, hsearch]

/-- The case occurs: the name comes after another one on the same line. -/
example : itemHint "_b".toList "data_t\n_a 1 _b 2\n".toList = some (.error .attribute) := by decide +kernel

/-- **C116** No item is ever asked for at column 0, or at any column that is not to the right of its name: columns are those for which words stand apart (C11). -/
theorem C116_columns_positive (item text : Str) (h : Hint) (hh : itemHint item text = some (.ok h)) : h.column = -1 ∨ ∃ n : Nat, h.namePos = some (n : Int) ∧ (n : Int) < h.column := by
  unfold itemHint at hh
  cases hp : pieces none item with
  | none => rw [hp] at hh; cases hh
  | some ps =>
    rw [hp] at hh
    simp only [Option.map_some, Option.some.injEq] at hh
    split at hh
    · cases hh
    · rename_i n k v hs
      simp only [Except.ok.injEq] at hh
      subst hh
      have hpos : ∀ (s : Str) (f : Bool), search ps f s = some (n, k, v) → n < k := by
        have hm : ∀ s, matchAt ps s = some (n, k, v) → n < k := by
          intro s h
          unfold matchAt at h
          dsimp only at h
          split at h
          · cases h
          · split at h
            · cases h
            · rename_i hg
              simp only [Option.map_eq_some_iff, Prod.mk.injEq] at h
              obtain ⟨_, _, rfl, rfl, _⟩ := h
              omega
        intro s
        induction s with
        | nil =>
          intro f h
          cases f with
          | true => rw [search] at h; exact hm _ h
          | false => rw [search] at h; cases h
        | cons c r ih =>
          intro f h
          cases f with
          | false => rw [search] at h; exact ih _ h
          | true =>
            rw [search] at h
            split at h
            · rename_i m hmm
              cases h
              exact hm _ hmm
            · exact ih _ h
      dsimp only
      split
      · exact .inl rfl
      · exact .inr ⟨n, rfl, by have := hpos _ _ hs; omega⟩

/-- The hypothesis is met. -/
example : itemHint "_a[1]".toList "data_t\n_a1\n  x\n".toList = some (.ok { dataname := "_a[1]".toList, column := 6, namePos := some 0 }) := by decide +kernel

section Laws
variable [CaseFold]

/-- **C116** An item is written as it stands in the template: on a line of its own, name and value in the columns they have there, with blanks before and between them. For all
templates where name and value are on one line with at least two blanks between them, and all values for which the line is long enough. Missing: items with just one blank
(`C116_single_fails`), with the value on the next line (`C116_nextline_fails`), names with signs of regular expressions (`C116_dot_fails`, `C116_bracket_fails`), templates in which
an earlier text or comment looks like the item (`C116_text_fails`, `C116_comment_fails`); for loops see C117. -/
theorem C116_columns_partial (st : Style) (hs hs' : List Hint) (b : Block) (s : Sink) (item n name t pre indent nm gap val : Str) (v : PyVal)
    (hp : Plain item) (hnl : '\n' ∉ item) (hl : LineStart pre) (hi : Blank indent) (hsame : Same item nm) (hg : Blank gap) (hg2 : 2 ≤ gap.length)
    (hv : ∃ c r, val = c :: r ∧ isSpace c = false ∧ c ≠ ';')
    (he : ∀ a b, pre = a ++ b → b ≠ [] → LineStart a → ¬Begins item (b ++ (indent ++ (nm ++ (gap ++ val)))))
    (hf : ∀ x ∈ hs, lower x.dataname ≠ lower n) (hn : lower item = lower n) (hb : b.getItem n = .ok v) (hc : dget b.trueCase n = some name)
    (hwd : (∃ x, v = .str x ∧ formatString st x (delimiterOf val) = .ok t) ∨ v = .num t) (hw : ∀ c ∈ name, isSpace c = false) (hlen : name.length = nm.length) (h0 : s.indent = 0)
    (hroom : indent.length + name.length + 1 + t.length ≤ s.width) :
    ∃ h s', itemHint item (pre ++ (indent ++ (nm ++ (gap ++ val)))) = some (.ok h) ∧ printItem st (hs ++ h :: hs') b s n = .ok s' ∧
      s'.out = s.out ++ '\n' :: (List.replicate indent.length ' ' ++ name ++ List.replicate gap.length ' ' ++ t) := by
  obtain ⟨c, r, rfl, hsp, hsc⟩ := hv
  have hgap : Gap gap := ⟨fun e => by rw [e] at hg2; simp at hg2, fun x hx => (hg x hx).elim .inl fun h => .inr (.inl h)⟩
  have hh := C116_hint_partial item pre indent nm gap (c :: r) hp hnl hl hi hsame hgap ⟨c, r, rfl, hsp⟩ he
  rw [if_neg (by simpa using hsc)] at hh
  have hne : name ≠ [] := by
    rintro rfl
    have h1 : nm = [] := List.eq_nil_of_length_eq_zero hlen.symm
    have h2 := hsame
    rw [h1] at h2
    have h3 : item = [] := by simpa [Same] using h2
    have h4 := hp.1
    rw [h3] at h4
    cases h4
  obtain ⟨s', h1, h2⟩ := write_at (s := { s with out := s.out ++ ('\n' :: (List.replicate indent.length ' ' ++ name)) ++ [' '], pos := indent.length + name.length + 1, tab := ((indent.length + nm.length + gap.length : Nat) : Int), last := some ' ' })
    (t := t) (col := indent.length + nm.length + gap.length) (by simp only; omega) (by simp only; omega)
  refine ⟨_, s', hh, ?_, ?_⟩
  · rw [printItem_to hf hn hb hc hwd hw hne h0 hroom]
    exact h1
  · rw [h2]
    have hg1 : List.replicate gap.length ' ' = ' ' :: List.replicate (indent.length + nm.length + gap.length - (indent.length + name.length + 1)) ' ' := by
      rw [← List.replicate_succ]
      congr 1
      omega
    rw [hg1]
    simp

/-- The hypotheses are met: an item is written at the columns of the template, with its delimiter. -/
example : letI := asciiFold
    ∃ h, itemHint "_cell.angle".toList sampleTemplate = some (.ok h) ∧ templateBlock.getItem "_cell.angle".toList = .ok (.str "a b".toList) ∧
      dget templateBlock.trueCase "_cell.angle".toList = some "_cell.angle".toList ∧ formatString .v20 "a b".toList (some ['\'']) = .ok "'a b'".toList ∧
      (printItem .v20 [h] templateBlock {} "_cell.angle".toList).toOption.map (·.out) = some "\n  _cell.angle      'a b'".toList := by
  exact ⟨{ dataname := "_cell.angle".toList, delimiter := some ['\''], column := 19, namePos := some 2 }, by decide +kernel⟩

/-- **C116** (fails) When there is only one blank between name and value in the template, the value is not written there: it goes to the next multiple of its column, for every
such template and value. -/
theorem C116_single_fails (st : Style) (hs hs' : List Hint) (b : Block) (s : Sink) (item n name t pre indent nm val : Str) (blank : Char) (v : PyVal)
    (hp : Plain item) (hnl : '\n' ∉ item) (hl : LineStart pre) (hi : Blank indent) (hsame : Same item nm) (hg : Blank [blank])
    (hv : ∃ c r, val = c :: r ∧ isSpace c = false ∧ c ≠ ';')
    (he : ∀ a b, pre = a ++ b → b ≠ [] → LineStart a → ¬Begins item (b ++ (indent ++ (nm ++ ([blank] ++ val)))))
    (hf : ∀ x ∈ hs, lower x.dataname ≠ lower n) (hn : lower item = lower n) (hb : b.getItem n = .ok v) (hc : dget b.trueCase n = some name)
    (hwd : (∃ x, v = .str x ∧ formatString st x (delimiterOf val) = .ok t) ∨ v = .num t) (hw : ∀ c ∈ name, isSpace c = false) (hlen : name.length = nm.length) (h0 : s.indent = 0)
    (hroom : indent.length + name.length + 1 + t.length ≤ s.width) :
    ∃ h s', itemHint item (pre ++ (indent ++ (nm ++ ([blank] ++ val)))) = some (.ok h) ∧ printItem st (hs ++ h :: hs') b s n = .ok s' ∧
      s'.out = s.out ++ '\n' :: (List.replicate indent.length ' ' ++ name ++ ' ' :: List.replicate (indent.length + name.length + 1) ' ' ++ t) := by
  obtain ⟨c, r, rfl, hsp, hsc⟩ := hv
  have hgap : Gap [blank] := ⟨by simp, fun x hx => (hg x hx).elim .inl fun h => .inr (.inl h)⟩
  have hh := C116_hint_partial item pre indent nm [blank] (c :: r) hp hnl hl hi hsame hgap ⟨c, r, rfl, hsp⟩ he
  rw [if_neg (by simpa using hsc)] at hh
  have hne : name ≠ [] := by
    rintro rfl
    have h1 : nm = [] := List.eq_nil_of_length_eq_zero hlen.symm
    have h2 := hsame
    rw [h1] at h2
    have h3 : item = [] := by simpa [Same] using h2
    have h4 := hp.1
    rw [h3] at h4
    cases h4
  have hcol : indent.length + nm.length + [blank].length = indent.length + name.length + 1 := by simp [hlen]
  rw [hcol] at hh
  obtain ⟨s', h1, h2⟩ := write_late (s := { s with out := s.out ++ ('\n' :: (List.replicate indent.length ' ' ++ name)) ++ [' '], pos := indent.length + name.length + 1, tab := ((indent.length + name.length + 1 : Nat) : Int), last := some ' ' })
    (t := t) (col := indent.length + name.length + 1) (by omega) rfl rfl (by simp only; omega)
  refine ⟨_, s', hh, ?_, ?_⟩
  · rw [printItem_to hf hn hb hc hwd hw hne h0 hroom]
    exact h1
  · rw [h2]
    simp

/-- The hypotheses are met. -/
example : letI := asciiFold
    ∃ h, itemHint "_cell.id".toList "data_t\n_cell.id x\n".toList = some (.ok h) ∧
      (printItem .v20 [h] templateBlock {} "_cell.id".toList).toOption.map (·.out) = some "\n_cell.id          y".toList := by
  exact ⟨{ dataname := "_cell.id".toList, column := 9, namePos := some 0 }, by decide +kernel⟩

/-- **C116** The delimiter of the template is used for every value that can be written with it: quotes for text on one line without that quote that is not too long, triple quotes in
any case, and text fields in any case. -/
theorem C116_delimiter (st : Style) (s : Str) (q : Char) (r : Str) (hq : q = '\'' ∨ q = '"') :
    (some [q] ∈ st.delims → r.head? ≠ some q → q ∉ s → '\n' ∉ s → (s.length : Int) ≤ st.maxOut - 2 → formatString st s (delimiterOf (q :: r)) = .ok ([q] ++ s ++ [q])) ∧
    (some [q, q, q] ∈ st.delims → formatString st s (delimiterOf (q :: q :: q :: r)) = .ok ([q, q, q] ++ s ++ [q, q, q])) ∧
    (some ['\n', ';'] ∈ st.delims → ∀ t, formatString st s (delimiterOf (';' :: r)) = .ok t → ∃ u, t = ['\n', ';'] ++ u ++ ['\n', ';']) := by
  refine ⟨fun hd hr hns hnl hlen => ?_, fun hd => ?_, fun hd t ht => ?_⟩
  · have hov : oversize st s = false := by
      simp only [oversize, Bool.or_eq_false_iff, decide_eq_false_iff_not]
      exact ⟨by omega, hnl⟩
    have htake : (q :: r).take 3 ≠ [q, q, q] := by
      cases r with
      | nil => simp
      | cons c r =>
        intro h
        cases r with
        | nil => simp at h
        | cons d r =>
          simp at h hr
          exact hr h.1
    have hdel : delimiterOf (q :: r) = some [q] := by
      rcases hq with rfl | rfl
      · have h2 : ('\'' :: r).take 3 ≠ tripleS := htake
        have h1 : ('\'' :: r).take 3 ≠ tripleD := by
          intro h
          have := congrArg List.head? h
          simp [tripleD] at this
        simp only [delimiterOf, if_neg h1, if_neg h2]
        simp
      · have h2 : ('"' :: r).take 3 ≠ tripleD := htake
        have h1 : ('"' :: r).take 3 ≠ tripleS := by
          intro h
          have := congrArg List.head? h
          simp [tripleS] at this
        simp only [delimiterOf, if_neg h1, if_neg h2]
        simp
    rw [hdel]
    have hal : allowed st s (some [q]) = true := by
      rcases hq with rfl | rfl
      · simp [allowed, hd, hov, hns]
      · simp [allowed, hd, hov, hns]
    simp only [formatString, choose, hal, if_true]
    rcases hq with rfl | rfl <;> simp
  · rcases hq with rfl | rfl
    · have hdel : delimiterOf ('\'' :: '\'' :: '\'' :: r) = some tripleS := by
        have h1 : ('\'' :: '\'' :: '\'' :: r).take 3 = tripleS := rfl
        have h2 : tripleS ≠ tripleD := by decide
        simp only [delimiterOf, h1, if_neg h2]
        simp
      have hal : allowed st s (some tripleS) = true := by
        have : some tripleS ∈ st.delims := hd
        simp [allowed, this, show tripleS ≠ ['\''] by decide, show tripleS ≠ ['"'] by decide]
      rw [hdel]
      simp only [formatString, choose, hal, if_true]
      simp [tripleS]
    · have hdel : delimiterOf ('"' :: '"' :: '"' :: r) = some tripleD := by
        have h1 : ('"' :: '"' :: '"' :: r).take 3 = tripleD := rfl
        simp only [delimiterOf, h1]
        simp
      have hal : allowed st s (some tripleD) = true := by
        have : some tripleD ∈ st.delims := hd
        simp [allowed, this, show tripleD ≠ ['\''] by decide, show tripleD ≠ ['"'] by decide]
      rw [hdel]
      simp only [formatString, choose, hal, if_true]
      simp [tripleD]
  · have hdel : delimiterOf (';' :: r) = some semiDelim := rfl
    have hal : allowed st s (some semiDelim) = true := by
      have : some semiDelim ∈ st.delims := hd
      simp [allowed, this, show semiDelim ≠ ['\''] by decide, show semiDelim ≠ ['"'] by decide]
    rw [hdel] at ht
    have hn : ¬(semiDelim = ['"'] ∨ semiDelim = ['\''] ∨ semiDelim = tripleD ∨ semiDelim = tripleS) := by decide
    simp only [formatString, choose, hal, if_true, if_neg hn, textField] at ht
    split at ht
    · cases ht
    · rename_i u _
      cases ht
      exact ⟨u, rfl⟩

/-- The hypotheses are met. -/
example : letI := asciiFold
    formatString .v20 "plain".toList (delimiterOf "\"x\"".toList) = .ok "\"plain\"".toList ∧
    formatString .v20 "a\nb".toList (delimiterOf "\"\"\"x".toList) = .ok "\"\"\"a\nb\"\"\"".toList := by decide +kernel

end Laws

/-- **C116** (fails) A dot in a name stands for any character: the hints for `_a.b` are those of an earlier line with `_aXb`. -/
theorem C116_dot_fails : itemHint "_a.b".toList "data_t\n   _aXb 1\n_a.b      2\n".toList = some (.ok { dataname := "_a.b".toList, column := 8, namePos := some 3 }) := by decide +kernel

/-- **C116** (fails) A name with an index in brackets, as is usual in dictionaries, is not found in a template that has it: there is an error for all names and indices, unless some
line begins with the name and one of the characters of the index, without brackets. -/
theorem C116_bracket_fails (stem index text : Str) (hp : Plain stem) (hi : index ≠ []) (hc : ∀ c ∈ index, c ∉ ['-', '^', '\\', '[', ']'])
    (he : ∀ a b, text = a ++ b → LineStart a → ¬BeginsOneOf stem index b) : itemHint (stem ++ '[' :: (index ++ [']'])) text = some (.error .attribute) := by
  have hpieces : pieces none (stem ++ '[' :: (index ++ [']'])) = some (stem.map plainPiece ++ [.oneOf index]) := by
    rw [pieces_append stem _ hp.2, pieces, if_neg (by decide), if_neg (by decide), if_pos rfl, pieces_class [] index [] hc (by simpa using hi)]
    simp [pieces]
  have hsearch : search (stem.map plainPiece ++ [.oneOf index]) true text = none := by
    refine search_none _ text true (fun _ => ?_) (fun a b hab _ hl => ?_)
    · cases hx : matchAt (stem.map plainPiece ++ [.oneOf index]) text with
      | none => rfl
      | some m => exact absurd (matchAt_oneOf hx) (he [] text rfl (.inl rfl))
    · cases hx : matchAt (stem.map plainPiece ++ [.oneOf index]) b with
      | none => rfl
      | some m => exact absurd (matchAt_oneOf hx) (he a b hab (.inr hl))
  simp only [itemHint, hpieces, Option.map_some, hsearch]

/-- The case occurs: the name is there. -/
example : itemHint "_tensor.u[1]".toList "data_t\n_tensor.u[1]      2\n".toList = some (.error .attribute) := by decide +kernel

/-- **C116** (fails) A value on the line after its name is given the column after the end of that line, although it stands at column 2. -/
theorem C116_nextline_fails : itemHint "_title".toList "data_t\n_title\n  'x'\n".toList =
    some (.ok { dataname := "_title".toList, delimiter := some ['\''], column := 9, namePos := some 0 }) := by decide +kernel

/-- **C116** (fails) A line of an earlier text field that begins with the name is taken for the item. -/
theorem C116_text_fails : itemHint "_title".toList "data_t\n_note\n;\n    _title is missing\n;\n_title      'x'\n".toList =
    some (.ok { dataname := "_title".toList, column := 11, namePos := some 4 }) := by decide +kernel

/-- **C116** (fails) A comment between name and value is taken for the value: neither column nor delimiter are those of the value. -/
theorem C116_comment_fails : itemHint "_title".toList "data_t\n_title   # a title\n  'x'\n".toList =
    some (.ok { dataname := "_title".toList, column := 9, namePos := some 0 }) := by decide +kernel

end Template
end Verif
