import Verif.Lemmas.ReadStar
import Verif.Lemmas.Dict
/-! # C12, C13: treatment of the text of a file and choice of the grammar -/
namespace Verif.ReadStar

section samples
/-- A small file. -/
def sampleText : Str := "data_a\n_x 1\n_long_line_of_text 2\n".toList
def emptyBlock : Block := { overwrite := false }
def start : Coll := {}
/-- The first block of a CIF 2.0 file parses by its own grammar, the second only by CIF 1.1. -/
def mixedText : Str := "#\\#CIF_2.0\ndata_a\n_x 1\ndata_b\n_y x[1]\n".toList
end samples

set_option linter.unusedSectionVars false
variable [CaseFold]

/-- **C12** Text after the first control-Z is ignored. -/
theorem C12_ctrlZ (parse : GName → Parse) (prepared : Coll) (req : Option Str) (maxlength : Int) (a b : Str) (ha : a ≠ [])
    (hz : '\x1a' ∉ a) :
    readStar parse prepared (a ++ '\x1a' :: b) req maxlength = readStar parse prepared a req maxlength := by
  unfold readStar
  cases tryList req with
  | error e => rfl
  | ok l =>
    simp only [List.append_eq_nil_iff, reduceCtorEq, and_false, if_false, ha, cutCtrlZ_eq a b hz, cutCtrlZ_self a hz,
      Bool.false_eq_true]

example : sampleText ≠ [] ∧ '\x1a' ∉ sampleText := by decide +kernel

/-- **C12** With CBF set, every binary section is replaced by a remark and all that is outside the sections is kept: the
outcome is that of reading the kept text. -/
theorem C12_binary (parse : GName → Parse) (prepared : Coll) (req : Option Str) (maxlength : Int) (first : Str)
    (sections : List (Str × Str)) (last : Option Str) (h : CleanParts first sections last) (hn : cbfKept first sections ≠ []) :
    readStar parse prepared (cbfText first sections last) req maxlength true =
      readStar parse prepared (cbfKept first sections) req maxlength := by
  have hne : cbfText first sections last ≠ [] := by
    intro e
    apply hn
    rw [← cutBinary_eq first sections last h, e]
    rfl
  unfold readStar
  cases tryList req with
  | error e => rfl
  | ok l => simp only [hne, hn, if_false, cutBinary_eq first sections last h, if_true, Bool.false_eq_true]

/-- **C12** With CBF set a text without markers is read as it stands. -/
theorem C12_no_binary (parse : GName → Parse) (prepared : Coll) (req : Option Str) (maxlength : Int) (text : Str)
    (h : ¬ Occurs marker text) :
    readStar parse prepared text req maxlength true = readStar parse prepared text req maxlength := by
  by_cases ht : text = []
  · subst ht
    unfold readStar
    cases tryList req <;> rfl
  · have := C12_binary parse prepared req maxlength text [] none h (by simpa [cbfKept] using ht)
    simpa [cbfText, cbfKept] using this

theorem clean_of_no_dash {s : Str} (h : '-' ∉ s) : Clean s := by
  intro k hk hp
  obtain ⟨c, r, e⟩ : ∃ c r, s.drop k = c :: r := by
    cases hc : s.drop k with
    | nil => simp at hc; omega
    | cons c r => exact ⟨c, r, rfl⟩
  rw [e] at hp
  obtain ⟨t, ht⟩ := hp
  have hm : marker = '-' :: marker.tail := by decide +kernel
  rw [hm] at ht
  simp only [List.cons_append, List.cons.injEq] at ht
  exact h (ht.1 ▸ List.mem_of_mem_drop (e ▸ List.mem_cons_self))

theorem noOccurs_of_no_dash {s : Str} (h : '-' ∉ s) : ¬ Occurs marker s := by
  rintro ⟨a, b, e⟩
  apply h
  rw [e]
  have : '-' ∈ marker := by decide +kernel
  simp [this]

example : CleanParts "data_a _x\n;".toList [("abc".toList, "\n;\n_y 2".toList), ([], "text".toList)] (some "de".toList) :=
  ⟨clean_of_no_dash (by decide +kernel), clean_of_no_dash (by decide +kernel), clean_of_no_dash (by decide +kernel),
    clean_of_no_dash (by decide +kernel), clean_of_no_dash (by decide +kernel), noOccurs_of_no_dash (by decide +kernel)⟩

/-- **C12** A line longer than the limit is reported with the number of the first such line, and nothing is stored. -/
theorem C12_length (parse : GName → Parse) (prepared : Coll) (req : Option Str) (l : List GName) (hreq : tryList req = .ok l)
    (m : Nat) (hm : 0 < m) (pre post : List Str) (bad : Str) (hl : ∀ x ∈ pre ++ bad :: post, '\n' ∉ x ∧ '\x1a' ∉ x)
    (hp : ∀ x ∈ pre, x.length ≤ m) (hb : m < bad.length) :
    readStar parse prepared (joinNl (pre ++ bad :: post)) req m = (prepared, .error (.tooLong (pre.length + 1) m)) := by
  have hc := lengthCheck_first m hm (pre ++ bad :: post) (fun x hx => (hl x hx).1) pre post bad rfl hp hb
  have hz : ∀ ls : List Str, (∀ x ∈ ls, '\x1a' ∉ x) → '\x1a' ∉ joinNl ls := by
    intro ls
    induction ls with
    | nil => simp [joinNl]
    | cons x xs ih =>
      intro h
      cases xs with
      | nil => simpa [joinNl] using h
      | cons y ys =>
        simp only [joinNl, List.mem_append, List.mem_cons, not_or]
        exact ⟨h x (by simp), by decide, ih fun z hz => h z (by simp [hz])⟩
  have hne : joinNl (pre ++ bad :: post) ≠ [] := by
    intro e
    rw [e] at hc
    unfold lengthCheck at hc
    have : splitNl [] = [[]] := rfl
    rw [this] at hc
    simp only [List.filter] at hc
    split at hc
    · rw [decide_eq_false (by simp)] at hc
      simp at hc
    · simp at hc
  unfold readStar
  rw [hreq]
  simp only [hne, if_false, Bool.false_eq_true, cutCtrlZ_self _ (hz _ fun x hx => (hl x hx).2), hc]

example : tryList none = .ok [.v20, .v11, .v10] ∧ (∀ x ∈ ["data_a".toList] ++ "_x    12345".toList :: ["".toList], '\n' ∉ x ∧ '\x1a' ∉ x) ∧
    (∀ x ∈ ["data_a".toList], x.length ≤ 8) ∧ 8 < "_x    12345".toList.length := by
  refine ⟨rfl, ?_, ?_, ?_⟩ <;> decide +kernel

/-- **C12** If no line is too long, the limit makes no difference. -/
theorem C12_length_ok (parse : GName → Parse) (prepared : Coll) (req : Option Str) (m : Int) (lines : List Str) (cbf : Bool)
    (hn : lines ≠ []) (hl : ∀ x ∈ lines, '\n' ∉ x) (h : ∀ x ∈ lines, (x.length : Int) ≤ m) (hz : '\x1a' ∉ joinNl lines)
    (hc : cbf = true → ¬ Occurs marker (joinNl lines)) :
    readStar parse prepared (joinNl lines) req m cbf = readStar parse prepared (joinNl lines) req := by
  have h1 := lengthCheck_ok m lines hn hl (fun _ => h)
  have h2 := lengthCheck_ok (-1) lines hn hl (by omega)
  have hcb : readStar parse prepared (joinNl lines) req m cbf = readStar parse prepared (joinNl lines) req m := by
    cases cbf with
    | false => rfl
    | true => exact C12_no_binary parse prepared req m _ (hc rfl)
  rw [hcb]
  unfold readStar
  cases tryList req with
  | error e => rfl
  | ok l => simp only [Bool.false_eq_true, if_false, cutCtrlZ_self _ hz, h1, h2]

example : (∀ x ∈ ["data_a".toList, "_x 1".toList], '\n' ∉ x) ∧ (∀ x ∈ ["data_a".toList, "_x 1".toList], (x.length : Int) ≤ 80) := by
  decide +kernel

/-! ## C13 -/

theorem honourHeader_no2 {text : Str} (h : ¬ header2 <+: text) {l l' : List GName} (hd : l.Nodup) (e : honourHeader text l = .ok l') :
    .v20 ∉ l' := by
  have ht : text.take 10 ≠ header2 := fun e => h (e ▸ List.take_prefix _ _)
  unfold honourHeader at e
  split at e
  · split at e
    · cases e
    · simp only [Except.ok.injEq] at e
      subst e
      rw [mem_pyErase hd]
      simp
  · rename_i hc
    simp only [Except.ok.injEq] at e
    subst e
    intro hm
    exact hc ⟨ht, hm⟩

theorem tryList_nodup {req : Option Str} {l : List GName} (h : tryList req = .ok l) : l.Nodup := by
  unfold tryList at h
  repeat' split at h
  all_goals first | (simp only [Except.ok.injEq] at h; subst h; decide) | cases h

/-- **C13** Without the CIF 2.0 header at the beginning of the text the CIF 2.0 parser is not used, whatever is requested: a
reader with another CIF 2.0 parser gives the same result. -/
theorem C13_header (parse parse' : GName → Parse) (hp : ∀ g, g ≠ .v20 → parse g = parse' g) (prepared : Coll) (text : Str)
    (h : ¬ header2 <+: text) (hz : '\x1a' ∉ text) (req : Option Str) (maxlength : Int) :
    readStar parse prepared text req maxlength = readStar parse' prepared text req maxlength := by
  unfold readStar
  cases hl : tryList req with
  | error e => rfl
  | ok l =>
    by_cases ht : text = []
    · simp [ht]
    · simp only [ht, if_false, Bool.false_eq_true, cutCtrlZ_self _ hz]
      cases lengthCheck maxlength text with
      | error e => rfl
      | ok u =>
        cases hh : honourHeader text l with
        | error e => rfl
        | ok l' =>
          simp only
          rw [tryAll_congr text l' prepared]
          intro g hg c
          rw [hp g]
          rintro rfl
          exact honourHeader_no2 h (tryList_nodup hl) hh hg

example : ¬ header2 <+: sampleText ∧ '\x1a' ∉ sampleText := by decide +kernel

/-- **C13** A request for CIF 2.0 without that header is an error and nothing is stored. -/
theorem C13_request (parse : GName → Parse) (prepared : Coll) (text : Str) (hne : text ≠ []) (h : ¬ header2 <+: text)
    (hz : '\x1a' ∉ text) : readStar parse prepared text (some "2.0".toList) = (prepared, .error (.py .star)) := by
  have hl : tryList (some "2.0".toList) = .ok [.v20] := by decide +kernel
  have ht : text.take 10 ≠ header2 := fun e => h (e ▸ List.take_prefix _ _)
  have hh : honourHeader text [.v20] = .error (.py .star) := by
    unfold honourHeader
    rw [if_pos ⟨ht, by simp⟩]
    rfl
  have hc : lengthCheck (-1) text = .ok () := by
    unfold lengthCheck
    rw [if_neg (by omega)]
  unfold readStar
  simp only [hl, hne, if_false, Bool.false_eq_true, cutCtrlZ_self _ hz, hc, hh]

/-- The grammars that automatic detection may use for a text, in order. -/
def candidates (text : Str) : List GName := if header2 <+: text then [.v20, .v11, .v10] else [.v11, .v10]

/-- CIF 2.0 and STAR2 blocks use the whole of Unicode. -/
def usesUnicode (g : GName) : Bool := g == .v20 || g == .star2

theorem setCharacterset_twice (c : Coll) (u v : Bool) : setCharacterset (setCharacterset c u) v = setCharacterset c v := by
  unfold setCharacterset
  simp only [List.map_map]
  congr 1
  apply List.map_congr_left
  intro p _
  simp only [Function.comp]
  have hk : ({ c with unicode := u, dict := c.dict.map fun p => if p.1 ∈ c.lowerKeys then (p.1, { p.2 with unicode := u }) else p } : Coll).lowerKeys
    = c.lowerKeys := rfl
  by_cases h : p.1 ∈ c.lowerKeys <;> simp [h]

theorem tryAll_first {parse : GName → Parse} {text : Str} {g : GName} {after : List GName} {c : Coll} {prepared : Coll}
    (hres : parse g (setCharacterset prepared (usesUnicode g)) text = (c, .ok ())) : ∀ (before : List GName) (p : Coll),
    (∀ g' ∈ before, ∀ c, ∃ e, caught e = true ∧ parse g' c text = (c, .error e)) →
    (∀ u, setCharacterset p u = setCharacterset prepared u) → tryAll parse text p (before ++ g :: after) = (c, .ok g)
  | [], p, _, hp => by
    have hu : decide (g = .v20 ∨ g = .star2) = usesUnicode g := by cases g <;> rfl
    rw [List.nil_append, tryAll, hu, hp, hres]
  | b :: before, p, hf, hp => by
    obtain ⟨e, he, hb⟩ := hf b (by simp) (setCharacterset p (decide (b = .v20 ∨ b = .star2)))
    rw [List.cons_append, tryAll, hb]
    simp only
    rw [if_pos he]
    exact tryAll_first hres before _ (fun g' hg => hf g' (by simp [hg])) (fun u => by rw [setCharacterset_twice, hp])

theorem honourHeader_auto (text : Str) : honourHeader text [.v20, .v11, .v10] = .ok (candidates text) := by
  have : text.take 10 = header2 ↔ header2 <+: text := by
    constructor
    · exact fun e => e ▸ List.take_prefix _ _
    · intro h
      have := List.prefix_iff_eq_take.1 h
      exact this.symm
  unfold honourHeader candidates
  by_cases h : header2 <+: text
  · rw [if_pos h, if_neg]
    exact fun e => e.1 (this.2 h)
  · rw [if_neg h, if_pos ⟨fun e => h (this.1 e), by simp⟩]
    rfl

theorem readStar_auto (parse : GName → Parse) (prepared : Coll) (text : Str) (hne : text ≠ []) (hz : '\x1a' ∉ text)
    (req : Option Str) (hreq : req = none ∨ req = some "auto".toList) :
    readStar parse prepared text req =
      match tryAll parse text prepared (candidates text) with
      | (c, .error e) => (c, .error e)
      | (c, .ok g) => ((c.setScoping .dictionary).setScoping prepared.scoping, .ok (some g)) := by
  have hl : tryList req = .ok [.v20, .v11, .v10] := by
    rcases hreq with rfl | rfl
    · rfl
    · decide +kernel
  have hc : lengthCheck (-1) text = .ok () := by
    unfold lengthCheck
    rw [if_neg (by omega)]
  unfold readStar
  simp only [hl, hne, if_false, Bool.false_eq_true, cutCtrlZ_self _ hz, hc, honourHeader_auto]
  rcases tryAll parse text prepared (candidates text) with ⟨c, _ | g⟩ <;> rfl

/-- **C13** (partial) Automatic detection returns the result of the first grammar that parses the text, provided that a failed
attempt leaves the collection as it was. Missing: failed attempts of the parsers in the code leave blocks behind
(`C13_fails`). -/
theorem C13_auto_partial (parse : GName → Parse) (prepared : Coll) (text : Str) (hne : text ≠ []) (hz : '\x1a' ∉ text)
    (before after : List GName) (g : GName) (hg : candidates text = before ++ g :: after)
    (hfail : ∀ g' ∈ before, ∀ c, ∃ e, caught e = true ∧ parse g' c text = (c, .error e)) (c : Coll)
    (hres : parse g (setCharacterset prepared (usesUnicode g)) text = (c, .ok ())) (req : Option Str)
    (hreq : req = none ∨ req = some "auto".toList) :
    readStar parse prepared text req = ((c.setScoping .dictionary).setScoping prepared.scoping, .ok (some g)) := by
  rw [readStar_auto parse prepared text hne hz req hreq, hg, tryAll_first hres before prepared hfail (fun _ => rfl)]

/-- **C13** If no grammar parses the text the outcome is an error. -/
theorem C13_none (parse : GName → Parse) (prepared : Coll) (text : Str) (hne : text ≠ []) (hz : '\x1a' ∉ text)
    (hfail : ∀ g ∈ candidates text, ∀ c, ∃ c' e, parse g c text = (c', .error e)) (req : Option Str)
    (hreq : req = none ∨ req = some "auto".toList) : ∃ e, (readStar parse prepared text req).2 = .error e := by
  have key : ∀ (l : List GName) (p : Coll), (∀ g ∈ l, ∀ c, ∃ c' e, parse g c text = (c', .error e)) →
      ∃ c e, tryAll parse text p l = (c, .error e) := by
    intro l
    induction l with
    | nil => exact fun p _ => ⟨_, _, rfl⟩
    | cons g r ih =>
      intro p h
      obtain ⟨c', e, hb⟩ := h g (by simp) (setCharacterset p (decide (g = .v20 ∨ g = .star2)))
      rw [tryAll, hb]
      simp only
      split
      · exact ih c' fun g' hg => h g' (by simp [hg])
      · exact ⟨_, _, rfl⟩
  obtain ⟨c, e, h⟩ := key _ prepared hfail
  rw [readStar_auto parse prepared text hne hz req hreq, h]
  exact ⟨e, rfl⟩

section witness
/-- Parsers that accept any text under CIF 1.1 only. -/
def onlyV11 : GName → Parse := fun g c _ => if g = .v11 then (c, .ok ()) else (c, .error .syntax)

example : candidates mixedText = [.v20] ++ .v11 :: [.v10] ∧ (∀ g' ∈ [GName.v20], ∀ c, ∃ e, caught e = true ∧ onlyV11 g' c mixedText = (c, .error e)) ∧
    onlyV11 .v11 (setCharacterset start (usesUnicode .v11)) mixedText = (setCharacterset start false, .ok ()) := by
  refine ⟨by decide +kernel, ?_, rfl⟩
  intro g' hg c
  simp only [List.mem_singleton] at hg
  subst hg
  exact ⟨.syntax, rfl, rfl⟩

/-- The parser for CIF 2.0 fails on `mixedText`, that for CIF 1.1 accepts it; but automatic detection fails because the first
attempt has left a block behind. -/
theorem C13_fails : letI := asciiFold
    candidates mixedText = [.v20, .v11, .v10] ∧
    (parsers emptyBlock .v20 start mixedText).2 = .error .syntax ∧ (parsers emptyBlock .v11 start mixedText).2 = .ok () ∧
    (readStar (parsers emptyBlock) start mixedText (some "1.1".toList)).2 = .ok (some .v11) ∧
    (readStar (parsers emptyBlock) start mixedText none).2 = .error (.py .star) := by
  decide +kernel
end witness
end Verif.ReadStar
