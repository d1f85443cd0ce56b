import Verif.Lemmas.Decode
import Verif.Props.ReadEnds
import Verif.Props.FrameFileCases
/-! # Reading a file from its bytes: C86, C87, C88 -/
set_option linter.unusedSectionVars false

namespace Verif.Decode
open ReadEnds

theorem utf8sig_encode {t : Str} (h : ¬ [bomChar] <+: t) : utf8sig (utf8 t) = some t := by
  rw [sig_plain (by rwa [bom_prefix]), decodeN_encode t _ (Nat.le_refl _)]

theorem utf8sig_bom (t : Str) : utf8sig (bom ++ utf8 t) = some t := by
  rw [sig_bom, decodeN_encode t _ (Nat.le_refl _)]

theorem utf8sig_sound {bs : Bytes} {t : Str} (h : utf8sig bs = some t) : bs = utf8 t ∨ bs = bom ++ utf8 t := by
  by_cases hb : bom <+: bs
  · obtain ⟨r, rfl⟩ := hb
    rw [sig_bom] at h
    rw [decodeN_sound _ _ _ h]
    exact .inr rfl
  · rw [sig_plain hb] at h
    exact .inl (decodeN_sound _ _ _ h)

theorem utf8_append (a b : Str) : utf8 (a ++ b) = utf8 a ++ utf8 b := by simp [utf8]

theorem utf8sig_none {bs : Bytes} (h : ∀ t, bs ≠ utf8 t) : utf8sig bs = none := by
  cases hs : utf8sig bs with
  | none => rfl
  | some t =>
    rcases utf8sig_sound hs with e | e
    · exact absurd e (h t)
    · refine absurd ?_ (h ([bomChar] ++ t))
      rw [e, utf8_append, utf8_bom]

theorem readStar_unknown [CaseFold] {parse : GName → ReadStar.Parse} {prepared : Coll} {text : Str} {req : Option Str} {e : ReadErr}
    (h : ReadStar.tryList req = .error e) (maxlength : Int) (cbf : Bool) :
    ReadStar.readStar parse prepared text req maxlength cbf = (prepared, .error e) := by
  rw [ReadStar.readStar, h]

theorem readSource_of [CaseFold] {src : Source} {permissive : Bool} {text : Str} (h : fetch permissive src = .ok text) (blocktype : Block)
    (prepared : Coll) (req : Option Str) (maxlength : Int) (cbf : Bool) :
    readSource blocktype prepared src req maxlength cbf permissive =
      ReadStar.readStar (ReadStar.parsers blocktype) prepared text req maxlength cbf := by
  rw [readSource, h]
  cases ht : ReadStar.tryList req with
  | error e => rw [readStar_unknown ht]
  | ok l => rfl

section
variable [CaseFold]

/-- C86. A text that does not begin with a byte order mark, saved as UTF-8 without one, is read from the file, from a stream of bytes and
from a stream of text in the same way. -/
theorem C86_plain (blocktype : Block) (prepared : Coll) (t : Str) (ht : ¬ [bomChar] <+: t) (req : Option Str) (maxlength : Int)
    (cbf permissive : Bool) :
    readSource blocktype prepared (.url (utf8 t)) req maxlength cbf permissive =
        ReadStar.readStar (ReadStar.parsers blocktype) prepared t req maxlength cbf ∧
      readSource blocktype prepared (.bytes (utf8 t)) req maxlength cbf permissive =
        ReadStar.readStar (ReadStar.parsers blocktype) prepared t req maxlength cbf ∧
      readSource blocktype prepared (.text t) req maxlength cbf permissive =
        ReadStar.readStar (ReadStar.parsers blocktype) prepared t req maxlength cbf := by
  have h : fetchBytes permissive (utf8 t) = .ok t := by simp only [fetchBytes, readAll]; rw [utf8sig_encode ht]
  exact ⟨readSource_of (src := .url _) h .., readSource_of (src := .bytes _) h .., readSource_of (src := .text t) rfl ..⟩

/-- C86. The same for any text that is saved with a byte order mark in front of it. -/
theorem C86_bom (blocktype : Block) (prepared : Coll) (t : Str) (req : Option Str) (maxlength : Int) (cbf permissive : Bool) :
    readSource blocktype prepared (.url (bom ++ utf8 t)) req maxlength cbf permissive =
        ReadStar.readStar (ReadStar.parsers blocktype) prepared t req maxlength cbf ∧
      readSource blocktype prepared (.bytes (bom ++ utf8 t)) req maxlength cbf permissive =
        ReadStar.readStar (ReadStar.parsers blocktype) prepared t req maxlength cbf := by
  have h : fetchBytes permissive (bom ++ utf8 t) = .ok t := by simp only [fetchBytes, readAll]; rw [utf8sig_bom]
  exact ⟨readSource_of (src := .url _) h .., readSource_of (src := .bytes _) h ..⟩

/-- C86. Bytes that are not the UTF-8 encoding of any text are refused with `StarError`, and the collection is left as it was. -/
theorem C86_refused (blocktype : Block) (prepared : Coll) (bs : Bytes) (hb : ∀ t, bs ≠ utf8 t) {req : Option Str} (hr : KnownGrammar req)
    (maxlength : Int) (cbf : Bool) :
    readSource blocktype prepared (.url bs) req maxlength cbf = (prepared, .error (.py .star)) ∧
      readSource blocktype prepared (.bytes bs) req maxlength cbf = (prepared, .error (.py .star)) := by
  have h : fetchBytes false bs = .error (.py .star) := by
    simp only [fetchBytes, readAll]
    rw [utf8sig_none hb]
    rfl
  cases ht : ReadStar.tryList req with
  | error e => exact absurd ht (tryList_known hr)
  | ok l => exact ⟨by rw [readSource, ht]; simp only [fetch, h], by rw [readSource, ht]; simp only [fetch, h]⟩

/-- C86 with C74. A collection of data blocks and save frames that is written, saved as UTF-8 with or without a byte order mark and read
by `ReadCif` is returned with the same blocks, frames, names and values. -/
theorem C86_saved (c : Coll) (hc : Coll.Reachable c) (hne : c.lowerKeys ≠ []) (maxOut : Int) (std : Option Str)
    (hname : ∀ k ∈ c.lowerKeys, RoundTrip.WritableHeading (Coll.printedName c k) ∧ lower (Coll.printedName c k) = k)
    (hb : ∀ k b, c.getItem k = .ok b → Block.Reachable b ∧ RoundTrip.WritableBlock (Style.v11 maxOut) b ∧
      (Coll.parentOf c (lower k) = none → RoundTrip.FitsStandard std b))
    (hints : List Hint) (hh : RoundTrip.UsableHints hints) (header : Str) (hhead : RoundTrip.IsHeader (header ++ ['\n'])) (hempty : header ≠ [])
    (hz : ∀ text, WriteText.writeOut (Style.v11 maxOut) hints header c = .ok text → '\x1a' ∉ text) (bt : Block) (hbt : Block.Fresh bt)
    (hlock : bt.overwrite = false) (hmax : bt.maxName = none) (s : Scoping) (req : Option Str) (hreq : RoundTrip.Asks11 req header)
    (mark : Bool) :
    ∃ text c', WriteText.writeOut (Style.v11 maxOut) hints header c = .ok text ∧
      readCif bt { standard := std, scoping := s } (.url ((if mark then bom else []) ++ utf8 text)) req = .ok (some (c', .v11)) ∧
      RoundTrip.Restored (RoundTrip.ReadInOrder11 hints) c s c' := by
  obtain ⟨text, c', h1, h2, h3⟩ := RoundTrip.C74_file c hc hne maxOut std hname hb hints hh header hhead hz bt hbt hlock hmax s req hreq
  refine ⟨text, c', h1, ?_, h3⟩
  have hfirst : ¬ [bomChar] <+: text := by
    rintro ⟨r, hr⟩
    have htext : ∃ u, text = header ++ u := by
      rw [WriteText.writeOut] at h1
      split at h1
      · cases h1
      · split at h1
        · cases h1
        · cases h1; exact ⟨_, rfl⟩
    obtain ⟨u, rfl⟩ := htext
    cases header with
    | nil => exact hempty rfl
    | cons x header =>
      simp only [List.cons_append, List.cons.injEq] at hr
      obtain ⟨lines, hl, hx⟩ := hhead
      cases lines with
      | nil => cases hl
      | cons l ls =>
        rcases (hx l (by simp)).2 with rfl | h
        · simp only [List.cons_append, List.flatMap_cons, List.nil_append, List.cons.injEq] at hl
          exact absurd (hr.1.trans hl.1) (by decide)
        · cases l with
          | nil => cases h
          | cons y l =>
            simp only [List.head?_cons, Option.some.injEq] at h
            simp only [List.cons_append, List.flatMap_cons, List.cons.injEq] at hl
            exact absurd ((hr.1.trans hl.1).trans h) (by decide)
  have key : readSource bt { standard := std, scoping := s } (.url ((if mark then bom else []) ++ utf8 text)) req (-1) false false =
      (c', .ok (some .v11)) := by
    cases mark with
    | true => rw [if_pos rfl, (C86_bom ..).1]; exact h2
    | false => rw [if_neg (by decide), List.nil_append, (C86_plain _ _ _ hfirst ..).1]; exact h2
  rw [readCif, key]

/-- C87, in part: on files in UTF-8 permissive mode makes no difference. Missing: that with it a file in Latin-1 is read, which is false
(`C87_fails`). -/
theorem C87_partial (blocktype : Block) (prepared : Coll) (t : Str) (mark : Bool) (req : Option Str) (maxlength : Int) (cbf : Bool) :
    readSource blocktype prepared (.url ((if mark then bom else []) ++ utf8 t)) req maxlength cbf true =
        readSource blocktype prepared (.url ((if mark then bom else []) ++ utf8 t)) req maxlength cbf false ∧
      readSource blocktype prepared (.bytes ((if mark then bom else []) ++ utf8 t)) req maxlength cbf true =
        readSource blocktype prepared (.bytes ((if mark then bom else []) ++ utf8 t)) req maxlength cbf false := by
  have h : ∃ u, ∀ p, fetchBytes p ((if mark then bom else []) ++ utf8 t) = .ok u := by
    cases mark with
    | true =>
      refine ⟨t, fun p => ?_⟩
      simp only [fetchBytes, readAll, if_pos]
      rw [utf8sig_bom]
    | false =>
      rw [if_neg (by decide), List.nil_append]
      by_cases ht : [bomChar] <+: t
      · obtain ⟨s, rfl⟩ := ht
        refine ⟨s, fun p => ?_⟩
        simp only [fetchBytes, readAll]
        rw [utf8_append, utf8_bom, utf8sig_bom]
      · refine ⟨t, fun p => ?_⟩
        simp only [fetchBytes, readAll]
        rw [utf8sig_encode ht]
  obtain ⟨u, hu⟩ := h
  exact ⟨by rw [readSource_of (src := .url _) (hu true), readSource_of (src := .url _) (hu false)],
    by rw [readSource_of (src := .bytes _) (hu true), readSource_of (src := .bytes _) (hu false)]⟩

/-- C87 fails for every file that is not in UTF-8: in permissive mode nothing of it is read, no error is raised, and `None` is returned. -/
theorem C87_nothing_fails (blocktype : Block) (prepared : Coll) (bs : Bytes) (hb : ∀ t, bs ≠ utf8 t) {req : Option Str} (hr : KnownGrammar req)
    (maxlength : Int) (cbf : Bool) :
    readSource blocktype prepared (.url bs) req maxlength cbf true = (prepared, .ok none) ∧
      readSource blocktype prepared (.bytes bs) req maxlength cbf true = (prepared, .ok none) := by
  have h : fetchBytes true bs = .ok [] := by
    simp only [fetchBytes, readAll]
    rw [utf8sig_none hb]
    rfl
  cases ht : ReadStar.tryList req with
  | error e => exact absurd ht (tryList_known hr)
  | ok l =>
    have : ReadStar.readStar (ReadStar.parsers blocktype) prepared [] req maxlength cbf = (prepared, .ok none) := by
      rw [ReadStar.readStar, ht]
      simp
    exact ⟨by rw [readSource_of (src := .url bs) h, this], by rw [readSource_of (src := .bytes bs) h, this]⟩

/-- `None` is returned for an empty text only. -/
theorem readStar_none {parse : GName → ReadStar.Parse} {prepared : Coll} {text : Str} {req : Option Str} {maxlength : Int} {cbf : Bool}
    (h : (ReadStar.readStar parse prepared text req maxlength cbf).2 = .ok none) : text = [] := by
  unfold ReadStar.readStar at h
  split at h
  · cases h
  · by_cases ht : text = []
    · exact ht
    · rw [if_neg ht] at h
      dsimp only at h
      split at h
      · cases h
      · split at h
        · cases h
        · split at h <;> cases h

/-- C88, in part: if the text is not empty and `ReadCif` does not raise an exception, it returns the collection, the same as the
constructor `CifFile` makes of the source with the same grammar; if it raises one, the constructor raises the same. Missing: empty texts,
for which it is false (`C88_empty_fails`). -/
theorem C88_partial (blocktype : Block) (empty : Coll) (src : Source) (permissive : Bool) (req : Option Str)
    (hne : fetch permissive src ≠ .ok []) :
    (∃ c g, readCif blocktype empty src req permissive = .ok (some (c, g)) ∧ openFile blocktype empty src req (-1) permissive = .ok c) ∨
      ∃ e, readCif blocktype empty src req permissive = .error e ∧ openFile blocktype empty src req (-1) permissive = .error e := by
  unfold readCif openFile
  rcases hx : readSource blocktype empty src req (-1) false permissive with ⟨c, e | _ | g⟩
  · exact .inr ⟨e, rfl, rfl⟩
  · exfalso
    cases hf : fetch permissive src with
    | error e =>
      rw [readSource, hf] at hx
      split at hx <;> cases hx
    | ok text =>
      rw [readSource_of hf] at hx
      have := readStar_none (congrArg Prod.snd hx)
      subst this
      exact hne hf
  · exact .inl ⟨c, g, rfl, rfl⟩

/-- C88 fails for every source without text: `ReadCif` returns `None`, while the constructor makes an empty collection. -/
theorem C88_empty_fails (blocktype : Block) (empty : Coll) (src : Source) (permissive : Bool) {req : Option Str} (hr : KnownGrammar req)
    (he : fetch permissive src = .ok []) :
    readCif blocktype empty src req permissive = .ok none ∧ openFile blocktype empty src req (-1) permissive = .ok empty := by
  have : readSource blocktype empty src req (-1) false permissive = (empty, .ok none) := by
    rw [readSource_of he, ReadStar.readStar]
    cases ht : ReadStar.tryList req with
    | error e => exact absurd ht (tryList_known hr)
    | ok l => simp
  exact ⟨by rw [readCif, this], by rw [openFile, this]⟩

/-- The sources without text: an empty file or stream, a file that holds nothing but a byte order mark and, in permissive mode, every
file that is not in UTF-8. -/
theorem C88_empty_sources (bs : Bytes) (permissive : Bool) :
    fetch permissive (.url bs) = .ok [] ↔ bs = [] ∨ bs = bom ∨ (permissive = true ∧ ∀ t, bs ≠ utf8 t) := by
  simp only [fetch, fetchBytes, readAll]
  cases hs : utf8sig bs with
  | none =>
    have hb : ∀ t, bs ≠ utf8 t := by
      rintro t rfl
      by_cases ht : [bomChar] <+: t
      · obtain ⟨s, rfl⟩ := ht
        rw [utf8_append, utf8_bom, utf8sig_bom] at hs
        cases hs
      · rw [utf8sig_encode ht] at hs
        cases hs
    cases permissive with
    | true => simp [latin1, hb]
    | false =>
      simp only [Bool.false_eq_true, if_false, reduceCtorEq, false_and, or_false, false_iff, not_or]
      exact ⟨hb [], fun e => hb [bomChar] (e.trans utf8_bom.symm)⟩
  | some t =>
    simp only [Except.ok.injEq]
    have hex : ∃ u, bs = utf8 u := by
      rcases utf8sig_sound hs with e | e
      · exact ⟨t, e⟩
      · exact ⟨[bomChar] ++ t, by rw [e, utf8_append, utf8_bom]⟩
    constructor
    · rintro rfl
      rcases utf8sig_sound hs with e | e
      · exact .inl e
      · exact .inr (.inl e)
    · rintro (rfl | rfl | ⟨_, h⟩)
      · cases hs; rfl
      · have := utf8sig_bom []
        rw [show bom ++ utf8 [] = bom from rfl, hs] at this
        cases this; rfl
      · obtain ⟨u, hu⟩ := hex
        exact absurd hu (h u)

/-- C88 fails for `ReadStar` without a collection to read into, whatever the source: `AttributeError` is raised instead of making a new
collection. -/
theorem C88_default_fails (blocktype : Block) (src : Source) (req : Option Str) (maxlength : Int) (cbf permissive : Bool) :
    (readStarCall blocktype none src req maxlength cbf permissive).2 = .error (.py .attribute) := rfl

end

/-! ## Concrete cases -/
section Cases
attribute [local instance] asciiFold

/-- A text with characters of one, two, three and four bytes. -/
def mixed : Str := "data_a _x ".toList ++ [Char.ofNat 0xE9, Char.ofNat 0x20AC, Char.ofNat 0xD7FF, Char.ofNat 0x1D538, Char.ofNat 0x10FFFF]

example : ¬ [bomChar] <+: mixed := by decide
example : utf8 ['a', Char.ofNat 0xE9, Char.ofNat 0x20AC, Char.ofNat 0x1D538] = [0x61, 0xC3, 0xA9, 0xE2, 0x82, 0xAC, 0xF0, 0x9D, 0x94, 0xB8] := by decide +kernel

/-- `data_a _x` and an accented letter in Latin-1. -/
def latinFile : Bytes := (utf8 "data_a _x ".toList) ++ [0xE9]

theorem latinFile_not_utf8 : ∀ t, latinFile ≠ utf8 t := by
  intro t h
  have h1 : decodeN latinFile.length latinFile = none := by decide +kernel
  rw [h, decodeN_encode t _ (Nat.le_refl _)] at h1
  cases h1

/-- Characters that are written with too many bytes, surrogates, numbers that are too big and characters that are not complete are no
UTF-8. -/
theorem bad_of {bs : Bytes} (h : decodeN bs.length bs = none) : ∀ t, bs ≠ utf8 t := by
  rintro t rfl
  rw [decodeN_encode t _ (Nat.le_refl _)] at h
  cases h

example : ∀ t, ([0xC0, 0x80] : Bytes) ≠ utf8 t := bad_of (by decide +kernel)
example : ∀ t, ([0xE0, 0x9F, 0xBF] : Bytes) ≠ utf8 t := bad_of (by decide +kernel)
example : ∀ t, ([0xED, 0xA0, 0x80] : Bytes) ≠ utf8 t := bad_of (by decide +kernel)
example : ∀ t, ([0xF4, 0x90, 0x80, 0x80] : Bytes) ≠ utf8 t := bad_of (by decide +kernel)
example : ∀ t, ([0x61, 0xE2, 0x82] : Bytes) ≠ utf8 t := bad_of (by decide +kernel)

/-- C87 fails: a file in Latin-1 is refused without permissive mode; with it nothing is read and `ReadCif` returns `None`, although its
text can be read. -/
theorem C87_fails :
    readCif { overwrite := false } {} (.url latinFile) none = .error (.py .star) ∧
    readCif { overwrite := false } {} (.url latinFile) none true = .ok none ∧
    (readCif { overwrite := false } {} (.text (latin1 latinFile)) (some "STAR2".toList)).toOption.map (fun r => r.isSome) = some true := by
  refine ⟨?_, ?_, ?_⟩
  · rw [readCif, (C86_refused _ _ _ latinFile_not_utf8 (req := none) (fun _ h => by cases h) _ _).1]
  · rw [readCif, (C87_nothing_fails _ _ _ latinFile_not_utf8 (req := none) (fun _ h => by cases h) _ _).1]
  · decide +kernel

/-- The hypothesis of `C88_partial` holds of this file. -/
example : fetch false (.url (utf8 "data_a _x 1\n".toList)) ≠ .ok [] := by decide +kernel
example : (readCif { overwrite := false } {} (.url (bom ++ utf8 "data_a _x 1\n".toList))).toOption.map (fun r => r.map fun p => (p.1.keys, p.2)) =
    some (some (["a".toList], .v11)) := by decide +kernel
/-- The hypothesis of `C88_empty_fails` holds of an empty file. -/
example : fetch false (.url []) = .ok [] := by decide +kernel

end Cases

/-- C86 applies to a dictionary with nested save frames. -/
example : letI := asciiFold
    ∃ text c', WriteText.writeOut (Style.v11 2048) [] "#a comment\n".toList (RoundTrip.nestedFile (some "Dic".toList) RoundTrip.roundSample) = .ok text ∧
      readCif { overwrite := false } { standard := some "CIF".toList, scoping := .dictionary } (.url (bom ++ utf8 text)) none = .ok (some (c', .v11)) ∧
      RoundTrip.Restored (RoundTrip.ReadInOrder11 []) (RoundTrip.nestedFile (some "Dic".toList) RoundTrip.roundSample) .dictionary c' := by
  letI := asciiFold
  have hall : ∀ p ∈ (RoundTrip.nestedFile (some "Dic".toList) RoundTrip.roundSample).dict, p.2 = RoundTrip.roundSample := by decide +kernel
  refine C86_saved _ (RoundTrip.nestedFile_reachable (.inl ⟨rfl, rfl⟩)) (by decide +kernel) 2048 _ ?_ ?_ [] ⟨by simp, by simp, by simp, by simp⟩ _ ?_ (by decide) ?_
    { overwrite := false } ⟨rfl, rfl, rfl, rfl⟩ rfl rfl .dictionary none (.inr ⟨.inl rfl, by decide +kernel⟩) true
  · show ∀ k ∈ _, (_ ∧ _ ∧ _) ∧ _
    decide +kernel
  · intro k b hb
    cases RoundTrip.nested_get hall hb
    refine ⟨RoundTrip.roundSample_reachable, RoundTrip.roundSample_writable, fun _ _ n hn => ?_⟩
    rw [RoundTrip.roundSample_keys] at hn
    revert n
    decide +kernel
  · exact ⟨["#a comment".toList, []], by decide +kernel, by decide +kernel⟩
  · exact RoundTrip.clean_text (by decide +kernel)

end Verif.Decode
