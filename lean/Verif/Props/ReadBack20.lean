import Verif.Lemmas.FileRead
import Verif.Lemmas.BlockRead20
import Verif.Spec.FrameFile
/-! # C70: what is written in CIF 2.0 is read back -/
set_option linter.unusedSectionVars false
namespace Verif.RoundTrip
open Print Reader Lex Block
variable [CaseFold]

theorem WritableHeading20.word {n : Str} (h : WritableHeading20 n) : HeadingWord V2.dialect20 n :=
  ⟨h.1, fun c hc => nameChar_of20 (h.2.1 c hc), h.2.2⟩

theorem loopOf_nodup {b : Block} (hw : WF b) (k : Str) : (b.loopOf k).Nodup := by
  by_cases h : lower k ∈ allLooped b.loops
  · obtain ⟨p, hp, hk⟩ := List.mem_flatMap.1 h
    rw [loopOf_in hw (dget_pair hw.loopsNodup (v := p.2) (k := p.1) hp) hk]
    exact loop_nodup hw.looped (n := p.1) hp
  · rw [not_looped h]
    simp

theorem entry_spelled {b : Block} (hw : WF b) {n : Str} {e : Entry} (he : entryOf b (.name n) = some e) : ∀ t ∈ e.names, lower t = lower n := by
  rw [entryOf] at he
  split at he
  · rename_i v t h1 h2
    simp only [Option.some.injEq] at he
    subst he
    intro t' ht
    simp only [Entry.names, List.mem_singleton] at ht
    subst ht
    have := hw.caseVal _ (dget_mem h2)
    simp only at this
    rw [← this, CaseFold.lower_lower]
  · cases he

/-- How a block is written, and what is read from the text if its words do not run together. -/
theorem written20 {b : Block} (hr : Reachable b) {maxOut : Int} {hints : List Hint} (hb : WritableBlock20 (Style.v20 maxOut) hints b)
    (hh : UsableHints hints) :
    ∃ text b' out, printSection (Style.v20 maxOut) hints b = .ok text ∧
      b.createOrdering (hints.map (·.dataname)) [] [] = .ok (b', out) ∧
      ∀ (std : Option Str) (bt : Block) (name tail2 : Str), Unglued (Style.v20 maxOut) hints b → FitsStandard std b → Fresh bt → bt.overwrite = false →
        WritableHeading20 name → IsGap tail2 →
        ∃ q : Part, q.name = name ∧ q.text = "data_".toList ++ name ++ "\n".toList ++ text ++ tail2 ∧ PartOk V2.dialect20 std q ∧
          (tail2 ≠ [] → q.tail ≠ []) ∧ SameRead20 { b' with order := out } { q.block bt std with overwrite := true } := by
  obtain ⟨hw, hf⟩ := reachable_wf hr
  have hns : saves ∉ b.keys := reachable_nosaves hr
  obtain ⟨out, ho, hp⟩ := ordering_eq hw hf hh.nodup hh.lower
  generalize hreq : requestedOrder (hints.map (·.dataname)) = req at ho
  have hnd : req.Nodup := by rw [← hreq]; exact hh.nodup
  have hwd : WF { reordered b req with order := out } := wf_ordered (wf_reordered hw hnd) hp
  have hfd : Full { reordered b req with order := out } := full_reordered (req := req) hf
  have hsd : saves ∉ ({ reordered b req with order := out } : Block).keys := hns
  have hbd := writable_ordered20 hb req out
  obtain ⟨es, d1, d2, d3⟩ := writable_in20 hwd hfd hsd hbd
  have hdoc : docOf (reordered b req) out = some es := by rw [← docOf_order _ out]; exact d1
  obtain ⟨s0, h0, hw0, hi0, ho0, ht0⟩ : ∃ s0 : Sink, ({} : Sink).write [] { canbreak := true } = .ok s0 ∧ s0.width = 80 ∧ s0.indent = 0 ∧ s0.out = [] ∧ True1 s0 :=
    ⟨_, rfl, rfl, rfl, rfl, by show (_ : Nat) ≤ _; decide⟩
  obtain ⟨s1, h1, -, hlaid⟩ := writes_refs (maxOut := maxOut) (hints := hints) hh.column (b := reordered b req) (loopIndent_ok hh.loopPlace 0) out es s0 hdoc
    (by
      rintro r - e he n rfl
      exact entry_spelled (wf_reordered hw hnd) he)
    (fun e he => (d3 e he).2.1.1) hw0 hi0
  have htext : printSection (Style.v20 maxOut) hints b = .ok s1.out := by
    unfold printSection
    rw [ho]
    simp only
    rw [h0]
    simp only [andThen]
    rw [h1]
  refine ⟨s1.out, reordered b req, out, htext, ho, ?_⟩
  intro std bt name tail2 hu hs hbt hlock hname htail
  have happ : (∀ e ∈ es, EntryApart hints e) ∨ (Short s1.out ∧ True1 s0) := by
    rcases hu with hu | hu
    · exact .inl fun e he => (d3 e he).2.2.2 (apart_ordered hu (fun k => nodup_reorder hnd (loopOf_nodup hw k)) out)
    · exact .inr ⟨short_of_lines (hu _ htext), ht0⟩
  obtain ⟨ws, tail, hreads, l, h3, h4, h5, h6⟩ := hlaid happ [] [] ⟨[], rfl, by simp [ho0], by simp [IsGap], by simp⟩
  have hdist : Entry.Distinct es := by
    unfold Entry.Distinct
    rw [d2]
    exact nodup_printed hwd
  have hok : EntriesOk std (es.map asReadEntry20) := entriesOk_of20 hdist (fun e he => (d3 e he).2.1)
    (fun e he t ht hc => hsd (by rw [← hc]; exact (d3 e he).2.2.1 t ht)) (by
    intro hc n hn
    refine hs hc _ ?_
    show lower n ∈ ({ reordered b req with order := out } : Block).keys
    rw [← printed_keys hwd hfd, ← d2]
    exact List.mem_map_of_mem hn)
  -- the block that is read
  obtain ⟨r1, r2, r3, r4, r5⟩ := read_in (fresh_start hbt std) (locked_start hlock std) hok
  have hsame : SameRead20 { reordered b req with order := out } { (es.map asReadEntry20).foldl addEntry (startBlock bt std) with overwrite := true } := by
    refine sameRead20 hwd hfd hsd ?_ r2 d2 (fun e he => ⟨(d3 e he).1, (d3 e he).2.1.2.1⟩) ?_ ?_
    · exact ⟨r1.1, r1.2, r1.3, r1.4, r1.5, r1.6, r1.7, r1.8, r1.9, r1.10, r1.11⟩
    · rw [← allNames_asRead20]; exact r3
    · intro e he
      have h := r5 _ (List.mem_map_of_mem he)
      cases e with
      | item n v => exact h
      | loop ns vs => exact h
  have hhead := hname.word
  rw [List.nil_append] at h3
  cases l with
  | nil =>
    refine ⟨⟨name, es.map asReadEntry20, [], '\n' :: tail ++ tail2⟩, rfl, ?_, ⟨hhead, hok, by simp [Spaced], by simpa [h3] using hreads, ?_⟩, by simp, hsame⟩
    · rw [Part.text, h4]
      simp [flat]
    · exact isGap_append.2 ⟨isGap_append (a := ['\n']).2 ⟨by simp [IsGap], h5⟩, htail⟩
  | cons p l =>
    refine ⟨⟨name, es.map asReadEntry20, ('\n' :: p.1, p.2) :: l, tail ++ tail2⟩, rfl, ?_, ⟨hhead, hok, ?_, by simpa [h3] using hreads, ?_⟩, by simp +contextual, hsame⟩
    · rw [Part.text, h4]
      simp [flat]
    · intro x hx
      rcases List.mem_cons.1 hx with rfl | hx
      · refine ⟨?_, .inl (by simp)⟩
        intro c hc
        rcases List.mem_cons.1 hc with rfl | hc
        · exact .inr rfl
        · exact (h6 p (by simp)).1 c hc
      · exact h6 x (by simp [hx])
    · exact isGap_append.2 ⟨h5, htail⟩

/-- **C70.** Every writable block of texts, numbers, lists and tables can be written in CIF 2.0, whatever the hints. -/
theorem C70_written (b : Block) (hr : Reachable b) (maxOut : Int) (hints : List Hint) (hb : WritableBlock20 (Style.v20 maxOut) hints b)
    (hh : UsableHints hints) : ∃ text, printSection (Style.v20 maxOut) hints b = .ok text := by
  obtain ⟨text, _, _, h, -⟩ := written20 hr hb hh
  exact ⟨text, h⟩

theorem part20 {b : Block} (hr : Reachable b) {maxOut : Int} {hints : List Hint} (hb : WritableBlock20 (Style.v20 maxOut) hints b)
    (hu : Unglued (Style.v20 maxOut) hints b) (hh : UsableHints hints) {std : Option Str} (hs : FitsStandard std b) {bt : Block} (hbt : Fresh bt)
    (hlock : bt.overwrite = false) {name : Str} (hn : WritableHeading20 name) :
    PartOf V2.dialect20 (Style.v20 maxOut) hints std bt (ReadInOrder hints) name b := by
  obtain ⟨text, b', out, h1, h2, h3⟩ := written20 hr hb hh
  refine ⟨text, h1, fun tail2 ht => ?_⟩
  obtain ⟨q, q1, q2, q3, q4, q5⟩ := h3 std bt name tail2 hu hs hbt hlock hn ht
  exact ⟨q, q1, q2, q3, q4, b', out, h2, q5⟩

/-- **C70.** A writable block that is written in CIF 2.0 is read back with the same names, values and loops. Missing, because it is false of the
code: blocks whose values run together at the end of full lines (`C70_glued_fails`, `C70_name_glued_fails`), tables with keys that hold a quote
(`C70_key_fails`) and loops that end in an empty list (`C70_last_fails`). -/
theorem C70_roundtrip_partial (b : Block) (hr : Reachable b) (maxOut : Int) (hints : List Hint) (hb : WritableBlock20 (Style.v20 maxOut) hints b)
    (hu : Unglued (Style.v20 maxOut) hints b) (hh : UsableHints hints) (std : Option Str) (hs : FitsStandard std b) (bt : Block) (hbt : Fresh bt)
    (hlock : bt.overwrite = false) (hmax : bt.maxName = none) (name : Str) (hn : WritableHeading20 name) :
    ∃ text b' out c rb, printSection (Style.v20 maxOut) hints b = .ok text ∧
      b.createOrdering (hints.map (·.dataname)) [] [] = .ok (b', out) ∧
      Reader.input gram20 bt { standard := std } ("\ndata_".toList ++ name ++ "\n".toList ++ text) = (c, .ok ()) ∧
      c.keys = [lower name] ∧ c.getItem name = .ok rb ∧ SameRead20 { b' with order := out } rb := by
  obtain ⟨text, c, rb, h1, h2, h3, h4, b', out, h5, h6⟩ := one_of hbt hlock hmax (part20 hr hb hu hh hs hbt hlock hn)
  exact ⟨text, b', out, c, rb, h1, h5, h2, h3, h4, h6⟩

/-- **C70**, without hints: the order of the names is kept as well. See `C70_roundtrip_partial` for what is missing. -/
theorem C70_roundtrip_plain_partial (b : Block) (hr : Reachable b) (maxOut : Int) (hb : WritableBlock20 (Style.v20 maxOut) [] b)
    (hu : Unglued (Style.v20 maxOut) [] b) (std : Option Str) (hs : FitsStandard std b) (bt : Block) (hbt : Fresh bt)
    (hlock : bt.overwrite = false) (hmax : bt.maxName = none) (name : Str) (hn : WritableHeading20 name) :
    ∃ text c rb, printSection (Style.v20 maxOut) [] b = .ok text ∧
      Reader.input gram20 bt { standard := std } ("\ndata_".toList ++ name ++ "\n".toList ++ text) = (c, .ok ()) ∧
      c.keys = [lower name] ∧ c.getItem name = .ok rb ∧ SameRead20 b rb := by
  obtain ⟨text, b', out, c, rb, h1, h2, h3, h4, h5, h6⟩ := C70_roundtrip_partial b hr maxOut [] hb hu
    ⟨by simp, by simp, by simp, by simp⟩ std hs bt hbt hlock hmax name hn
  refine ⟨text, c, rb, h1, h3, h4, h5, ?_⟩
  have e : b.createOrdering [] [] [] = .ok (b, b.order) := by
    unfold createOrdering
    simp only [requestedOrder, List.filter_nil, orderLoop, extras]
    rw [List.filter_eq_self.2 (by simp)]
    rfl
  have : Except.ok (b', out) = (Except.ok (b, b.order) : Except PyErr (Block × List Ref)) := by rw [← h2, ← e]; rfl
  simp only [Except.ok.injEq, Prod.mk.injEq] at this
  rw [this.1, this.2] at h6
  exact h6

/-- **C70**, for files of several data blocks. Save frames are missing here, and see `C70_roundtrip_partial`. -/
theorem C70_file_partial (c : Coll) (hc : Coll.Reachable c) (hne : c.lowerKeys ≠ []) (hflat : ∀ k, Coll.parentOf c k = none)
    (hdic : c.standard ≠ some "Dic".toList) (maxOut : Int) (std : Option Str)
    (hname : ∀ k ∈ c.lowerKeys, WritableHeading20 (Coll.printedName c k) ∧ lower (Coll.printedName c k) = k) (hints : List Hint)
    (hb : ∀ k b, c.getItem k = .ok b → Reachable b ∧ WritableBlock20 (Style.v20 maxOut) hints b ∧ Unglued (Style.v20 maxOut) hints b ∧ FitsStandard std b)
    (hh : UsableHints hints) (header : Str) (hhead : IsHeader header) (bt : Block) (hbt : Fresh bt)
    (hlock : bt.overwrite = false) (hmax : bt.maxName = none) :
    ∃ text c', WriteText.writeOut (Style.v20 maxOut) hints header c = .ok text ∧
      Reader.input gram20 bt { standard := std } text = (c', .ok ()) ∧ c'.keys = c.inputOrder ∧
      ∀ k ∈ c.lowerKeys, Coll.printedName c' k = Coll.printedName c k ∧
        ∃ b b' out rb, c.getItem k = .ok b ∧ b.createOrdering (hints.map (·.dataname)) [] [] = .ok (b', out) ∧
          c'.getItem k = .ok rb ∧ SameRead20 { b' with order := out } rb := by
  obtain ⟨text, c', h1, h2, h3, h4⟩ := file_of (D := V2.dialect20) (st := Style.v20 maxOut) (hints := hints) (std := std) hbt hlock hmax
    (S := ReadInOrder hints) hc hne hflat hdic (fun k hk => (hname k hk).2)
    (fun k hk b hb' => by
      obtain ⟨b1, b2, b3, b4⟩ := hb k b hb'
      exact part20 b1 b2 b3 hh b4 hbt hlock (hname k hk).1) hhead
  refine ⟨text, c', h1, h2, h3, fun k hk => ?_⟩
  obtain ⟨m1, b, rb, m2, m3, b', out, m4, m5⟩ := h4 k hk
  exact ⟨m1, b, b', out, rb, m2, m4, m3, m5⟩

end Verif.RoundTrip
