import Verif.Lemmas.FrameFile
import Verif.Props.ReadBack20
/-! # Blocks printed whole or in two parts -/
set_option linter.unusedSectionVars false
namespace Verif.RoundTrip
open Print Reader Lex Block
variable [CaseFold]

theorem docOf_append (b : Block) : ∀ (r s : List Ref) (es : List Entry), docOf b (r ++ s) = some es →
    ∃ e1 e2, docOf b r = some e1 ∧ docOf b s = some e2 ∧ es = e1 ++ e2
  | [], s, es, h => ⟨[], es, rfl, h, rfl⟩
  | x :: r, s, es, h => by
    rw [List.cons_append, docOf] at h
    split at h
    · rename_i e es' h1 h2
      simp only [Option.some.injEq] at h
      subst h
      obtain ⟨e1, e2, i1, i2, rfl⟩ := docOf_append b r s es' h2
      refine ⟨e :: e1, e2, ?_, i2, rfl⟩
      rw [docOf, h1, i1]
    · cases h

/-- The two parts of the order of a block. -/
theorem halves_eq {b : Block} (hw : WF b) (hf : Full b) {hints : List Str} (hn : (requestedOrder hints).Nodup)
    (hlow : ∀ s ∈ requestedOrder hints, lower s = s) {x : Str} (hx : x ≠ []) :
    ∃ p q, b.createOrdering hints [] [] = .ok (reordered b (requestedOrder hints), p ++ q) ∧
      b.createOrdering hints x [] = .ok (reordered b (requestedOrder hints), p) ∧
      b.createOrdering hints [] x = .ok (reordered b (requestedOrder hints), q) ∧ (p ++ q).Perm b.order := by
  obtain ⟨new, h1, h2, h3⟩ := orderLoop_full hw hf hn hlow
  obtain ⟨o1, o2⟩ := out_perm hw h2 h3
  obtain ⟨p, q, g1, g2, g3⟩ := halves (b := reordered b (requestedOrder hints)) (wf_reordered hw hn) (req := requestedOrder hints) (new := new) hx o2
  refine ⟨p, q, ?_, ?_, ?_, ?_⟩
  · unfold createOrdering
    simp only [h1]
    rw [g3]
    rfl
  · unfold createOrdering
    simp only [h1]
    have : startFrom (reordered b (requestedOrder hints)) (requestedOrder hints) new (new ++ extras (reordered b (requestedOrder hints)) new) [] =
      .ok (new ++ extras (reordered b (requestedOrder hints)) new) := rfl
    simp only [this, g1]
  · unfold createOrdering
    simp only [h1, g2]
    rfl
  · rw [g3]
    exact perm_of_nodup_mem o1 hw.orderNodup o2

/-- What is known of a block that can be written and read: its entries `es` in the order of the hints are read as `es.map f`, and a part of them is
printed as it should be under the condition `G`. -/
def Core (D : Dialect) (st : Style) (hints : List Hint) (f : Entry → Entry) (S : Block → Block → Prop) (G : Str → Str → Prop) (b : Block) : Prop :=
  ∀ out, out.Perm b.order → b.createOrdering (hints.map (·.dataname)) [] [] = .ok (reordered b (requestedOrder (hints.map (·.dataname))), out) →
    ∃ es, docOf (reordered b (requestedOrder (hints.map (·.dataname)))) out = some es ∧
    (∀ std, FitsStandard std b → EntriesOk std (es.map f)) ∧
    (∀ b0, Fresh b0 → b0.overwrite = false → S b { (es.map f).foldl addEntry b0 with overwrite := true }) ∧
    ∀ finish start o es', b.createOrdering (hints.map (·.dataname)) finish start = .ok (reordered b (requestedOrder (hints.map (·.dataname))), o) →
      docOf (reordered b (requestedOrder (hints.map (·.dataname)))) o = some es' → (∀ r ∈ o, r ∈ out) → (∀ e ∈ es', e ∈ es) → G finish start →
      ∃ text, Sheet D st hints b finish start (es'.map f) text

theorem frameOf_core {D : Dialect} {st : Style} {hints : List Hint} {f : Entry → Entry} {S : Block → Block → Prop} {G : Str → Str → Prop} {b : Block}
    (h : Core D st hints f S G b) (hr : Reachable b) (hh : UsableHints hints) (hG : G [] []) {bt : Block} (hbt : Fresh bt) (hlock : bt.overwrite = false)
    {name : Str} (hname : HeadingWord D name) : FrameOf D st hints bt S name b := by
  obtain ⟨hw, hf⟩ := reachable_wf hr
  obtain ⟨out, ho, hp⟩ := ordering_eq hw hf hh.nodup hh.lower
  obtain ⟨es, h1, h2, h3, h4⟩ := h out hp ho
  obtain ⟨text, ht⟩ := h4 [] [] out es ho h1 (fun _ h => h) (fun _ h => h) hG
  exact ⟨hname, es.map f, text, ht, h2 none (by intro h; cases h), h3 _ (fresh_frame (D := D) hbt) hlock⟩

theorem topOf_core {D : Dialect} {st : Style} {hints : List Hint} {f : Entry → Entry} {S : Block → Block → Prop} {G : Str → Str → Prop} {b : Block}
    (h : Core D st hints f S G b) (hr : Reachable b) (hh : UsableHints hints) {std : Option Str} (hs : FitsStandard std b) {bt : Block} (hbt : Fresh bt)
    (hlock : bt.overwrite = false) {name : Str} (hname : HeadingWord D name) {dic : Prop} (hG : ¬ dic → G [] [])
    (hG2 : dic → G WriteText.divider [] ∧ G [] WriteText.divider) : TopOf D st hints std bt S dic name b := by
  obtain ⟨hw, hf⟩ := reachable_wf hr
  refine ⟨hname, ?_⟩
  by_cases hd : dic
  · obtain ⟨p, q, g1, g2, g3, g4⟩ := halves_eq hw hf hh.nodup hh.lower (x := WriteText.divider) (by decide)
    obtain ⟨es, h1, h2, h3, h4⟩ := h _ g4 g1
    obtain ⟨e1, e2, d1, d2, rfl⟩ := docOf_append _ _ _ _ h1
    obtain ⟨t1, s1⟩ := h4 _ _ _ _ g2 d1 (fun r hr => by simp [hr]) (fun e he => by simp [he]) (hG2 hd).1
    obtain ⟨t2, s2⟩ := h4 _ _ _ _ g3 d2 (fun r hr => by simp [hr]) (fun e he => by simp [he]) (hG2 hd).2
    rw [List.map_append] at h2 h3
    exact ⟨_, _, _, _, fun _ => ⟨s1, s2⟩, fun h => absurd hd h, h2 std hs, h3 _ (fresh_start hbt std) (locked_start hlock std)⟩
  · obtain ⟨out, ho, hp⟩ := ordering_eq hw hf hh.nodup hh.lower
    obtain ⟨es, h1, h2, h3, h4⟩ := h out hp ho
    obtain ⟨text, ht⟩ := h4 [] [] out es ho h1 (fun _ h => h) (fun _ h => h) (hG hd)
    exact ⟨[], es.map f, [], text, fun h => absurd h hd, fun _ => ⟨rfl, rfl, ht⟩, h2 std hs, h3 _ (fresh_start hbt std) (locked_start hlock std)⟩

theorem core11 {b : Block} (hr : Reachable b) {maxOut : Int} (hb : WritableBlock (Style.v11 maxOut) b) {hints : List Hint} (hh : UsableHints hints) :
    Core dialect11 (Style.v11 maxOut) hints asReadEntry (ReadInOrder11 hints) (fun _ _ => True) b := by
  obtain ⟨hw, hf⟩ := reachable_wf hr
  have hns : saves ∉ b.keys := reachable_nosaves hr
  intro out hp ho
  have hord := ho
  generalize hreq : requestedOrder (hints.map (·.dataname)) = req at ho hord ⊢
  have hnd : req.Nodup := by rw [← hreq]; exact hh.nodup
  have hwd : WF { reordered b req with order := out } := wf_ordered (wf_reordered hw hnd) hp
  have hfd : Full { reordered b req with order := out } := full_reordered (req := req) hf
  have hsd : saves ∉ ({ reordered b req with order := out } : Block).keys := hns
  have hbd := writable_ordered hb req out
  obtain ⟨es, d1, d2, d3⟩ := writable_in hwd hfd hsd hbd
  have hdoc : docOf (reordered b req) out = some es := by rw [← docOf_order _ out]; exact d1
  have hsimple : ∀ e ∈ es, SimpleEntry e ∧ ∀ n ∈ e.names, n ≠ [] := by
    intro e he
    have hwe := (d3 e he).2.1
    have hval : ∀ v, WritableValue (Style.v11 maxOut) v → Simple v := by
      intro v hv
      cases v with
      | str s => trivial
      | num t => exact hv.1
      | _ => exact absurd hv (by simp [WritableValue])
    cases e with
    | item n v =>
      refine ⟨hval v hwe.2, ?_⟩
      intro m hm
      simp only [Entry.names, List.mem_singleton] at hm
      subst hm
      obtain ⟨t, rfl, -⟩ := hwe.1
      simp
    | loop ns vs =>
      refine ⟨fun v hv => hval v (hwe.2.2 v hv), ?_⟩
      intro m hm
      obtain ⟨t, rfl, -⟩ := hwe.1 m hm
      simp
  have hdist : Entry.Distinct es := by
    unfold Entry.Distinct
    rw [d2]
    exact nodup_printed hwd
  have hok : ∀ std, FitsStandard std b → EntriesOk std (es.map asReadEntry) := fun std hs =>
    entriesOk_of hdist (fun e he => (d3 e he).2.1) (fun e he => (d3 e he).2.2) (by
      intro hc n hn
      refine hs hc _ ?_
      show lower n ∈ ({ reordered b req with order := out } : Block).keys
      rw [← printed_keys hwd hfd, ← d2]
      exact List.mem_map_of_mem hn)
  refine ⟨es, hdoc, hok, ?_, ?_⟩
  · intro b0 h0 hl0
    refine ⟨_, _, hord, ?_⟩
    obtain ⟨r1, r2, r3, r4, r5⟩ := read_in h0 hl0 (hok none (by intro h; cases h))
    refine sameRead (st := Style.v11 maxOut) hwd hfd hsd ?_ r2 d2 (fun e he => ⟨(d3 e he).1, (d3 e he).2.1⟩) ?_ ?_
    · exact ⟨r1.1, r1.2, r1.3, r1.4, r1.5, r1.6, r1.7, r1.8, r1.9, r1.10, r1.11⟩
    · rw [← allNames_asRead]; exact r3
    · intro e he
      have h := r5 _ (List.mem_map_of_mem he)
      cases e with
      | item n v => exact h
      | loop ns vs => exact h
  · intro finish start o es' ho' hdoc' _ hsub _
    have htext : ∃ text, printSection (Style.v11 maxOut) hints b [] 0 finish start = .ok text := by
      unfold printSection
      rw [ho']
      simp only
      obtain ⟨s0, h0, h0'⟩ : ∃ s0, ({} : Sink).write [] { canbreak := true } = .ok s0 ∧ s0.width = 80 := ⟨_, rfl, rfl⟩
      obtain ⟨s1, h1, -⟩ := printRefs_total (solid_v11 maxOut) (loopIndent_ok hh.loopPlace 0) o es' s0 hdoc' (fun e he => hsimple e (hsub e he)) (by rw [h0']; decide)
      rw [h0]
      simp only [andThen]
      rw [h1]
      exact ⟨_, rfl⟩
    obtain ⟨text, htext⟩ := htext
    obtain ⟨es2, ws, h1, h2, l, tail, h3, h4, h5, h6⟩ := C11_apart _ hints hh.column b _ 0 finish start o text ho'
      (fun es2 h' e he => by
        rw [hdoc'] at h'
        simp only [Option.some.injEq] at h'
        subst h'
        exact (hsimple e (hsub e he)).1) htext
    rw [hdoc'] at h1
    simp only [Option.some.injEq] at h1
    subst h1
    have hreads := reads_doc h2 (fun e he => (d3 e (hsub e he)).2.1)
    exact ⟨text, htext, l, tail, h4, h6, h5, by simpa [h3] using hreads⟩

theorem core20 {b : Block} (hr : Reachable b) {maxOut : Int} {hints : List Hint} (hb : WritableBlock20 (Style.v20 maxOut) hints b) (hh : UsableHints hints) :
    Core V2.dialect20 (Style.v20 maxOut) hints asReadEntry20 (ReadInOrder hints) (UngluedPart (Style.v20 maxOut) hints b) b := by
  obtain ⟨hw, hf⟩ := reachable_wf hr
  have hns : saves ∉ b.keys := reachable_nosaves hr
  intro out hp ho
  have hord := ho
  generalize hreq : requestedOrder (hints.map (·.dataname)) = req at ho hord ⊢
  have hnd : req.Nodup := by rw [← hreq]; exact hh.nodup
  have hwd : WF { reordered b req with order := out } := wf_ordered (wf_reordered hw hnd) hp
  have hfd : Full { reordered b req with order := out } := full_reordered (req := req) hf
  have hsd : saves ∉ ({ reordered b req with order := out } : Block).keys := hns
  have hbd := writable_ordered20 hb req out
  obtain ⟨es, d1, d2, d3⟩ := writable_in20 hwd hfd hsd hbd
  have hdoc : docOf (reordered b req) out = some es := by rw [← docOf_order _ out]; exact d1
  have hdist : Entry.Distinct es := by
    unfold Entry.Distinct
    rw [d2]
    exact nodup_printed hwd
  have hok : ∀ std, FitsStandard std b → EntriesOk std (es.map asReadEntry20) := fun std hs =>
    entriesOk_of20 hdist (fun e he => (d3 e he).2.1)
    (fun e he t ht hc => hsd (by rw [← hc]; exact (d3 e he).2.2.1 t ht)) (by
    intro hc n hn
    refine hs hc _ ?_
    show lower n ∈ ({ reordered b req with order := out } : Block).keys
    rw [← printed_keys hwd hfd, ← d2]
    exact List.mem_map_of_mem hn)
  refine ⟨es, hdoc, hok, ?_, ?_⟩
  · intro b0 h0 hl0
    refine ⟨_, _, hord, ?_⟩
    obtain ⟨r1, r2, r3, r4, r5⟩ := read_in h0 hl0 (hok none (by intro h; cases h))
    refine sameRead20 hwd hfd hsd ?_ r2 d2 (fun e he => ⟨(d3 e he).1, (d3 e he).2.1.2.1⟩) ?_ ?_
    · exact ⟨r1.1, r1.2, r1.3, r1.4, r1.5, r1.6, r1.7, r1.8, r1.9, r1.10, r1.11⟩
    · rw [← allNames_asRead20]; exact r3
    · intro e he
      have h := r5 _ (List.mem_map_of_mem he)
      cases e with
      | item n v => exact h
      | loop ns vs => exact h
  · intro finish start o es' ho' hdoc' hso hsub hu
    obtain ⟨s0, h0, hw0, hi0, ho0, ht0⟩ : ∃ s0 : Sink, ({} : Sink).write [] { canbreak := true } = .ok s0 ∧ s0.width = 80 ∧ s0.indent = 0 ∧ s0.out = [] ∧ True1 s0 :=
      ⟨_, rfl, rfl, rfl, rfl, by show (_ : Nat) ≤ _; decide⟩
    obtain ⟨s1, h1, -, hlaid⟩ := writes_refs (maxOut := maxOut) (hints := hints) hh.column (b := reordered b req) (loopIndent_ok hh.loopPlace 0) o es' s0 hdoc'
      (by
        rintro r - e he n rfl
        exact entry_spelled (wf_reordered hw hnd) he)
      (fun e he => (d3 e (hsub e he)).2.1.1) hw0 hi0
    have htext : printSection (Style.v20 maxOut) hints b [] 0 finish start = .ok s1.out := by
      unfold printSection
      rw [ho']
      simp only
      rw [h0]
      simp only [andThen]
      rw [h1]
    have happ : (∀ e ∈ es', EntryApart hints e) ∨ (Short s1.out ∧ True1 s0) := by
      rcases hu with hu | hu
      · exact .inl fun e he => (d3 e (hsub e he)).2.2.2 (apart_ordered hu (fun k => nodup_reorder hnd (loopOf_nodup hw k)) out)
      · exact .inr ⟨short_of_lines (hu _ htext), ht0⟩
    obtain ⟨ws, tail, hreads, l, h3, h4, h5, h6⟩ := hlaid happ [] [] ⟨[], rfl, by simp [ho0], by simp [IsGap], by simp⟩
    rw [List.nil_append] at h3
    exact ⟨s1.out, htext, l, tail, h4, h6, h5, by simpa [h3] using hreads⟩

end Verif.RoundTrip
