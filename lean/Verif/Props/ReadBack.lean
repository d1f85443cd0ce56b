import Verif.Lemmas.ReadBack
import Verif.Model.WriteText
import Verif.Props.WriteOut
import Verif.Lemmas.BlockDoc
import Verif.Lemmas.PrintTotal
import Verif.Props.Reader
import Verif.Props.Order
import Verif.Props.Print
import Verif.Props.RoundTrip
/-! # C10: a written block is read back -/
set_option linter.unusedSectionVars false
namespace Verif.RoundTrip
open Print Reader Lex Block
variable [CaseFold]

/-- A block read from different names and filled loops has the entries it was read from. -/
theorem read_in {b0 : Block} (h0 : Fresh b0) (hl : b0.overwrite = false) {std : Option Str} {es : List Entry} (hes : EntriesOk std es) :
    WF (es.foldl addEntry b0) ∧ Full (es.foldl addEntry b0) ∧ (Entry.allNames es).map lower = (es.foldl addEntry b0).printed ∧
      (∀ k, lower k ∈ (es.foldl addEntry b0).keys → k ≠ saves) ∧ ∀ e ∈ es, EntryIn (es.foldl addEntry b0) e := by
  have hp : Proper es := hes.ok
  have hk0 : b0.keys = [] := by simp [keys, h0.1, dkeys]
  obtain ⟨e1, hfil⟩ := storeEntries_eq es (filling_fresh h0 hl) hes.distinct (by simp [hk0]) hp
  obtain ⟨rb, g1, g2, g3, g4⟩ := C09_stored b0 h0 hl es hes.distinct hp
  rw [e1] at g1
  simp only [Prod.mk.injEq, and_true] at g1
  have hdoc := docOf_foldl es (filling_fresh h0 hl) hes.distinct (by simp [hk0]) (fun e he => ⟨hes.noSaves e he, (hes.ok e he).2.1, (hes.ok e he).2.2.2⟩)
    (ds := []) (by rw [h0.2.2.1]; rfl)
  rw [g1] at hfil hdoc ⊢
  rw [List.nil_append] at hdoc
  have hkeys : ∀ x, x ∈ rb.keys ↔ ∃ n ∈ Entry.allNames es, x = lower n := by
    intro x
    rw [← g1, keys_foldl, hk0, List.nil_append, List.mem_map]
    constructor
    · rintro ⟨n, h1, rfl⟩; exact ⟨n, h1, rfl⟩
    · rintro ⟨n, h1, rfl⟩; exact ⟨n, h1, rfl⟩
  have hs : saves ∉ rb.keys := by
    intro h
    obtain ⟨n, hn, e⟩ := (hkeys _).1 h
    obtain ⟨x, hx, hn'⟩ := List.mem_flatMap.1 hn
    exact hes.noSaves x hx n hn' e.symm
  have hlook : ∀ n ∈ Entry.allNames es, ∃ v, rb.lookup (lower n) = some v := by
    intro n hn
    obtain ⟨x, hx, hn'⟩ := List.mem_flatMap.1 hn
    have hne : lower n ≠ saves := hes.noSaves x hx n hn'
    cases x with
    | item m v =>
      simp only [Entry.names, List.mem_singleton] at hn'
      subst hn'
      exact ⟨v, g3 n v hx _ hne (CaseFold.lower_lower _)⟩
    | loop ns vs =>
      obtain ⟨i, hi, rfl⟩ := List.getElem_of_mem hn'
      obtain ⟨col, h1, -⟩ := g4 ns vs hx i _ (List.getElem?_eq_getElem hi) _ hne (CaseFold.lower_lower _)
      exact ⟨_, h1⟩
  have htidy : Tidy rb := by
    refine ⟨?_, ?_, fun n l h => hfil.solid _ (dget_mem h)⟩
    · intro n hn
      obtain ⟨m, hm, rfl⟩ := (hkeys n).1 ((hfil.wf.orderName n).1 hn).1
      exact hlook m hm
    · intro n l hnl
      have hr : Ref.loop n ∈ rb.order := (hfil.wf.orderLoop n).2 (dget_isSome.1 ⟨l, hnl⟩)
      obtain ⟨e, he, h1⟩ := docOf_mem hdoc _ hr
      rw [entryOf, hnl] at h1
      simp only at h1
      split at h1
      · rename_i ts cols hts hcols
        simp only [Option.some.injEq] at h1
        subst h1
        obtain ⟨k1, k2⟩ := spelled_lower hfil.wf.caseVal hts
        obtain ⟨m, hm⟩ := (hes.ok _ he).2.2.2.2.2
        refine ⟨m, ?_⟩
        intro s hs'
        rw [← k1] at hs'
        obtain ⟨t, ht, rfl⟩ := List.mem_map.1 hs'
        obtain ⟨i, hi, rfl⟩ := List.getElem_of_mem ht
        obtain ⟨col, q1, q2⟩ := g4 _ _ he i _ (List.getElem?_eq_getElem hi) (lower ts[i]) (hes.noSaves _ he _ ht) (CaseFold.lower_lower _)
        refine ⟨col, by rw [column, q1], isColumn_length q2 hi (by rw [hm, Nat.mul_comm])⟩
      · cases h1
  obtain ⟨es2, d1, d2, d3⟩ := docOf_in (b := rb) (P := EntryIn rb) (rs := rb.order) fun r hr => by
    obtain ⟨e, q1, q2, q3, -⟩ := entryOf_in hfil.wf hfil.full htidy hs hr
    exact ⟨e, q1, q2, q3⟩
  rw [hdoc] at d1
  simp only [Option.some.injEq] at d1
  subst d1
  exact ⟨hfil.wf, hfil.full, by rw [d2, printed_eq], fun k hk => ne_saves hs hk, d3⟩

/-- A writable block has entries, which are writable. -/
theorem writable_in {st : Style} {b : Block} (hw : WF b) (hf : Full b) (hs : saves ∉ b.keys) (hb : WritableBlock st b) :
    ∃ es, docOf b b.order = some es ∧ (Entry.allNames es).map lower = b.printed ∧
      ∀ e ∈ es, EntryIn b e ∧ WritableEntry st e ∧ e.Filled := by
  have htidy : Tidy b := by
    refine ⟨?_, hb.rect, hb.solid⟩
    intro n hn
    obtain ⟨h1, h2⟩ := (hw.orderName n).1 hn
    obtain ⟨v, hv, -⟩ := hb.items n h1 (not_looped (by rw [hw.keysLower n h1]; exact h2))
    exact ⟨v, hv⟩
  rw [printed_eq]
  apply docOf_in
  intro r hr
  obtain ⟨e, q1, q2, q3, q4⟩ := entryOf_in hw hf htidy hs hr
  refine ⟨e, q1, q2, q3, ?_⟩
  have hkey : ∀ t ∈ e.names, lower t ∈ b.keys := by
    intro t ht
    have : lower t ∈ namesAt b r := by rw [← q2]; exact List.mem_map_of_mem ht
    cases r with
    | name n =>
      simp only [namesAt, List.mem_singleton] at this
      rw [this]
      exact ((hw.orderName n).1 hr).1
    | loop n =>
      rw [namesAt] at this
      split at this
      · rename_i l hl
        exact hf _ (mem_allLooped.2 ⟨n, l, dget_mem hl, this⟩)
      · simp at this
  have hname : ∀ t, lower t ∈ b.keys → dget b.trueCase (lower t) = some t → WritableName t := by
    intro t hk htc
    obtain ⟨t', h1, h2⟩ := hb.names _ hk
    rw [htc] at h1
    simp only [Option.some.injEq] at h1
    rw [h1]; exact h2
  have hlow : ∀ t, lower t ∈ b.keys → b.lookup (lower t) = b.lookup t := fun t h =>
    lookup_lower (ne_saves hs (by rw [CaseFold.lower_lower]; exact h)) (ne_saves hs h) (CaseFold.lower_lower _)
  have hloop : ∀ t, b.loopOf (lower t) = b.loopOf t := fun t => by unfold loopOf; rw [CaseFold.lower_lower]
  cases e with
  | item t v =>
    have hk := hkey t (by simp [Entry.names])
    refine ⟨⟨hname t hk q3.2.2, ?_⟩, trivial⟩
    obtain ⟨v', h1, h2⟩ := hb.items _ hk (by rw [hloop]; exact q3.2.1)
    rw [hlow t hk, q3.1] at h1
    simp only [Option.some.injEq] at h1
    rw [h1]; exact h2
  | loop ts vs =>
    obtain ⟨p1, p2, p3⟩ := q4
    have hcol : ∀ t ∈ ts, ∃ l, b.lookup t = some (.list l) ∧ l ≠ [] ∧ ∀ v ∈ l, WritableValue st v := by
      intro t ht
      have hk := hkey t ht
      obtain ⟨l, h1, h2⟩ := hb.loops _ hk (by
        rw [hloop, (q3.1 t ht).1]
        simpa using p1)
      rw [hlow t hk] at h1
      exact ⟨l, h1, h2⟩
    have hne : vs ≠ [] := by
      rintro rfl
      cases ts with
      | nil => exact p1 rfl
      | cons t ts =>
        obtain ⟨c, h1, h2⟩ := q3.2 0 t rfl
        obtain ⟨l, h3, h4, -⟩ := hcol t (by simp)
        rw [h1] at h3
        simp only [Option.some.injEq, PyVal.list.injEq] at h3
        have := isColumn_length (m := 0) h2 (by simp) (by simp)
        exact h4 (by rw [← h3]; exact List.length_eq_zero_iff.1 this)
    refine ⟨⟨fun t ht => hname t (hkey t ht) (q3.1 t ht).2, hne, ?_⟩, p1, hne, p2⟩
    intro v hv
    obtain ⟨t, ht, l, h1, h2⟩ := p3 v hv
    obtain ⟨l', h3, -, h4⟩ := hcol t ht
    rw [h1] at h3
    simp only [Option.some.injEq, PyVal.list.injEq] at h3
    exact h4 v (by rw [← h3]; exact h2)

theorem contentRead_of {st : Style} {v : PyVal} (h : WritableValue st v) : contentRead v = asRead v := by
  cases v <;> first | rfl | exact absurd h (by simp [WritableValue])

theorem lookup_absent {b : Block} {k : Str} (h : lower k ∉ b.keys) : b.lookup k = none := by
  by_cases hk : k = saves
  · subst hk; exact lookup_saves b
  · rw [lookup_eq b k hk, dget_eq_none.2 h]; rfl

/-- Blocks with the same entries, up to the way values are read, hold the same. -/
theorem sameRead {st : Style} {b rb : Block} (hw : WF b) (hf : Full b) (hs : saves ∉ b.keys) (hw' : WF rb) (hf' : Full rb) {es : List Entry}
    (h1 : (Entry.allNames es).map lower = b.printed) (h2 : ∀ e ∈ es, EntryIn b e ∧ WritableEntry st e)
    (h3 : (Entry.allNames es).map lower = rb.printed) (h4 : ∀ e ∈ es, EntryIn rb (asReadEntry e)) : SameRead b rb := by
  have hpr : rb.printed = b.printed := by rw [← h1, ← h3]
  have hkeys : ∀ n, n ∈ rb.keys ↔ n ∈ b.keys := fun n => by rw [← printed_keys hw' hf', ← printed_keys hw hf, hpr]
  have hs' : saves ∉ rb.keys := fun h => hs ((hkeys _).1 h)
  have hfind : ∀ n ∈ b.keys, ∃ e ∈ es, ∃ t ∈ e.names, lower t = n := by
    intro n hn
    rw [← printed_keys hw hf, ← h1] at hn
    obtain ⟨t, ht, rfl⟩ := List.mem_map.1 hn
    obtain ⟨e, he, ht'⟩ := List.mem_flatMap.1 ht
    exact ⟨e, he, t, ht', rfl⟩
  have hloop : ∀ (x : Block) (k t : Str), lower k = lower t → x.loopOf k = x.loopOf t := fun x k t e => by unfold loopOf; rw [e]
  refine ⟨hpr, ?_, ?_, ?_⟩
  · intro n hn
    obtain ⟨e, he, t, ht, rfl⟩ := hfind n ((printed_keys hw hf).1 hn)
    have g1 := (h2 e he).1
    have g2 := h4 e he
    cases e with
    | item m v =>
      simp only [Entry.names, List.mem_singleton] at ht
      subst ht
      rw [g1.2.2, g2.2.2]
    | loop ts vs => rw [(g1.1 t ht).2, (g2.1 t ht).2]
  · intro k
    by_cases hk : lower k ∈ b.keys
    · obtain ⟨e, he, t, ht, htk⟩ := hfind _ hk
      have g1 := (h2 e he).1
      have gw := (h2 e he).2
      have g2 := h4 e he
      rw [lookup_lower (b := b) (ne_saves hs hk) (ne_saves hs (by rw [htk]; exact hk)) htk.symm,
        lookup_lower (b := rb) (ne_saves hs hk) (ne_saves hs (by rw [htk]; exact hk)) htk.symm]
      cases e with
      | item m v =>
        simp only [Entry.names, List.mem_singleton] at ht
        subst ht
        rw [g1.1, g2.1, Option.map_some, contentRead_of gw.2]
      | loop ts vs =>
        obtain ⟨i, hi, rfl⟩ := List.getElem_of_mem ht
        obtain ⟨c, q1, q2⟩ := g1.2 i _ (List.getElem?_eq_getElem hi)
        obtain ⟨c', q3, q4⟩ := g2.2 i _ (List.getElem?_eq_getElem hi)
        rw [q1, q3, isColumn_map asRead q2 q4]
        rfl
    · rw [lookup_absent hk, lookup_absent (fun h => hk ((hkeys _).1 h))]
      rfl
  · intro k
    by_cases hk : lower k ∈ b.keys
    · obtain ⟨e, he, t, ht, htk⟩ := hfind _ hk
      have g1 := (h2 e he).1
      have g2 := h4 e he
      rw [hloop b k t htk.symm, hloop rb k t htk.symm]
      cases e with
      | item m v =>
        simp only [Entry.names, List.mem_singleton] at ht
        subst ht
        rw [g1.2.1, g2.2.1]
      | loop ts vs => rw [(g1.1 t ht).1, (g2.1 t ht).1]
    · rw [not_looped (fun h => hk (hf _ h)), not_looped (fun h => hk ((hkeys _).1 (hf' _ h)))]

/-! ## The block in the order in which it is written -/

/-- `createOrdering` for distinct lower-case names. -/
theorem ordering_eq {b : Block} (hw : WF b) (hf : Full b) {hints : List Str} (hn : (requestedOrder hints).Nodup)
    (hlow : ∀ s ∈ requestedOrder hints, lower s = s) :
    ∃ out, b.createOrdering hints [] [] = .ok (reordered b (requestedOrder hints), out) ∧ out.Perm b.order := by
  obtain ⟨new, h1, h2, h3⟩ := orderLoop_full hw hf hn hlow
  obtain ⟨o1, o2⟩ := out_perm hw h2 h3
  refine ⟨new ++ extras b new, ?_, perm_of_nodup_mem o1 hw.orderNodup o2⟩
  unfold createOrdering
  simp only [h1]
  rfl

theorem wf_ordered {b : Block} (hw : WF b) {out : List Ref} (h : out.Perm b.order) : WF { b with order := out } :=
  ⟨hw.keysNodup, hw.keysLower, hw.caseKeys, hw.caseVal, hw.loopsNodup, hw.loopsPos, h.nodup_iff.2 hw.orderNodup,
    fun s => (h.mem_iff).trans (hw.orderName s), fun n => (h.mem_iff).trans (hw.orderLoop n), hw.looped, hw.loopLower⟩

theorem entryOf_order (b : Block) (o : List Ref) (r : Ref) : entryOf { b with order := o } r = entryOf b r := by
  cases r with
  | name n => rfl
  | loop n =>
    have h1 : ∀ l, spelled { b with order := o } l = spelled b l := by
      intro l
      induction l with
      | nil => rfl
      | cons x r ih => rw [spelled, spelled, ih]
    have h2 : ∀ l, columns { b with order := o } l = columns b l := by
      intro l
      induction l with
      | nil => rfl
      | cons x r ih => rw [columns, columns, ih]; rfl
    rw [entryOf, entryOf]
    simp only [h1, h2]

theorem docOf_order (b : Block) (o : List Ref) : ∀ rs, docOf { b with order := o } rs = docOf b rs
  | [] => rfl
  | r :: rs => by rw [docOf, docOf, entryOf_order, docOf_order b o rs]

theorem loops_reordered (b : Block) (req : List Str) (n : Nat) :
    dget (reordered b req).loops n = (dget b.loops n).map (reorder req) := by
  unfold reordered
  simp only
  induction b.loops with
  | nil => rfl
  | cons p r ih =>
    obtain ⟨a, l⟩ := p
    simp only [List.map_cons, dget]
    by_cases e : a = n
    · subst e; rw [if_pos rfl, if_pos rfl]; rfl
    · rw [if_neg e, if_neg e]; exact ih

theorem loopOf_reordered (b : Block) (req : List Str) (k : Str) : (reordered b req).loopOf k = reorder req (b.loopOf k) := by
  unfold loopOf reordered
  simp only
  induction b.loops with
  | nil => simp [reorder]
  | cons p r ih =>
    simp only [List.map_cons, List.find?_cons, mem_reorder]
    cases decide (lower k ∈ p.2) with
    | true => rfl
    | false => exact ih

theorem reorder_ne_nil {req l : List Str} : reorder req l = [] ↔ l = [] := by
  constructor
  · intro h
    cases l with
    | nil => rfl
    | cons x l =>
      have : x ∈ reorder req (x :: l) := mem_reorder.2 (by simp)
      rw [h] at this
      cases this
  · rintro rfl; simp [reorder]

theorem writable_ordered {st : Style} {b : Block} (hb : WritableBlock st b) (req : List Str) (out : List Ref) :
    WritableBlock st { reordered b req with order := out } := by
  refine ⟨hb.names, ?_, ?_, ?_, ?_⟩
  · intro n hn hl
    have : (reordered b req).loopOf n = [] := hl
    rw [loopOf_reordered, reorder_ne_nil] at this
    exact hb.items n hn this
  · intro n hn hl
    have : (reordered b req).loopOf n ≠ [] := hl
    rw [loopOf_reordered, Ne, reorder_ne_nil] at this
    exact hb.loops n hn this
  · intro n l h
    have h : dget (reordered b req).loops n = some l := h
    rw [loops_reordered] at h
    cases h' : dget b.loops n with
    | none => rw [h'] at h; cases h
    | some l' =>
      rw [h'] at h
      simp only [Option.map_some, Option.some.injEq] at h
      subst h
      obtain ⟨len, h1⟩ := hb.rect n l' h'
      exact ⟨len, fun s hs => h1 s (mem_reorder.1 hs)⟩
  · intro n l h
    have h : dget (reordered b req).loops n = some l := h
    rw [loops_reordered] at h
    cases h' : dget b.loops n with
    | none => rw [h'] at h; cases h
    | some l' =>
      rw [h'] at h
      simp only [Option.map_some, Option.some.injEq] at h
      subst h
      rw [Ne, reorder_ne_nil]
      exact hb.solid n l' h'

/-- Every representation of a text is visible. -/
theorem solid_v11 (maxOut : Int) : Solid (Style.v11 maxOut) := by
  intro s d
  obtain ⟨w, hw⟩ := C05_total (Style.v11 maxOut) s d
  refine ⟨w, hw, ?_⟩
  rcases format_cases hw with ⟨rfl, hn⟩ | ⟨rfl, -, -⟩ | ⟨rfl, -, -⟩ | ht
  · rintro rfl
    simp [needsDelimiter] at hn
  · simp
  · simp
  · obtain ⟨q, hq, -⟩ := textField_ok (Style.v11 maxOut) s
    rintro rfl
    rw [hq] at ht
    simp [semiDelim] at ht

/-! ## Reading what was written -/

theorem requested_hints (hints : List Hint) : requestedOrder (hints.map (·.dataname)) =
    hints.filterMap fun h => if h.dataname = loopMark then none else some h.dataname := by
  unfold requestedOrder
  induction hints with
  | nil => rfl
  | cons h hs ih =>
    by_cases e : h.dataname = loopMark
    · simpa [e] using ih
    · simpa [e] using ih

theorem UsableHints.nodup {hints : List Hint} (h : UsableHints hints) : (requestedOrder (hints.map (·.dataname))).Nodup := by
  rw [requested_hints]; exact h.distinct

theorem UsableHints.lower {hints : List Hint} (h : UsableHints hints) : ∀ s ∈ requestedOrder (hints.map (·.dataname)), CaseFold.lower s = s := by
  intro s hs
  obtain ⟨h1, h2⟩ := List.mem_filter.1 hs
  obtain ⟨x, hx, rfl⟩ := List.mem_map.1 h1
  exact h.lowered x hx (of_decide_eq_true h2)

theorem loopIndent_ok {hints : List Hint} (h : ∀ x ∈ hints, x.dataname = loopMark → x.namePos ≠ none) (indent : Nat) :
    ∃ li, loopIndent hints indent = .ok li := by
  unfold loopIndent
  split
  · exact ⟨_, rfl⟩
  · rename_i x xs hx
    have hall : ∀ y ∈ x :: xs, y.namePos ≠ none := by
      intro y hy
      rw [← hx] at hy
      obtain ⟨h1, h2⟩ := List.mem_filter.1 hy
      exact h y h1 (of_decide_eq_true h2)
    rw [if_neg]
    · have := hall x (by simp)
      cases hp : x.namePos with
      | none => exact absurd hp this
      | some n => exact ⟨_, rfl⟩
    · rw [List.any_eq_true]
      rintro ⟨y, hy, h1⟩
      exact hall y hy (by simpa using h1)

/-- The text of a block, after its heading and before white space, is a part of a file that is read as a block with the same contents. -/
theorem written_part {b : Block} (hr : Reachable b) {maxOut : Int} (hb : WritableBlock (Style.v11 maxOut) b) {hints : List Hint}
    (hh : UsableHints hints) {std : Option Str} (hs : FitsStandard std b) {bt : Block} (hbt : Fresh bt) (hlock : bt.overwrite = false) :
    ∃ text b' out, printSection (Style.v11 maxOut) hints b = .ok text ∧
      b.createOrdering (hints.map (·.dataname)) [] [] = .ok (b', out) ∧
      ∀ name tail2, WritableHeading name → IsGap tail2 →
        ∃ q : Part, q.name = name ∧ q.text = "data_".toList ++ name ++ "\n".toList ++ text ++ tail2 ∧ PartOk dialect11 std q ∧
          (tail2 ≠ [] → q.tail ≠ []) ∧ SameRead { b' with order := out } { q.block bt std with overwrite := true } := by
  obtain ⟨hw, hf⟩ := reachable_wf hr
  have hns : saves ∉ b.keys := reachable_nosaves hr
  obtain ⟨out, ho, hp⟩ := ordering_eq hw hf hh.nodup hh.lower
  generalize hreq : requestedOrder (hints.map (·.dataname)) = req at ho
  have hnd : req.Nodup := by rw [← hreq]; exact hh.nodup
  have hwd : WF { reordered b req with order := out } := wf_ordered (wf_reordered hw hnd) hp
  have hfd : Full { reordered b req with order := out } := full_reordered (req := req) hf
  have hsd : saves ∉ ({ reordered b req with order := out } : Block).keys := hns
  have hbd := writable_ordered hb req out
  obtain ⟨es, d1, d2, d3⟩ := writable_in hwd hfd hsd hbd
  have hdoc : docOf (reordered b req) out = some es := by rw [← docOf_order _ out]; exact d1
  have hsimple : ∀ e ∈ es, SimpleEntry e ∧ ∀ n ∈ e.names, n ≠ [] := by
    intro e he
    have hwe := (d3 e he).2.1
    have hval : ∀ v, WritableValue (Style.v11 maxOut) v → Simple v := by
      intro v hv
      cases v with
      | str s => trivial
      | num t => exact hv.1
      | _ => exact absurd hv (by simp [WritableValue])
    cases e with
    | item n v =>
      refine ⟨hval v hwe.2, ?_⟩
      intro m hm
      simp only [Entry.names, List.mem_singleton] at hm
      subst hm
      obtain ⟨t, rfl, -⟩ := hwe.1
      simp
    | loop ns vs =>
      refine ⟨fun v hv => hval v (hwe.2.2 v hv), ?_⟩
      intro m hm
      obtain ⟨t, rfl, -⟩ := hwe.1 m hm
      simp
  have htext : ∃ text, printSection (Style.v11 maxOut) hints b = .ok text := by
    unfold printSection
    rw [ho]
    simp only
    obtain ⟨s0, h0, h0'⟩ : ∃ s0, ({} : Sink).write [] { canbreak := true } = .ok s0 ∧ s0.width = 80 := ⟨_, rfl, rfl⟩
    obtain ⟨s1, h1, -⟩ := printRefs_total (solid_v11 maxOut) (loopIndent_ok hh.loopPlace 0) out es s0 hdoc hsimple (by rw [h0']; decide)
    rw [h0]
    simp only [andThen]
    rw [h1]
    exact ⟨_, rfl⟩
  obtain ⟨text, htext⟩ := htext
  refine ⟨text, reordered b req, out, htext, ho, ?_⟩
  intro name tail2 hname htail
  obtain ⟨es', ws, h1, h2, l, tail, h3, h4, h5, h6⟩ := C11_apart _ hints hh.column b _ 0 [] [] out text ho
    (fun es' h' e he => by
      rw [hdoc] at h'
      simp only [Option.some.injEq] at h'
      subst h'
      exact (hsimple e he).1) htext
  rw [hdoc] at h1
  simp only [Option.some.injEq] at h1
  subst h1
  have hdist : Entry.Distinct es := by
    unfold Entry.Distinct
    rw [d2]
    exact nodup_printed hwd
  have hok : EntriesOk std (es.map asReadEntry) := entriesOk_of hdist (fun e he => (d3 e he).2.1) (fun e he => (d3 e he).2.2) (by
    intro hc n hn
    refine hs hc _ ?_
    show lower n ∈ ({ reordered b req with order := out } : Block).keys
    rw [← printed_keys hwd hfd, ← d2]
    exact List.mem_map_of_mem hn)
  have hreads := reads_doc h2 (fun e he => (d3 e he).2.1)
  -- the block that is read
  obtain ⟨r1, r2, r3, r4, r5⟩ := read_in (fresh_start hbt std) (locked_start hlock std) hok
  have hsame : SameRead { reordered b req with order := out } { (es.map asReadEntry).foldl addEntry (startBlock bt std) with overwrite := true } := by
    refine sameRead (st := Style.v11 maxOut) hwd hfd hsd ?_ r2 d2 (fun e he => ⟨(d3 e he).1, (d3 e he).2.1⟩) ?_ ?_
    · exact ⟨r1.1, r1.2, r1.3, r1.4, r1.5, r1.6, r1.7, r1.8, r1.9, r1.10, r1.11⟩
    · rw [← allNames_asRead]; exact r3
    · intro e he
      have h := r5 _ (List.mem_map_of_mem he)
      cases e with
      | item n v => exact h
      | loop ns vs => exact h
  have hhead := hname.word
  cases l with
  | nil =>
    refine ⟨⟨name, es.map asReadEntry, [], '\n' :: tail ++ tail2⟩, rfl, ?_, ⟨hhead, hok, by simp [Spaced], by simpa [h3] using hreads, ?_⟩, by simp, hsame⟩
    · rw [Part.text, h4]
      simp [flat]
    · exact isGap_append.2 ⟨isGap_append (a := ['\n']).2 ⟨by simp [IsGap], h5⟩, htail⟩
  | cons p l =>
    refine ⟨⟨name, es.map asReadEntry, ('\n' :: p.1, p.2) :: l, tail ++ tail2⟩, rfl, ?_, ⟨hhead, hok, ?_, by simpa [h3] using hreads, ?_⟩, by simp +contextual, hsame⟩
    · rw [Part.text, h4]
      simp [flat]
    · intro x hx
      rcases List.mem_cons.1 hx with rfl | hx
      · refine ⟨?_, .inl (by simp)⟩
        intro c hc
        rcases List.mem_cons.1 hc with rfl | hc
        · exact .inr rfl
        · exact (h6 p (by simp)).1 c hc
      · exact h6 x (by simp [hx])
    · exact isGap_append.2 ⟨h5, htail⟩

theorem dget_unlock (c : Coll) (k : Str) (hk : k ∈ c.lowerKeys) :
    dget (unlock c).dict k = (dget c.dict k).map fun b => { b with overwrite := true } := by
  unfold unlock
  simp only
  induction c.dict with
  | nil => rfl
  | cons p r ih =>
    obtain ⟨a, b⟩ := p
    by_cases e : a = k
    · subst e
      simp only [List.map_cons, if_pos hk, dget]
      simp
    · simp only [List.map_cons]
      have : dget ((a, b) :: r) k = dget r k := by rw [dget, if_neg e]
      rw [this, ← ih]
      split <;> rw [dget, if_neg e]

theorem dget_pair {α β : Type} [DecidableEq α] {l : List (α × β)} (hn : (l.map (·.1)).Nodup) {k : α} {v : β} (h : (k, v) ∈ l) : dget l k = some v := by
  induction l with
  | nil => cases h
  | cons p r ih =>
    simp only [List.map_cons, List.nodup_cons] at hn
    rcases List.mem_cons.1 h with rfl | h'
    · simp [dget]
    · have : p.1 ≠ k := fun e => hn.1 (List.mem_map.2 ⟨(k, v), h', e.symm⟩)
      obtain ⟨a, b⟩ := p
      rw [dget, if_neg this]
      exact ih hn.2 h'

/-- What can be looked up after reading parts into an empty collection. -/
theorem joined_get {std : Option Str} {bs : List (Str × Block)} (hn : (bs.map fun p => lower p.1).Nodup) {name : Str} {b : Block} (h : (name, b) ∈ bs) :
    (unlock (joined { standard := std } bs)).getItem name = .ok { b with overwrite := true } ∧
      Coll.printedName (unlock (joined { standard := std } bs)) (lower name) = name := by
  have hk : lower name ∈ (joined { standard := std } bs).lowerKeys := by
    show lower name ∈ [] ++ bs.map fun p => lower p.1
    rw [List.nil_append]
    exact List.mem_map.2 ⟨_, h, rfl⟩
  have h1 : dget (joined { standard := std } bs).dict (lower name) = some b := by
    show dget ([] ++ bs.map fun p => (lower p.1, p.2)) (lower name) = some b
    rw [List.nil_append]
    refine dget_pair ?_ (List.mem_map.2 ⟨_, h, rfl⟩)
    simpa [Function.comp_def] using hn
  have h2 : dget (unlock (joined { standard := std } bs)).childTable (lower name) = some ⟨name, none⟩ := by
    show dget ([] ++ bs.map fun p => (lower p.1, (⟨p.1, none⟩ : PC))) (lower name) = _
    rw [List.nil_append]
    refine dget_pair ?_ (List.mem_map.2 ⟨_, h, rfl⟩)
    simpa [Function.comp_def] using hn
  have h3 := dget_unlock _ _ hk
  rw [h1, Option.map_some] at h3
  refine ⟨?_, ?_⟩
  · have hk' : lower name ∈ (unlock (joined { standard := std } bs)).lowerKeys := hk
    rw [Coll.getItem, if_pos hk', h3]
  · rw [Coll.printedName, Coll.entry, h3, h2]

/-- **C10** A block of texts, numbers and loops, written with any usable formatting hints under a heading, is read by the CIF 1.1 reader as
a file of one block which holds the same names in the order and spelling in which they were written, the same values (a number as its
text) and the same loops. The hypotheses on the block are those of `WritableBlock`: every value is one that is read back by itself (C04,
C05), loops are rectangular and have names and rows. -/
theorem C10_roundtrip (b : Block) (hr : Reachable b) (maxOut : Int) (hb : WritableBlock (Style.v11 maxOut) b) (hints : List Hint)
    (hh : UsableHints hints) (std : Option Str) (hs : FitsStandard std b) (bt : Block) (hbt : Fresh bt) (hlock : bt.overwrite = false)
    (hmax : bt.maxName = none) (name : Str) (hn : WritableHeading name) :
    ∃ text b' out c rb, printSection (Style.v11 maxOut) hints b = .ok text ∧
      b.createOrdering (hints.map (·.dataname)) [] [] = .ok (b', out) ∧
      Reader.input gram11 bt { standard := std } ("\ndata_".toList ++ name ++ "\n".toList ++ text) = (c, .ok ()) ∧
      c.keys = [lower name] ∧ c.getItem name = .ok rb ∧ SameRead { b' with order := out } rb := by
  obtain ⟨text, b', out, h1, h2, h3⟩ := written_part hr hb hh hs hbt hlock
  obtain ⟨q, q1, q2, q3, -, q5⟩ := h3 name [] hn (by simp [IsGap])
  have hin := input_read (D := dialect11) hbt hlock hmax { standard := std } ⟨rfl, rfl⟩ (q := q) (qs := []) (by simpa using q3) trivial (by simp) (by simp) ['\n']
    (fun R hR s n w rest h => dialect11.gap hR (by simp) h ['\n'] (by simp))
  have htext : ['\n'] ++ partsText [q] = "\ndata_".toList ++ name ++ "\n".toList ++ text := by
    rw [partsText, partsText, q2]; simp
  rw [htext] at hin
  refine ⟨text, b', out, _, _, h1, h2, hin, ?_, ?_, q5⟩
  · show [] ++ List.map _ _ = _
    simp [q1]
  · rw [← q1]
    exact (joined_get (by simp) (by simp)).1

/-- **C10** Without hints the block is written in its own order, so that the block that is read is the same as the block written. -/
theorem C10_roundtrip_plain (b : Block) (hr : Reachable b) (maxOut : Int) (hb : WritableBlock (Style.v11 maxOut) b)
    (std : Option Str) (hs : FitsStandard std b) (bt : Block) (hbt : Fresh bt) (hlock : bt.overwrite = false)
    (hmax : bt.maxName = none) (name : Str) (hn : WritableHeading name) :
    ∃ text c rb, printSection (Style.v11 maxOut) [] b = .ok text ∧
      Reader.input gram11 bt { standard := std } ("\ndata_".toList ++ name ++ "\n".toList ++ text) = (c, .ok ()) ∧
      c.keys = [lower name] ∧ c.getItem name = .ok rb ∧ SameRead b rb := by
  obtain ⟨text, b', out, c, rb, h1, h2, h3, h4, h5, h6⟩ := C10_roundtrip b hr maxOut hb [] ⟨by simp, by simp, by simp, by simp⟩ std hs bt hbt hlock hmax name hn
  refine ⟨text, c, rb, h1, h3, h4, h5, ?_⟩
  have e : b.createOrdering [] [] [] = .ok (b, b.order) := by
    unfold createOrdering
    simp only [requestedOrder, List.filter_nil, orderLoop, extras]
    rw [List.filter_eq_self.2 (by simp)]
    rfl
  have : Except.ok (b', out) = (Except.ok (b, b.order) : Except PyErr (Block × List Ref)) := by rw [← h2, ← e]; rfl
  simp only [Except.ok.injEq, Prod.mk.injEq] at this
  rw [this.1, this.2] at h6
  exact h6

/-! ## Whole files -/

theorem flatE_append {α β : Type} (f : α → Except PyErr (List β)) : ∀ (l m : List α) (a c : List β),
    Coll.flatE f l = .ok a → Coll.flatE f m = .ok c → Coll.flatE f (l ++ m) = .ok (a ++ c)
  | [], m, a, c, h1, h2 => by
    simp only [Coll.flatE, Except.ok.injEq] at h1
    subst h1
    exact h2
  | x :: l, m, a, c, h1, h2 => by
    rw [Coll.flatE] at h1
    split at h1
    · cases h1
    · rename_i y hy
      split at h1
      · cases h1
      · rename_i z hz
        simp only [Except.ok.injEq] at h1
        subst h1
        rw [List.cons_append, Coll.flatE, hy]
        simp only
        rw [flatE_append f l m z c hz h2, List.append_assoc]

/-- Blocks written one after the other are parts of a file. -/
theorem written_parts {c : Coll} {maxOut : Int} {hints : List Hint} (hh : UsableHints hints) {std : Option Str} {bt : Block} (hbt : Fresh bt)
    (hlock : bt.overwrite = false) : ∀ (ks : List Str), ks ≠ [] →
      (∀ k ∈ ks, WritableHeading (Coll.printedName c k) ∧ ∃ b, c.getItem k = .ok b ∧ Reachable b ∧ WritableBlock (Style.v11 maxOut) b ∧ FitsStandard std b) →
      ∃ qs : List Part, Coll.flatE (WriteText.pieceText (Style.v11 maxOut) hints c) (ks.flatMap fun k => [.data (Coll.printedName c k), .body k]) =
          .ok ('\n' :: partsText qs) ∧ (∀ q ∈ qs, PartOk dialect11 std q) ∧ Apart qs ∧ qs.map (·.name) = ks.map (Coll.printedName c) ∧
        ∀ k ∈ ks, ∃ q ∈ qs, q.name = Coll.printedName c k ∧ ∃ b b' out, c.getItem k = .ok b ∧
          b.createOrdering (hints.map (·.dataname)) [] [] = .ok (b', out) ∧ SameRead { b' with order := out } { q.block bt std with overwrite := true }
  | [], h, _ => (h rfl).elim
  | k :: ks, _, hk => by
    obtain ⟨hn, b, g1, g2, g3, g4⟩ := hk k (by simp)
    obtain ⟨text, b', out, h1, h2, h3⟩ := written_part g2 g3 hh g4 hbt hlock
    have hone : Coll.flatE (WriteText.pieceText (Style.v11 maxOut) hints c) [.data (Coll.printedName c k), .body k] =
        .ok ("\ndata_".toList ++ Coll.printedName c k ++ "\n".toList ++ text) := by
      simp only [Coll.flatE, WriteText.pieceText, g1, h1]
      simp
    by_cases he : ks = []
    · subst he
      obtain ⟨q, q1, q2, q3, -, q5⟩ := h3 (Coll.printedName c k) [] hn (by simp [IsGap])
      refine ⟨[q], ?_, by simpa using q3, trivial, by simp [q1], ?_⟩
      · rw [List.flatMap_cons, List.flatMap_nil, List.append_nil, hone, partsText, partsText, q2]
        simp
      · intro x hx
        simp only [List.mem_singleton] at hx
        subst hx
        exact ⟨q, by simp, q1, b, b', out, g1, h2, q5⟩
    · obtain ⟨qs, i1, i2, i3, i4, i5⟩ := written_parts hh hbt hlock ks he fun x hx => hk x (by simp [hx])
      obtain ⟨q, q1, q2, q3, q4, q5⟩ := h3 (Coll.printedName c k) ['\n'] hn (by simp [IsGap])
      refine ⟨q :: qs, ?_, ?_, ?_, by simp [q1, i4], ?_⟩
      · rw [List.flatMap_cons, flatE_append _ _ _ _ _ hone i1, partsText, q2]
        simp
      · intro x hx
        rcases List.mem_cons.1 hx with rfl | hx
        · exact q3
        · exact i2 x hx
      · cases qs with
        | nil => trivial
        | cons r rs => exact ⟨q4 (by simp), i3⟩
      · intro x hx
        rcases List.mem_cons.1 hx with rfl | hx
        · exact ⟨q, by simp, q1, b, b', out, g1, h2, q5⟩
        · obtain ⟨q', m1, m2⟩ := i5 x hx
          exact ⟨q', by simp [m1], m2⟩

/-- **C63** A file of data blocks without save frames, written with any header of comments and any usable hints, is read back by the CIF 1.1
reader: the same blocks in the same order under the same names, and each of them with the same contents (as in C10). -/
theorem C63_file (c : Coll) (hc : Coll.Reachable c) (hne : c.lowerKeys ≠ []) (hflat : ∀ k, Coll.parentOf c k = none)
    (hdic : c.standard ≠ some "Dic".toList) (maxOut : Int) (std : Option Str)
    (hname : ∀ k ∈ c.lowerKeys, WritableHeading (Coll.printedName c k) ∧ lower (Coll.printedName c k) = k)
    (hb : ∀ k b, c.getItem k = .ok b → Reachable b ∧ WritableBlock (Style.v11 maxOut) b ∧ FitsStandard std b)
    (hints : List Hint) (hh : UsableHints hints) (header : Str) (hhead : IsHeader header) (bt : Block) (hbt : Fresh bt)
    (hlock : bt.overwrite = false) (hmax : bt.maxName = none) :
    ∃ text c', WriteText.writeOut (Style.v11 maxOut) hints header c = .ok text ∧
      Reader.input gram11 bt { standard := std } text = (c', .ok ()) ∧ c'.keys = c.inputOrder ∧
      ∀ k ∈ c.lowerKeys, Coll.printedName c' k = Coll.printedName c k ∧
        ∃ b b' out rb, c.getItem k = .ok b ∧ b.createOrdering (hints.map (·.dataname)) [] [] = .ok (b', out) ∧
          c'.getItem k = .ok rb ∧ SameRead { b' with order := out } rb := by
  have hcons := Coll.reachable_consistent hc
  have hord : c.inputOrder ≠ [] := by
    intro h
    cases hl : c.lowerKeys with
    | nil => exact hne hl
    | cons k ks =>
      have := (hcons.mem_order k).2 (by rw [hl]; simp)
      rw [h] at this
      cases this
  have hget : ∀ k ∈ c.lowerKeys, ∃ b, c.getItem k = .ok b := by
    intro k hk
    obtain ⟨b, hb⟩ := dget_isSome.2 ((hcons.mem_dict k).2 hk)
    exact ⟨b, by rw [Coll.getItem, hcons.lower_keys k hk, if_pos hk, hb]⟩
  obtain ⟨qs, h1, h2, h3, h4, h5⟩ := written_parts (c := c) (maxOut := maxOut) (std := std) hh hbt hlock c.inputOrder hord fun k hk => by
    have hk := (hcons.mem_order k).1 hk
    obtain ⟨b, hb'⟩ := hget k hk
    exact ⟨(hname k hk).1, b, hb', hb k b hb'⟩
  have hpieces : c.writeOut false = .ok (c.inputOrder.flatMap fun k => [.data (Coll.printedName c k), .body k]) := by
    rw [(Coll.C37_flat_complete hc).1]
    have e1 : Coll.topsOf c c.inputOrder = c.inputOrder := by
      rw [Coll.topsOf, List.filter_eq_self]
      intro k _
      simp [hflat k]
    have e2 : ∀ t, Coll.framesOf c t c.inputOrder = [] := by
      intro t
      rw [Coll.framesOf, List.filter_eq_nil_iff]
      intro x _
      have : ¬ Coll.Under c t x := by
        intro hu
        cases hu with
        | child h => rw [hflat] at h; cases h
        | deeper _ h => rw [hflat] at h; cases h
      simp [this]
    rw [Coll.flatFile, e1]
    congr 2
    funext k
    rw [e2, Coll.dataBlock, if_neg hdic]
    rfl
  obtain ⟨lines, rfl, hlines⟩ := hhead
  refine ⟨lines.flatMap (· ++ ['\n']) ++ ('\n' :: partsText qs), ?_⟩
  cases qs with
  | nil =>
    exfalso
    cases hi : c.inputOrder with
    | nil => exact hord hi
    | cons a l => rw [hi] at h4; simp at h4
  | cons q qs =>
    have hkeys : (q :: qs).map (fun q => lower q.name) = c.inputOrder := by
      have : (q :: qs).map (fun q => lower q.name) = ((q :: qs).map (·.name)).map lower := by simp
      rw [this, h4, List.map_map]
      conv => rhs; rw [← List.map_id c.inputOrder]
      apply List.map_congr_left
      intro k hk
      exact (hname k ((hcons.mem_order k).1 hk)).2
    have hin := input_read (D := dialect11) hbt hlock hmax { standard := std } ⟨rfl, rfl⟩ (q := q) (qs := qs) h2 h3 (by rw [hkeys]; exact hcons.nd_order) (by simp)
      (lines.flatMap (· ++ ['\n']) ++ ['\n'])
      (fun R hR s n w rest h => by
        rw [List.append_assoc]
        refine (lexes_header hR ?_ ?_ lines hlines).1
        · simp
        · exact lexes_nl hR (by simp) h)
    rw [List.append_assoc] at hin
    refine ⟨_, by rw [WriteText.writeOut, hpieces]; simp only [h1], hin, ?_, ?_⟩
    · show [] ++ List.map _ _ = _
      rw [List.map_map, List.nil_append]
      exact hkeys
    · intro k hk
      obtain ⟨q', m1, m2, b, b', out, m3, m4, m5⟩ := h5 k ((hcons.mem_order k).2 hk)
      have hlk := (hname k hk).2
      have := joined_get (std := std) (bs := (q :: qs).map fun q => (q.name, q.block bt std)) (name := q'.name) (b := q'.block bt std)
        (by
          rw [List.map_map]
          have : (q :: qs).map ((fun p : Str × Block => lower p.1) ∘ fun q => (q.name, q.block bt std)) = c.inputOrder := hkeys
          rw [this]; exact hcons.nd_order)
        (List.mem_map.2 ⟨q', m1, rfl⟩)
      rw [m2, hlk] at this
      refine ⟨this.2, b, b', out, _, m3, m4, ?_, m5⟩
      have h' := this.1
      rw [Coll.getItem, hlk] at h'
      rw [Coll.getItem, hcons.lower_keys k hk]
      exact h'

end Verif.RoundTrip
