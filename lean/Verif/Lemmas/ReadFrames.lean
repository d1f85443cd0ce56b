import Verif.Lemmas.ReadFile
import Verif.Lemmas.CollectionMerge
/-! # Reading save frames -/
set_option linter.unusedSectionVars false
namespace Verif.Lex
open Rx Scanner Reader Print Block
variable [CaseFold] {D : Dialect}

/-- The parser stands before the text, whether or not it has looked at the next token. -/
def At (D : Dialect) (p : PState) (text : Str) : Prop := ∀ n w rest, Ahead D text n w rest → Next D p n w rest

theorem at_ready {p : PState} {text : Str} (h : Ready p text) : At D p text := fun _ _ _ ha => next_ready h ha

theorem at_peeked {p : PState} {R : List Tk} {n : Tk} {w rest text : Str} (hp : Peeked p R n w rest) (hs : itemFollow ⊆ R) (h : Ahead D text n w rest) :
    At D p text := by
  intro n' w' rest' ha
  obtain ⟨rfl, rfl, rfl⟩ := (h itemFollow D.follow (fun _ h => h)).unique (ha itemFollow D.follow (fun _ h => h))
  exact next_peeked hp hs

/-- Tokens at which a run of entries ends. -/
def Stopper (n : Tk) : Prop := n ∈ itemFollow ∧ n ≠ .loop ∧ n ≠ .dataName

/-- Entries are added to a block that is being filled. -/
theorem seq_doc {b : Block} (hb : Filling b) {text : Str} (htext : Stops text) {n0 : Tk} {w0 rest0 : Str} (hn : Stopper n0) (ha : Ahead D text n0 w0 rest0)
    {e : Entry} {es : List Entry} (hd : Entry.Distinct (e :: es)) (hnew : ∀ n ∈ Entry.allNames (e :: es), lower n ∉ b.keys)
    (hok : ∀ x ∈ e :: es, NamesOk x ∧ x.Plain ∧ x.NoEmptyEnd ∧ x.Filled) {l : List (Str × Str)} (hsp : Spaced l) (hr : DocReads D (e :: es) (l.map (·.2)))
    {f : Nat} (hf : (flat l).length < f) {p : PState} (hp : At D p (flat l ++ text)) :
    ∃ t p1 R1 w rest p', peek D.g.lx itemFollow p = .ok (t, p1) ∧ (t = .loop ∨ t = .dataName) ∧ Peeked p1 R1 t w rest ∧ itemFollow ⊆ R1 ∧
      dataSeq D.g f b p1 = .ok ((e :: es).foldl addEntry b, p') ∧ At D p' text := by
  obtain ⟨hn0, hne1, hne2⟩ := hn
  obtain ⟨n, w, rest, -, hah, -⟩ := doc_ahead htext hn0 ha hsp hr
  have hnext := hp _ _ _ hah
  obtain ⟨R, p', hsays, hR, hpk⟩ := doc_says htext hn0 hne1 hne2 ha (e :: es) l (f + 1) p n w rest hsp hr (by omega) hah hnext
  cases hsays with
  | more _ t _ _ _ p1 p2 _ h1 h2 h3 h4 =>
    obtain ⟨R1, p1', hR1, h5, h6⟩ := hnext
    rw [h1] at h5
    simp only [Except.ok.injEq, Prod.mk.injEq] at h5
    obtain ⟨rfl, rfl⟩ := h5
    refine ⟨t, p1, R1, w, rest, p', h1, h2, h6, hR1, ?_, at_peeked hpk hR ha⟩
    have h7 := (storeEntries_eq (e :: es) hb hd hnew hok).1
    rw [storeEntries] at h7
    obtain ⟨b1, r, hb1⟩ : ∃ b1 r, storeEntry b e = (b1, r) := ⟨_, _, rfl⟩
    rw [hb1] at h7
    cases r with
    | error x => simp at h7
    | ok u =>
      simp only at h7
      have hdat : datum D.g f b p1 = .ok (b1, p2) := (datum_iff _ _ _ _ _ _).2 ⟨e, h3, hb1⟩
      have hmore := (moreData_iff D.g f b1 p2 _ p').2 ⟨es, h4, h7⟩
      rw [dataSeq, hdat]
      exact hmore

/-! ## A save frame -/

/-- The empty block into which a save frame is read. -/
def frameStart (D : Dialect) (bt : Block) : Block := { bt with maxName := some 75, unicode := !D.g.byName }

theorem fresh_frame {bt : Block} (h : Fresh bt) : Fresh (frameStart D bt) := h

/-- The collection made for a save frame. -/
def frameColl (D : Dialect) (n : Str) (b : Block) : Coll := { single (some "CIF".toList) n b with unicode := !D.g.byName }

theorem newBlock_frame {bt : Block} (hb : Fresh bt) {n : Str} (hn : HeadingWord D n) :
    ({ unicode := !D.g.byName } : Coll).newBlock n bt = (frameColl D n (frameStart D bt), .ok (lower n)) := by
  have hp : ({ unicode := !D.g.byName } : Coll).prepare bt = ({ bt with maxName := some 75 }, .ok ()) := by
    unfold Coll.prepare
    rw [if_pos rfl]
    unfold setMaxNameLength
    have : (({ bt with maxName := some 75 } : Block).keys).any (fun k => decide (k.length > 75)) = false := by
      simp [keys, hb.1, dkeys]
    simp [this]
  unfold Coll.newBlock
  rw [hp]
  simp only
  rw [if_neg (by have := hn.2.2; omega)]
  simp only [if_true, fixName_heading hn, List.not_mem_nil, if_false]
  simp only [Coll.addBlock, List.not_mem_nil, if_false, List.nil_append, dset]
  rfl

theorem saves_ne (name : Str) : ("save_".toList ++ name) ≠ [] := by simp

/-- The end of a save frame. -/
theorem ahead_end_frame {g rest : Str} (hg : IsGap g) (hr : Stops rest) : Ahead D (g ++ ("save_".toList ++ rest)) .saveEnd "save_".toList rest := by
  intro R hR hs
  exact D.gap hR (by simp) (D.saveEnd hR (hs (by decide)) hr) g hg

theorem frameLoop_end {bt : Block} {m : Making} {p : PState} {g rest : Str} (hg : IsGap g) (hr : Stops rest) (hp : At D p (g ++ ("save_".toList ++ rest)))
    (fuel : Nat) : ∃ p1 R, frameLoop D.g bt (fuel + 1) m p = .ok (m, p1) ∧ Peeked p1 R .saveEnd "save_".toList rest ∧ itemFollow ⊆ R := by
  obtain ⟨R, p1, h1, h2, h3⟩ := hp _ _ _ (ahead_end_frame hg hr)
  refine ⟨p1, R, ?_, h3, h1⟩
  rw [frameLoop, h2]
  simp only
  rw [if_neg (by decide), if_neg (by simp), D.lx, afterStar_peeked h3 (by decide)]

/-- The block read from a save frame. -/
def Part.frame (D : Dialect) (bt : Block) (q : Part) : Block := q.es.foldl addEntry (frameStart D bt)

theorem new_fresh {b : Block} (h : Fresh b) (es : List Entry) : ∀ n ∈ Entry.allNames es, lower n ∉ b.keys := by
  intro n _
  simp [keys, h.1, dkeys]

/-- What a save frame must be like. -/
structure FrameOk (D : Dialect) (q : Part) : Prop where
  part : PartOk D none q
  apart : q.tail ≠ []

theorem stops_gap_ne {g : Str} (hg : IsGap g) (hne : g ≠ []) (rest : Str) : Stops (g ++ rest) := by
  cases g with
  | nil => exact absurd rfl hne
  | cons c t =>
    intro d s e
    simp only [List.cons_append, List.cons.injEq] at e
    rw [← e.1]
    exact hg c (by simp)

/-- A save frame is read. -/
theorem frame_read {bt : Block} (hb : Fresh bt) (hlock : bt.overwrite = false) {q : Part} (hq : FrameOk D q) {rest : Str} (hrest : Stops rest)
    {fuel : Nat} (hf : (flat q.words).length + 3 ≤ fuel) {p : PState} {R : List Tk} (hR : .saveHeading ∈ R)
    (hp : Peeked p R .saveHeading ("save_".toList ++ q.name) (flat q.words ++ (q.tail ++ ("save_".toList ++ rest)))) :
    ∃ p', saveFrame D.g bt fuel p = .ok (frameColl D q.name (q.frame D bt), p') ∧ Ready p' rest := by
  have hready := ready_of_peeked hp (by simp)
  have htake : take (Pat.lexer D.tb) .saveHeading p = .ok (_, _) := take_peeked hp hR
  have hdrop : ("save_".toList ++ q.name).drop 5 = q.name := rfl
  obtain ⟨f, rfl⟩ : ∃ f, fuel = f + 1 + 1 + 1 := ⟨fuel - 3, by omega⟩
  have hst : Stops (q.tail ++ ("save_".toList ++ rest)) := stops_gap_ne hq.part.tail hq.apart _
  have hloop : ∃ p2 R2, frameLoop D.g bt (f + 1 + 1) ⟨frameColl D q.name (frameStart D bt), q.name, lower q.name⟩ { p with pos := p.pos + 1 } =
      .ok (⟨frameColl D q.name (q.frame D bt), q.name, lower q.name⟩, p2) ∧ Peeked p2 R2 .saveEnd "save_".toList rest ∧ itemFollow ⊆ R2 := by
    unfold Part.frame
    cases hes : q.es with
    | nil =>
      have hr := hq.part.reads
      rw [hes] at hr
      have hw := docReads_nil hr
      rw [hw] at hready
      exact frameLoop_end hq.part.tail hrest (at_ready (by simpa [flat] using hready)) (f + 1)
    | cons e es =>
      have hpart := hq.part
      have hreads := hpart.reads
      rw [hes] at hreads
      obtain ⟨t, p1, R1, w, rest1, p', s1, s2, s3, s4, s5, s6⟩ := seq_doc (filling_fresh (fresh_frame (D := D) hb) hlock) hst
        (n0 := .saveEnd) ⟨by decide, by decide, by decide⟩ (ahead_end_frame hpart.tail hrest) (by rw [← hes]; exact hpart.es.distinct)
        (new_fresh (fresh_frame (D := D) hb) _) (by rw [← hes]; exact hpart.es.ok) hpart.spaced hreads (f := f + 1) (by omega) (at_ready hready)
      obtain ⟨p2, R2, k1, k2, k3⟩ := frameLoop_end (bt := bt) (m := ⟨frameColl D q.name ((e :: es).foldl addEntry (frameStart D bt)), q.name, lower q.name⟩)
        hpart.tail hrest s6 f
      refine ⟨p2, R2, ?_, k2, k3⟩
      rw [← k1, frameLoop, s1]
      simp only
      rw [if_pos s2]
      have hpk : (if D.g.nested then peek D.g.lx [.loop, .dataName, .saveHeading] p1 else .ok (t, p1)) = .ok (t, p1) := by
        split
        · rw [D.lx]
          exact peek_peeked s3 (.inr (fun x hx => s4 ((by decide : [Tk.loop, .dataName, .saveHeading] ⊆ itemFollow) hx)))
        · rfl
      rw [hpk]
      simp only
      rw [dataInto]
      simp only
      have hget : (frameColl D q.name (frameStart D bt)).getItem q.name = .ok (frameStart D bt) := by
        simp [Coll.getItem, frameColl, single, dget]
      rw [hget]
      simp only
      rw [s5]
      simp only
      have hm : ({ frameColl D q.name (frameStart D bt) with
          dict := dset (frameColl D q.name (frameStart D bt)).dict (lower q.name) ((e :: es).foldl addEntry (frameStart D bt)) } : Coll) =
          frameColl D q.name ((e :: es).foldl addEntry (frameStart D bt)) := by
        simp [frameColl, single, dset]
      rw [hm]
  obtain ⟨p2, R2, h1, h2, h3⟩ := hloop
  refine ⟨{ p2 with pos := p2.pos + 1 }, ?_, ready_of_peeked h2 (by decide)⟩
  rw [saveFrame, D.lx, htake]
  simp only
  rw [hdrop, newBlock_frame hb hq.part.name]
  simp only
  rw [h1]
  simp only
  rw [take_peeked h2 (h3 (by decide))]

/-! ## A data block with save frames -/

/-- A collection with one data block and its save frames. -/
def family (std : Option Str) (name : Str) (b : Block) (fs : List (Str × Block)) : Coll :=
  { dict := (lower name, b) :: fs.map fun f => (lower f.1, f.2)
    lowerKeys := lower name :: fs.map fun f => lower f.1
    childTable := (lower name, ⟨name, none⟩) :: fs.map fun f => (lower f.1, ⟨f.1, some (lower name)⟩)
    visible := lower name :: fs.map fun f => lower f.1
    inputOrder := lower name :: fs.map fun f => lower f.1
    standard := std
    unicode := true }

theorem family_nil (std : Option Str) (name : Str) (b : Block) : family std name b [] = single std name b := rfl

theorem getItem_family (std : Option Str) (name : Str) (b : Block) (fs : List (Str × Block)) {k : Str} (h : lower k = lower name) :
    (family std name b fs).getItem k = .ok b := by
  simp [Coll.getItem, family, dget, h]

theorem dset_family (std : Option Str) (name : Str) (b b' : Block) (fs : List (Str × Block)) :
    ({ family std name b fs with dict := dset (family std name b fs).dict (lower name) b' } : Coll) = family std name b' fs := by
  simp [family, dset]

theorem dset_append {α β : Type} [DecidableEq α] {d : Dict α β} {k : α} {v v' : β} (h : k ∉ dkeys d) : dset (d ++ [(k, v)]) k v' = d ++ [(k, v')] := by
  induction d with
  | nil => simp [dset]
  | cons p r ih =>
    simp only [dkeys, List.map_cons, List.mem_cons, not_or] at h
    rw [List.cons_append, dset, if_neg (fun e => h.1 e.symm), ih h.2]
    rfl

/-- A save frame is put into the collection of its data block. -/
theorem mergeFrame_family {std : Option Str} {name : Str} {b : Block} {fs : List (Str × Block)} {f : Str} {fb : Block} (h1 : lower f ≠ lower name)
    (h2 : ∀ x ∈ fs, lower x.1 ≠ lower f) :
    mergeFrame ⟨family std name b fs, name, lower name⟩ (frameColl D f fb) = .ok ⟨family std name b (fs ++ [(f, fb)]), name, lower name⟩ := by
  have hk : lower name ∉ (frameColl D f fb).lowerKeys := by
    simp only [frameColl, single, List.mem_singleton]
    exact fun e => h1 e.symm
  have hnew : lower f ∉ (family std name b fs).lowerKeys := by
    simp only [family, List.mem_cons, List.mem_map, not_or, not_exists, not_and]
    exact ⟨h1, h2⟩
  have hdups : ((family std name b fs).lowerKeys.filter fun k => decide (k ∈ (frameColl D f fb).lowerKeys)) = [] := by
    rw [List.filter_eq_nil_iff]
    intro k hk
    simp only [frameColl, single, List.mem_singleton, decide_eq_true_eq]
    rintro rfl
    exact hnew hk
  unfold mergeFrame
  rw [if_neg (fun h => hk h.2)]
  unfold Coll.mergeFast
  simp only [hdups, ne_eq, not_true, false_and, if_false]
  have hkey : parentKey ⟨family std name b fs, name, lower name⟩ (frameColl D f fb) = lower name := by
    unfold parentKey
    simp only [hdups, Coll.mergeDups, ite_self]
  rw [hkey]
  congr 2
  have hd1 : lower f ∉ dkeys (family std name b fs).dict := by
    simp only [family, dkeys, List.map_cons, List.map_map, List.mem_cons, List.mem_map, not_or, not_exists, not_and]
    exact ⟨h1, h2⟩
  have hd2 : lower f ∉ dkeys (family std name b fs).childTable := by
    simp only [family, dkeys, List.map_cons, List.map_map, List.mem_cons, List.mem_map, not_or, not_exists, not_and]
    exact ⟨h1, h2⟩
  have hlow : lower (lower name) = lower name := CaseFold.lower_lower _
  unfold Coll.mergeJoin
  have e1 : (frameColl D f fb).dict = [(lower f, fb)] := rfl
  have e2 : (frameColl D f fb).childTable = [(lower f, ⟨f, none⟩)] := rfl
  have e3 : (frameColl D f fb).lowerKeys = [lower f] := rfl
  have e4 : (frameColl D f fb).inputOrder = [lower f] := rfl
  simp only [e1, e2, e3, e4, dupdate, List.foldl_cons, List.foldl_nil, List.filter_cons, List.filter_nil, decide_true, if_true, List.map_cons, List.map_nil,
    hlow, decide_eq_true_eq, if_pos hnew]
  rw [dset_new hd1, dset_new hd2, dset_append hd2]
  simp [family]

/-- Save frames with the white space before them. -/
def framesText : List (Str × Part) → Str
  | [] => []
  | f :: fs => f.1 ++ ("save_".toList ++ f.2.name ++ (flat f.2.words ++ (f.2.tail ++ ("save_".toList ++ framesText fs))))

/-- What save frames must be like. -/
def FramesOk (D : Dialect) (fs : List (Str × Part)) : Prop := ∀ f ∈ fs, IsGap f.1 ∧ f.1 ≠ [] ∧ FrameOk D f.2

theorem stops_frames {fs : List (Str × Part)} (h : FramesOk D fs) {text : Str} (ht : Stops text) : Stops (framesText fs ++ text) := by
  cases fs with
  | nil => exact ht
  | cons f fs =>
    obtain ⟨h1, h2, -⟩ := h f (by simp)
    rw [framesText, List.append_assoc]
    exact stops_gap_ne h1 h2 _

/-- The state of the parser in the loop over the contents of a data block. -/
abbrev making (std : Option Str) (name : Str) (b : Block) (fs : List (Str × Block)) : Making := ⟨family std name b fs, name, lower name⟩

theorem block_data {bt : Block} {b : Block} (hb : Filling b) {std : Option Str} {name : Str} {fs : List (Str × Block)} {text : Str} (htext : Stops text)
    {n0 : Tk} {w0 rest0 : Str} (hn : Stopper n0) (ha : Ahead D text n0 w0 rest0) {es : List Entry} (hd : Entry.Distinct es)
    (hnew : ∀ n ∈ Entry.allNames es, lower n ∉ b.keys) (hok : ∀ x ∈ es, NamesOk x ∧ x.Plain ∧ x.NoEmptyEnd ∧ x.Filled) {l : List (Str × Str)}
    (hsp : Spaced l) (hr : DocReads D es (l.map (·.2))) {fuel : Nat} (hf : (flat l ++ text).length + 3 < fuel) {p : PState} (hp : At D p (flat l ++ text)) :
    ∃ f' p', text.length + 3 < f' ∧ At D p' text ∧
      blockLoop D.g bt fuel (making std name b fs) p = blockLoop D.g bt f' (making std name (es.foldl addEntry b) fs) p' := by
  cases es with
  | nil =>
    have hl := docReads_nil hr
    subst hl
    exact ⟨fuel, p, by simpa [flat] using hf, by simpa [flat] using hp, rfl⟩
  | cons e es =>
    rw [List.length_append] at hf
    obtain ⟨f, rfl⟩ : ∃ f, fuel = f + 1 := ⟨fuel - 1, by omega⟩
    have hpos : 0 < (flat l).length := by
      obtain ⟨a, c, hws, he, -⟩ := hr
      obtain ⟨hne, ws2, e4⟩ := entry_head he
      rw [e4] at hws
      match l, hws with
      | (g, w) :: l, hws =>
        simp only [List.map_cons, List.cons_append, List.cons.injEq] at hws
        rw [flat_cons]
        have : 0 < w.length := by rw [hws.1]; exact List.length_pos_iff.2 hne
        simp only [List.length_append]
        omega
    obtain ⟨t, p1, R1, w, rest1, p', s1, s2, s3, s4, s5, s6⟩ := seq_doc hb htext hn ha hd hnew hok hsp hr (f := f) (by omega) hp
    refine ⟨f, p', by omega, s6, ?_⟩
    rw [blockLoop, s1]
    simp only
    rw [if_pos (by rcases s2 with h | h <;> simp [h]), D.lx,
      peek_peeked s3 (.inr (fun x hx => s4 ((by decide : [Tk.loop, .dataName, .saveHeading] ⊆ itemFollow) hx)))]
    simp only
    rw [if_pos s2, dataInto]
    simp only
    have hlw : lower (if D.g.byName then name else lower name) = lower name := lower_where _ _
    rw [getItem_family _ _ _ _ hlw]
    simp only
    rw [s5]
    simp only
    rw [hlw, dset_family]

theorem block_frame {bt : Block} (hb : Fresh bt) (hlock : bt.overwrite = false) {b : Block} {std : Option Str} {name : Str} {fs : List (Str × Block)}
    {f : Str × Part} {text : Str} (htext : Stops text) (hg : IsGap f.1) (hq : FrameOk D f.2) (h1 : lower f.2.name ≠ lower name)
    (h2 : ∀ x ∈ fs, lower x.1 ≠ lower f.2.name) {fuel : Nat} (hf : (framesText [f] ++ text).length + 3 < fuel) {p : PState} (hp : At D p (framesText [f] ++ text)) :
    ∃ f' p', text.length + 3 < f' ∧ At D p' text ∧
      blockLoop D.g bt fuel (making std name b fs) p = blockLoop D.g bt f' (making std name b (fs ++ [(f.2.name, f.2.frame D bt)])) p' := by
  have htx : framesText [f] ++ text = f.1 ++ (("save_".toList ++ f.2.name) ++ (flat f.2.words ++ (f.2.tail ++ ("save_".toList ++ text)))) := by
    simp [framesText]
  rw [htx] at hf hp
  have hst : Stops (flat f.2.words ++ (f.2.tail ++ ("save_".toList ++ text))) := stops_flat hq.part.spaced (stops_gap_ne hq.part.tail hq.apart _)
  have hah : Ahead D (f.1 ++ (("save_".toList ++ f.2.name) ++ (flat f.2.words ++ (f.2.tail ++ ("save_".toList ++ text))))) .saveHeading ("save_".toList ++ f.2.name)
      (flat f.2.words ++ (f.2.tail ++ ("save_".toList ++ text))) := by
    intro R hR hs
    exact D.gap hR (by simp) (D.saveHead hR (hs (by decide)) hq.part.name.2.1 hq.part.name.1 hst) _ hg
  obtain ⟨R, p1, k1, k2, k3⟩ := hp _ _ _ hah
  have h5 : "save_".toList.length = 5 := rfl
  simp only [List.length_append, h5] at hf
  obtain ⟨g, rfl⟩ : ∃ g, fuel = g + 1 := ⟨fuel - 1, by omega⟩
  obtain ⟨p', r1, r2⟩ := frame_read hb hlock hq htext (fuel := g) (by omega) (k1 (by decide)) k3
  refine ⟨g, p', by omega, at_ready r2, ?_⟩
  rw [blockLoop, k2]
  simp only
  rw [if_pos (by simp), D.lx, peek_peeked k3 (.inr (fun x hx => k1 ((by decide : [Tk.loop, .dataName, .saveHeading] ⊆ itemFollow) hx)))]
  simp only
  rw [if_neg (by decide), r1]
  simp only
  rw [mergeFrame_family h1 h2]

theorem block_frames {bt : Block} (hb : Fresh bt) (hlock : bt.overwrite = false) {b : Block} {std : Option Str} {name : Str} {text : Str} (htext : Stops text) :
    ∀ (fs : List (Str × Part)) (done : List (Str × Block)) (fuel : Nat) (p : PState), FramesOk D fs →
      (fs.map fun f => lower f.2.name).Nodup → (∀ f ∈ fs, lower f.2.name ≠ lower name) → (∀ f ∈ fs, ∀ x ∈ done, lower x.1 ≠ lower f.2.name) →
      (framesText fs ++ text).length + 3 < fuel → At D p (framesText fs ++ text) →
      ∃ f' p', text.length + 3 < f' ∧ At D p' text ∧
        blockLoop D.g bt fuel (making std name b done) p =
          blockLoop D.g bt f' (making std name b (done ++ fs.map fun f => (f.2.name, f.2.frame D bt))) p'
  | [], done, fuel, p, _, _, _, _, hf, hp => ⟨fuel, p, hf, hp, by simp⟩
  | f :: fs, done, fuel, p, hok, hnd, hne, hdone, hf, hp => by
    obtain ⟨h1, h2, h3⟩ := hok f (by simp)
    have hfs : FramesOk D fs := fun x hx => hok x (by simp [hx])
    have htx : framesText (f :: fs) ++ text = framesText [f] ++ (framesText fs ++ text) := by simp [framesText]
    rw [htx] at hf hp
    simp only [List.map_cons, List.nodup_cons] at hnd
    obtain ⟨f1, p1, g1, g2, g3⟩ := block_frame (b := b) (std := std) hb hlock (stops_frames hfs htext) h1 h3 (hne f (by simp)) (hdone f (by simp)) hf hp
    obtain ⟨f2, p2, k1, k2, k3⟩ := block_frames hb hlock htext fs (done ++ [(f.2.name, f.2.frame D bt)]) f1 p1 hfs hnd.2 (fun x hx => hne x (by simp [hx]))
      (by
        intro x hx y hy
        rcases List.mem_append.1 hy with hy | hy
        · exact hdone x (by simp [hx]) y hy
        · simp only [List.mem_singleton] at hy
          subst hy
          intro e
          exact hnd.1 (List.mem_map.2 ⟨x, hx, e.symm⟩)) g1 g2
    refine ⟨f2, p2, k1, k2, ?_⟩
    rw [g3, k3]
    simp

theorem block_end {bt : Block} {m : Making} {text : Str} {n0 : Tk} {w0 rest0 : Str} (hn : n0 = .fin ∨ n0 = .dataHeading)
    (ha : Ahead D text n0 w0 rest0) {fuel : Nat} (hf : 0 < fuel) {p : PState} (hp : At D p text) :
    ∃ R p', itemFollow ⊆ R ∧ Peeked p' R n0 w0 rest0 ∧ blockLoop D.g bt fuel m p = .ok (m, p') := by
  obtain ⟨R, p1, h1, h2, h3⟩ := hp _ _ _ ha
  obtain ⟨f, rfl⟩ : ∃ f, fuel = f + 1 := ⟨fuel - 1, by omega⟩
  refine ⟨R, p1, h1, h3, ?_⟩
  rw [blockLoop, h2]
  simp only
  rw [if_neg (by rcases hn with rfl | rfl <;> decide), D.lx, afterStar_peeked h3 (by rcases hn with rfl | rfl <;> decide)]

end Verif.Lex
