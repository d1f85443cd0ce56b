import Verif.Lemmas.ReadFrames
/-! # Reading files with save frames -/
set_option linter.unusedSectionVars false
namespace Verif.Lex
open Rx Scanner Reader Print Block
variable [CaseFold] {D : Dialect}

/-- A data block in a text: its name, its first entries, its save frames with the white space before them, its other entries, and the
white space at the end. -/
structure DPart where
  name : Str
  es0 : List Entry
  words0 : List (Str × Str)
  frames : List (Str × Part)
  es : List Entry
  words : List (Str × Str)
  tail : Str

/-- What follows the heading, apart from the white space at the end. -/
def DPart.body (q : DPart) : Str := flat q.words0 ++ (framesText q.frames ++ flat q.words)

/-- The text of a data block with save frames. -/
def DPart.text (q : DPart) : Str := "data_".toList ++ q.name ++ (q.body ++ q.tail)

/-- The text of several data blocks. -/
def dpartsText : List DPart → Str
  | [] => []
  | q :: qs => q.text ++ dpartsText qs

/-- The block and its save frames: name, contents, and the block it belongs to. -/
structure Row where
  name : Str
  block : Block
  parent : Option Str

/-- The entry of the table of blocks. -/
def Row.entry (r : Row) : Str × PC := (lower r.name, ⟨r.name, r.parent⟩)

/-- The names of a data block and its save frames. -/
def DPart.names (q : DPart) : List Str := q.name :: q.frames.map (·.2.name)

/-- What a data block with save frames must be like. -/
structure DPartOk (D : Dialect) (std : Option Str) (q : DPart) : Prop where
  name : HeadingWord D q.name
  es : EntriesOk std (q.es0 ++ q.es)
  spaced0 : Spaced q.words0
  reads0 : DocReads D q.es0 (q.words0.map (·.2))
  spaced : Spaced q.words
  reads : DocReads D q.es (q.words.map (·.2))
  frames : FramesOk D q.frames
  tail : IsGap q.tail

/-- The block of a data block. -/
def DPart.block (bt : Block) (std : Option Str) (q : DPart) : Block := (q.es0 ++ q.es).foldl addEntry (startBlock bt std)

/-- The blocks read from a data block with save frames. -/
def DPart.rows (D : Dialect) (bt : Block) (std : Option Str) (q : DPart) : List Row :=
  ⟨q.name, q.block bt std, none⟩ :: q.frames.map fun f => ⟨f.2.name, f.2.frame D bt, some (lower q.name)⟩

theorem docReads_append {es fs : List Entry} {ws vs : List Str} (h1 : DocReads D es ws) (h2 : DocReads D fs vs) : DocReads D (es ++ fs) (ws ++ vs) := by
  induction es generalizing ws with
  | nil =>
    rw [DocReads] at h1
    subst h1
    exact h2
  | cons e es ih =>
    obtain ⟨a, c, rfl, h3, h4⟩ := h1
    exact ⟨a, c ++ vs, by simp, h3, ih h4⟩

theorem allNames_append (es fs : List Entry) : Entry.allNames (es ++ fs) = Entry.allNames es ++ Entry.allNames fs := by simp [Entry.allNames]

theorem ahead_frames {f : Str × Part} {fs : List (Str × Part)} {text : Str} (h : FramesOk D (f :: fs)) :
    ∃ w rest, Ahead D (framesText (f :: fs) ++ text) .saveHeading w rest := by
  obtain ⟨h1, h2, h3⟩ := h f (by simp)
  have hst : Stops (flat f.2.words ++ (f.2.tail ++ ("save_".toList ++ (framesText fs ++ text)))) :=
    stops_flat h3.part.spaced (stops_gap_ne h3.part.tail h3.apart _)
  refine ⟨"save_".toList ++ f.2.name, flat f.2.words ++ (f.2.tail ++ ("save_".toList ++ (framesText fs ++ text))), ?_⟩
  intro R hR hs
  have := D.gap hR (by simp) (D.saveHead hR (hs (by decide)) h3.part.name.2.1 h3.part.name.1 hst) _ h1
  rw [framesText]
  simpa using this

/-- The contents of a data block with save frames are read. -/
theorem block_contents {bt : Block} (hb : Fresh bt) (hlock : bt.overwrite = false) {std : Option Str} {q : DPart} (hq : DPartOk D std q)
    (hnd : (q.names.map lower).Nodup) {text : Str} (htext : Stops text) {n0 : Tk} {w0 rest0 : Str} (hn : n0 = .fin ∨ n0 = .dataHeading)
    (ha : Ahead D text n0 w0 rest0) {fuel : Nat} (hf : (q.body ++ text).length + 3 < fuel) {p : PState} (hp : At D p (q.body ++ text)) :
    ∃ R p', itemFollow ⊆ R ∧ Peeked p' R n0 w0 rest0 ∧
      blockLoop D.g bt fuel (making std q.name (startBlock bt std) []) p =
        .ok (making std q.name (q.block bt std) (q.frames.map fun f => (f.2.name, f.2.frame D bt)), p') := by
  have hfil := filling_fresh (fresh_start hb std) (locked_start hlock std)
  have hstop : Stopper n0 := by rcases hn with rfl | rfl <;> exact ⟨by decide, by decide, by decide⟩
  have hdist := hq.es.distinct
  unfold Entry.Distinct at hdist
  unfold DPart.block
  cases hfr : q.frames with
  | nil =>
    have hbody : q.body ++ text = flat (q.words0 ++ q.words) ++ text := by simp [DPart.body, hfr, framesText, flat_append]
    rw [hbody] at hf hp
    obtain ⟨f1, p1, a1, a2, a3⟩ := block_data (bt := bt) (std := std) (name := q.name) (fs := []) hfil htext hstop ha hq.es.distinct
      (new_fresh (fresh_start hb std) _) hq.es.ok (l := q.words0 ++ q.words) (fun x hx => by
        rcases List.mem_append.1 hx with hx | hx
        · exact hq.spaced0 x hx
        · exact hq.spaced x hx) (by rw [List.map_append]; exact docReads_append hq.reads0 hq.reads) hf hp
    obtain ⟨R, p', b1, b2, b3⟩ := block_end (bt := bt) (m := making std q.name ((q.es0 ++ q.es).foldl addEntry (startBlock bt std)) []) hn ha (fuel := f1) (by omega) a2
    exact ⟨R, p', b1, b2, by rw [a3, b3]; rfl⟩
  | cons f fs =>
    have hframes := hq.frames
    rw [hfr] at hframes
    rw [allNames_append, List.map_append, List.nodup_append] at hdist
    obtain ⟨d1, d2, d3⟩ := hdist
    have hst1 : Stops (flat q.words ++ text) := stops_flat hq.spaced htext
    have hbody : q.body ++ text = flat q.words0 ++ (framesText (f :: fs) ++ (flat q.words ++ text)) := by simp [DPart.body, hfr]
    rw [hbody] at hf hp
    obtain ⟨w1, r1, hah1⟩ := ahead_frames (text := flat q.words ++ text) hframes
    obtain ⟨f1, p1, a1, a2, a3⟩ := block_data (bt := bt) (std := std) (name := q.name) (fs := []) hfil (stops_frames hframes hst1)
      (n0 := .saveHeading) ⟨by decide, by decide, by decide⟩ hah1 d1 (new_fresh (fresh_start hb std) _) (fun x hx => hq.es.ok x (by simp [hx])) hq.spaced0 hq.reads0 hf hp
    simp only [DPart.names, List.map_cons, List.nodup_cons, List.map_map] at hnd
    rw [hfr] at hnd
    obtain ⟨f2, p2, b1, b2, b3⟩ := block_frames (b := q.es0.foldl addEntry (startBlock bt std)) (std := std) (name := q.name) hb hlock hst1 (f :: fs) [] f1 p1 hframes
      hnd.2 (fun x hx e => hnd.1 (List.mem_map.2 ⟨x, hx, e⟩)) (by simp) a1 a2
    have hfil2 := (storeEntries_eq q.es0 hfil d1 (new_fresh (fresh_start hb std) _) (fun x hx => hq.es.ok x (by simp [hx]))).2
    obtain ⟨f3, p3, c1, c2, c3⟩ := block_data (bt := bt) (std := std) (name := q.name) (fs := [] ++ (f :: fs).map fun f => (f.2.name, f.2.frame D bt)) hfil2 htext hstop ha d2 (by
        intro n hn' hk
        rw [keys_foldl] at hk
        simp only [keys, (fresh_start hb std).1, dkeys, List.map_nil, List.nil_append] at hk
        exact d3 _ hk _ (List.mem_map_of_mem hn') rfl) (fun x hx => hq.es.ok x (by simp [hx])) hq.spaced hq.reads b1 b2
    obtain ⟨R, p', e1, e2, e3⟩ := block_end (bt := bt) (m := making std q.name (q.es.foldl addEntry (q.es0.foldl addEntry (startBlock bt std)))
      ([] ++ (f :: fs).map fun f => (f.2.name, f.2.frame D bt))) hn ha (fuel := f3) (by omega) c2
    refine ⟨R, p', e1, e2, ?_⟩
    rw [a3, b3, c3, e3, List.foldl_append]
    rfl

/-- A data block with save frames is read. -/
theorem dataBlock_frames {bt : Block} (hb : Fresh bt) (hlock : bt.overwrite = false) (hmax : bt.maxName = none) {std : Option Str} {q : DPart} (hq : DPartOk D std q)
    (hnd : (q.names.map lower).Nodup) {text : Str} (htext : Stops text) {n0 : Tk} {w0 rest0 : Str} (hn : n0 = .fin ∨ n0 = .dataHeading)
    (ha : Ahead D text n0 w0 rest0) {fuel : Nat} (hf : (q.body ++ text).length + 3 < fuel) {p : PState} {R : List Tk} (hR : .dataHeading ∈ R)
    (hp : Peeked p R .dataHeading ("data_".toList ++ q.name) (q.body ++ text)) :
    ∃ R' p', itemFollow ⊆ R' ∧ Peeked p' R' n0 w0 rest0 ∧
      dataBlock D.g bt std fuel p = .ok (family std q.name (q.block bt std) (q.frames.map fun f => (f.2.name, f.2.frame D bt)), p') := by
  have hready := ready_of_peeked hp (by simp)
  obtain ⟨R', p', h1, h2, h3⟩ := block_contents hb hlock hq hnd htext hn ha hf (at_ready hready)
  refine ⟨R', p', h1, h2, ?_⟩
  have htake : take (Pat.lexer D.tb) .dataHeading p = .ok (_, _) := take_peeked hp hR
  have hdrop : ("data_".toList ++ q.name).drop 5 = q.name := rfl
  rw [dataBlock, D.lx, htake]
  simp only
  rw [hdrop, newBlock_single hb std hq.name]
  simp only
  rw [← family_nil, h3]
  simp only
  rw [getItem_family _ _ _ _ (lower_where _ _)]
  simp only
  have hm : (q.block bt std).maxName = if std = some "CIF".toList then some 75 else none := by
    rw [DPart.block, maxName_foldl]
    unfold startBlock
    split <;> simp [hmax]
  have hset : ∃ b', (q.block bt std).setMaxNameLength (q.block bt std).maxName = (b', .ok ()) := by
    rw [hm]
    by_cases hc : std = some "CIF".toList
    · rw [if_pos hc]
      unfold setMaxNameLength
      simp only
      rw [if_neg]
      · exact ⟨_, rfl⟩
      · simp only [Bool.not_eq_true, List.any_eq_false, decide_eq_true_eq]
        intro k hk
        have hk' : k ∈ (q.block bt std).keys := hk
        rw [DPart.block, keys_foldl] at hk'
        simp only [keys, (fresh_start hb std).1, dkeys, List.map_nil, List.nil_append, List.mem_map] at hk'
        obtain ⟨n, hn', rfl⟩ := hk'
        have := hq.es.short hc n hn'
        omega
    · rw [if_neg hc]
      exact ⟨_, rfl⟩
  obtain ⟨b', hset⟩ := hset
  rw [hset]

/-! ## Files -/

/-- The collection after blocks have been read, before they are unlocked. -/
def joinRows (c : Coll) (rs : List Row) : Coll :=
  { c with
    dict := c.dict ++ rs.map fun r => (lower r.name, r.block)
    lowerKeys := c.lowerKeys ++ rs.map fun r => lower r.name
    visible := c.visible ++ rs.map fun r => lower r.name
    inputOrder := c.inputOrder ++ rs.map fun r => lower r.name
    childTable := c.childTable ++ rs.map Row.entry }

theorem joinRows_nil (c : Coll) : joinRows c [] = c := by simp [joinRows]

theorem joinRows_append (c : Coll) (rs ts : List Row) : joinRows (joinRows c rs) ts = joinRows c (rs ++ ts) := by simp [joinRows]

theorem keyed_joinRows {c : Coll} (h : Keyed c) (rs : List Row) : Keyed (joinRows c rs) := by
  obtain ⟨h1, h2⟩ := h
  refine ⟨?_, ?_⟩
  · show dkeys (c.dict ++ _) = c.lowerKeys ++ _
    rw [dkeys_append, h1]; simp [dkeys]
  · show dkeys (c.childTable ++ _) = c.lowerKeys ++ _
    rw [dkeys_append, h2]; simp [dkeys, Row.entry]

theorem dupdate_disjoint {β : Type} : ∀ (e d : Dict Str β), (dkeys e).Nodup → (∀ k ∈ dkeys e, k ∉ dkeys d) → dupdate d e = d ++ e
  | [], d, _, _ => by simp [dupdate]
  | (k, v) :: e, d, hn, hd => by
    simp only [dkeys, List.map_cons, List.nodup_cons] at hn
    have ih := dupdate_disjoint e (dset d k v) hn.2 (by
      intro x hx
      rw [dset_new (hd k (by simp [dkeys]))]
      rw [dkeys_append, List.mem_append]
      rintro (h | h)
      · exact hd x (by simp only [dkeys, List.map_cons, List.mem_cons]; exact .inr hx) h
      · simp only [dkeys, List.map_cons, List.map_nil, List.mem_singleton] at h
        subst h
        exact hn.1 hx)
    rw [dset_new (hd k (by simp [dkeys]))] at ih
    unfold dupdate at ih ⊢
    rw [List.foldl_cons]
    simp only
    rw [dset_new (hd k (by simp [dkeys])), ih]
    simp

theorem merge_family {c : Coll} {std : Option Str} {q : DPart} {bt : Block} {st : Option Str} (hk : Keyed c) (hnd : (q.names.map lower).Nodup)
    (hnew : ∀ n ∈ q.names, lower n ∉ c.lowerKeys) :
    ∃ nb, c.mergeFast (family st q.name (q.block bt std) (q.frames.map fun f => (f.2.name, f.2.frame D bt))) =
      (joinRows c (q.rows D bt std), nb, .ok ()) := by
  generalize hfam : family st q.name (q.block bt std) (q.frames.map fun f => (f.2.name, f.2.frame D bt)) = F
  have e1 : F.dict = (q.rows D bt std).map fun r => (lower r.name, r.block) := by rw [← hfam]; simp [family, DPart.rows]
  have e2 : F.lowerKeys = (q.rows D bt std).map fun r => lower r.name := by rw [← hfam]; simp [family, DPart.rows]
  have e3 : F.inputOrder = (q.rows D bt std).map fun r => lower r.name := by rw [← hfam]; simp [family, DPart.rows]
  have e4 : F.childTable = (q.rows D bt std).map Row.entry := by rw [← hfam]; simp [family, DPart.rows, Row.entry]
  have e5 : (q.rows D bt std).map (fun r => lower r.name) = q.names.map lower := by simp [DPart.rows, DPart.names]
  have hd1 : dkeys F.dict = q.names.map lower := by rw [e1, ← e5]; simp [dkeys]
  have hd2 : dkeys F.childTable = q.names.map lower := by rw [e4, ← e5]; simp [dkeys, Row.entry]
  have hnew' : ∀ k ∈ q.names.map lower, k ∉ c.lowerKeys := by
    intro k hk'
    obtain ⟨n, hn, rfl⟩ := List.mem_map.1 hk'
    exact hnew n hn
  have hdups : (c.lowerKeys.filter fun k => decide (k ∈ F.lowerKeys)) = [] := by
    rw [List.filter_eq_nil_iff]
    intro k hk'
    rw [e2, e5, decide_eq_true_eq]
    exact fun h => hnew' k h hk'
  unfold Coll.mergeFast
  simp only [hdups, ne_eq, not_true, false_and, if_false]
  refine ⟨F, ?_⟩
  congr 1
  unfold Coll.mergeJoin joinRows
  simp only
  rw [dupdate_disjoint _ _ (by rw [hd1]; exact hnd) (by rw [hd1, hk.1]; exact hnew'),
    dupdate_disjoint _ _ (by rw [hd2]; exact hnd) (by rw [hd2, hk.2]; exact hnew'), e1, e2, e3, e4]
  have : ((q.rows D bt std).map fun r => lower r.name).filter (fun k => decide (k ∉ c.lowerKeys)) = (q.rows D bt std).map fun r => lower r.name := by
    rw [List.filter_eq_self, e5]
    intro k hk'
    simpa using hnew' k hk'
  rw [this]

/-- All parts but the last end in white space. -/
def DApart : List DPart → Prop
  | [] => True
  | [_] => True
  | q :: r :: qs => q.tail ≠ [] ∧ DApart (r :: qs)

theorem dapart_tail {q : DPart} {qs : List DPart} (h : DApart (q :: qs)) : DApart qs := by
  cases qs with
  | nil => trivial
  | cons r qs => exact h.2

theorem stops_dparts {q : DPart} {qs : List DPart} (hq : IsGap q.tail) (ha : DApart (q :: qs)) : Stops (q.tail ++ dpartsText qs) := by
  cases qs with
  | nil =>
    rw [dpartsText, List.append_nil]
    intro c t e
    exact hq c (by rw [e]; simp)
  | cons r qs => exact stops_gap_ne hq ha.1 _

theorem dpart_stops {q : DPart} {qs : List DPart} {std : Option Str} (hq : DPartOk D std q) (ha : DApart (q :: qs)) :
    Stops (q.body ++ (q.tail ++ dpartsText qs)) := by
  rw [DPart.body, List.append_assoc, List.append_assoc]
  exact stops_flat hq.spaced0 (stops_frames hq.frames (stops_flat hq.spaced (stops_dparts hq.tail ha)))

/-- The token with which the parts begin. -/
def NextDPart (qs : List DPart) (n0 : Tk) (w0 rest0 : Str) : Prop :=
  match qs with
  | [] => n0 = .fin ∧ w0 = [] ∧ rest0 = []
  | r :: rs => n0 = .dataHeading ∧ w0 = "data_".toList ++ r.name ∧ rest0 = r.body ++ (r.tail ++ dpartsText rs)

theorem dparts_ahead {std : Option Str} {q : DPart} {qs : List DPart} (hq : IsGap q.tail) (hqs : ∀ x ∈ qs, DPartOk D std x) (ha : DApart (q :: qs)) :
    ∃ n0 w0 rest0, (n0 = .fin ∨ n0 = .dataHeading) ∧ Ahead D (q.tail ++ dpartsText qs) n0 w0 rest0 ∧ NextDPart qs n0 w0 rest0 := by
  cases qs with
  | nil =>
    refine ⟨.fin, [], [], .inl rfl, ?_, rfl, rfl, rfl⟩
    rw [dpartsText, List.append_nil]
    exact ahead_end hq
  | cons r rs =>
    have hr := hqs r (by simp)
    refine ⟨.dataHeading, _, _, .inr rfl, ?_, rfl, rfl, rfl⟩
    intro R hR hs
    have := ahead_heading hR (hs (by decide)) hq hr.name (dpart_stops hr (dapart_tail ha))
    rw [dpartsText, DPart.text]
    simpa using this

theorem inputLoop_frames {bt : Block} (hb : Fresh bt) (hlock : bt.overwrite = false) (hmax : bt.maxName = none) :
    ∀ (qs : List DPart) (c : Coll) (fuel : Nat) (p : PState) (R : List Tk) (n0 : Tk) (w0 rest0 : Str), (∀ q ∈ qs, DPartOk D c.standard q) → DApart qs → Keyed c →
      ((qs.flatMap DPart.names).map lower).Nodup → (∀ n ∈ qs.flatMap DPart.names, lower n ∉ c.lowerKeys) → (dpartsText qs).length + 1 < fuel →
      [Tk.fin, .dataHeading] ⊆ R → Peeked p R n0 w0 rest0 →
      NextDPart qs n0 w0 rest0 →
      inputLoop D.g bt fuel c p = (unlock (joinRows c (qs.flatMap fun q => q.rows D bt c.standard)), .ok ())
  | [], c, fuel + 1, p, R, n0, w0, rest0, _, _, _, _, _, _, hR, hp, h0 => by
    obtain ⟨rfl, rfl, rfl⟩ := h0
    rw [inputLoop, D.lx, peek_peeked hp (.inr hR)]
    simp only
    rw [if_neg (by decide), afterStar_peeked hp (by decide)]
    simp only
    rw [take_peeked hp (hR (by decide))]
    simp [joinRows_nil]
  | q :: qs, c, fuel + 1, p, R, n0, w0, rest0, hq, ha, hk, hnd, hnew, hf, hR, hp, h0 => by
    obtain ⟨rfl, rfl, rfl⟩ := h0
    have hq1 := hq q (by simp)
    obtain ⟨n1, w1, rest1, hn1, hah, hmatch⟩ := dparts_ahead (std := c.standard) hq1.tail (fun x hx => hq x (by simp [hx])) ha
    rw [List.flatMap_cons, List.map_append, List.nodup_append] at hnd
    obtain ⟨n1', n2', n3'⟩ := hnd
    rw [dpartsText, DPart.text] at hf
    simp only [List.length_append] at hf
    have h5 : "data_".toList.length = 5 := rfl
    obtain ⟨R', p', h1, h2, h3⟩ := dataBlock_frames hb hlock hmax hq1 n1' (stops_dparts hq1.tail ha) hn1 hah
      (fuel := fuel) (by simp only [List.length_append]; omega) (hR (by decide)) hp
    have hnew1 : ∀ n ∈ q.names, lower n ∉ c.lowerKeys := fun n hn => hnew n (by simp [hn])
    obtain ⟨nb, h4⟩ := merge_family (D := D) (std := c.standard) (bt := bt) (st := c.standard) hk n1' hnew1
    have ih := inputLoop_frames hb hlock hmax qs (joinRows c (q.rows D bt c.standard)) fuel p' R' n1 w1 rest1 (fun x hx => hq x (by simp [hx])) (dapart_tail ha)
      (keyed_joinRows hk _) n2' (fun x hx => by
        show lower x ∉ c.lowerKeys ++ _
        rw [List.mem_append]
        rintro (h | h)
        · exact hnew x (by simp only [List.flatMap_cons, List.mem_append]; exact .inr hx) h
        · have e5 : (q.rows D bt c.standard).map (fun r => lower r.name) = q.names.map lower := by simp [DPart.rows, DPart.names]
          rw [e5] at h
          exact n3' _ h _ (List.mem_map_of_mem hx) rfl) (by omega)
      (fun x hx => h1 ((by decide : [Tk.fin, .dataHeading] ⊆ itemFollow) hx)) h2 hmatch
    rw [inputLoop, D.lx, peek_peeked hp (.inr hR)]
    simp only [if_true]
    rw [h3]
    simp only
    rw [h4]
    simp only
    rw [ih, joinRows_append]
    rfl

/-- A text with data blocks and save frames, after any white space, is read into a collection. -/
theorem input_frames {bt : Block} (hb : Fresh bt) (hlock : bt.overwrite = false) (hmax : bt.maxName = none) (c : Coll) (hk : Keyed c)
    {q : DPart} {qs : List DPart} (hq : ∀ x ∈ q :: qs, DPartOk D c.standard x) (ha : DApart (q :: qs))
    (hnd : (((q :: qs).flatMap DPart.names).map lower).Nodup) (hnew : ∀ n ∈ (q :: qs).flatMap DPart.names, lower n ∉ c.lowerKeys) (g : Str)
    (hg : ∀ R, D.Outside R → ∀ s n w rest, Lexes D.tb R ("data_".toList ++ s) n w rest → Lexes D.tb R (g ++ ("data_".toList ++ s)) n w rest) :
    Reader.input D.g bt c (g ++ dpartsText (q :: qs)) = (unlock (joinRows c ((q :: qs).flatMap fun q => q.rows D bt c.standard)), .ok ()) := by
  have hq1 := hq q (by simp)
  have hstop := dpart_stops hq1 ha
  have htext : g ++ dpartsText (q :: qs) = g ++ ("data_".toList ++ (q.name ++ (q.body ++ (q.tail ++ dpartsText qs)))) := by
    rw [dpartsText, DPart.text]; simp
  have hlex : Lexes D.tb [.fin, .dataHeading] (g ++ dpartsText (q :: qs)) .dataHeading ("data_".toList ++ q.name)
      (q.body ++ (q.tail ++ dpartsText qs)) := by
    rw [htext]
    refine hg _ D.start _ _ _ _ ?_
    have := ahead_heading (R := [.fin, .dataHeading]) D.start (by decide) (g := []) (by intro c hc; simp at hc) hq1.name hstop
    simpa using this
  obtain ⟨p1, h1, h2⟩ := peek_ready (ready_start _) hlex
  have hloop := inputLoop_frames hb hlock hmax (q :: qs) c (2 * (g ++ dpartsText (q :: qs)).length + 11) p1 [.fin, .dataHeading] _ _ _ hq ha hk hnd hnew
    (by simp only [List.length_append]; omega) (fun _ h => h) h2 ⟨rfl, rfl, rfl⟩
  rw [inputLoop, D.lx, peek_peeked h2 (.inr (fun _ h => h))] at hloop
  simp only [if_true] at hloop
  rw [Reader.input, D.lx]
  simp only [h1]
  simp only [if_true]
  exact hloop

end Verif.Lex
