import Verif.Lemmas.ReadDoc
import Verif.Lemmas.StoreDoc
/-! # Reading data blocks -/
set_option linter.unusedSectionVars false
namespace Verif.Lex
open Rx Scanner Reader Print Block
variable [CaseFold] {D : Dialect}

/-- A block name the scanner takes and `NewBlock` leaves as it is. -/
def HeadingWord (D : Dialect) (n : Str) : Prop := n ≠ [] ∧ (∀ c ∈ n, D.nameChar c = true) ∧ n.length ≤ 75

/-- The empty block into which a data block is read. -/
def startBlock (bt : Block) (std : Option Str) : Block :=
  { (if std = some "CIF".toList then { bt with maxName := some 75 } else bt) with unicode := true }

theorem fresh_start {bt : Block} (h : Fresh bt) (std : Option Str) : Fresh (startBlock bt std) := by
  unfold startBlock
  split <;> exact h

theorem locked_start {bt : Block} (h : bt.overwrite = false) (std : Option Str) : (startBlock bt std).overwrite = false := by
  unfold startBlock
  split <;> exact h

/-- A collection with one block. -/
def single (std : Option Str) (name : Str) (b : Block) : Coll :=
  { dict := [(lower name, b)], lowerKeys := [lower name], childTable := [(lower name, ⟨name, none⟩)], visible := [lower name],
    inputOrder := [lower name], standard := std, unicode := true }

theorem fixName_heading {n : Str} (h : HeadingWord D n) : Coll.fixName n = n := by
  unfold Coll.fixName
  conv => rhs; rw [← List.map_id n]
  apply List.map_congr_left
  intro c hc
  have := h.2.1 c hc
  rw [if_neg]
  · rfl
  · rintro (rfl | rfl)
    · exact (D.nameFix _ this).1 rfl
    · exact (D.nameFix _ this).2 rfl

theorem newBlock_single {bt : Block} (hb : Fresh bt) (std : Option Str) {n : Str} (hn : HeadingWord D n) :
    ({ unicode := true, standard := std } : Coll).newBlock n bt = (single std n (startBlock bt std), .ok (lower n)) := by
  have hp : ({ unicode := true, standard := std } : Coll).prepare bt =
      (if std = some "CIF".toList then { bt with maxName := some 75 } else bt, .ok ()) := by
    unfold Coll.prepare
    by_cases h : std = some "CIF".toList
    · simp only [if_pos h, setMaxNameLength]
      have : (({ bt with maxName := some 75 } : Block).keys).any (fun k => decide (k.length > 75)) = false := by
        simp [keys, hb.1, dkeys]
      rw [this]
      simp
    · simp only [if_neg h]
  unfold Coll.newBlock
  rw [hp]
  simp only
  rw [if_neg (by have := hn.2.2; omega)]
  simp only [if_true, fixName_heading hn, List.not_mem_nil, if_false]
  simp only [Coll.addBlock, List.not_mem_nil, if_false, List.nil_append, dset]
  rfl

theorem getItem_single (std : Option Str) (n : Str) (b : Block) : (single std n b).getItem n = .ok b := by
  simp [Coll.getItem, single, dget]

theorem lower_where (b : Bool) (n : Str) : lower (if b then n else lower n) = lower n := by cases b <;> simp [CaseFold.lower_lower]

theorem getItem_where (g : Bool) (std : Option Str) (n : Str) (b : Block) : (single std n b).getItem (if g then n else lower n) = .ok b := by
  cases g <;> simp [Coll.getItem, single, dget, CaseFold.lower_lower]

/-- What the entries of a block must be like. -/
structure EntriesOk (std : Option Str) (es : List Entry) : Prop where
  distinct : Entry.Distinct es
  ok : ∀ e ∈ es, NamesOk e ∧ e.Plain ∧ e.NoEmptyEnd ∧ e.Filled
  noSaves : ∀ e ∈ es, NoSaves e
  short : std = some "CIF".toList → ∀ n ∈ Entry.allNames es, (lower n).length ≤ 75

theorem docReads_nil {l : List (Str × Str)} (h : DocReads D [] (l.map (·.2))) : l = [] := by simpa [DocReads] using h

/-- The next token before entries. -/
theorem doc_ahead {text : Str} (htext : Stops text) {n0 : Tk} {w0 rest0 : Str} (hn : n0 ∈ itemFollow) (ha : Ahead D text n0 w0 rest0)
    {es : List Entry} {l : List (Str × Str)} (hsp : Spaced l) (hd : DocReads D es (l.map (·.2))) :
    ∃ n w rest, n ∈ itemFollow ∧ Ahead D (flat l ++ text) n w rest ∧ (es ≠ [] → n = .loop ∨ n = .dataName) := by
  cases es with
  | nil =>
    have := docReads_nil hd
    subst this
    exact ⟨n0, w0, rest0, hn, ha, by simp⟩
  | cons e es =>
    obtain ⟨a, c, hws, he, -⟩ := hd
    obtain ⟨-, ws2, e4⟩ := entry_head he
    rw [e4] at hws
    match l, hws with
    | (g, w) :: l, hws =>
      simp only [List.map_cons, List.cons_append, List.cons.injEq] at hws
      obtain ⟨rfl, -⟩ := hws
      refine ⟨headTk e, headWord e, flat l ++ text, headTk_mem e, ?_, fun _ => headTk_or e⟩
      have := entry_ahead he ((hsp (g, headWord e) (by simp)).1) (stops_flat hsp.tail htext)
      rw [flat_cons]
      simpa using this

/-- Entries read into a fresh block. -/
theorem blockLoop_doc {bt : Block} (hb : Fresh bt) (hlock : bt.overwrite = false) (std : Option Str) {name : Str}
    {text : Str} (htext : Stops text) {n0 : Tk} {w0 rest0 : Str} (hn : n0 = .fin ∨ n0 = .dataHeading) (ha : Ahead D text n0 w0 rest0)
    {es : List Entry} (hes : EntriesOk std es) {l : List (Str × Str)} (hsp : Spaced l) (hd : DocReads D es (l.map (·.2)))
    {fuel : Nat} (hf : (flat l).length + 1 < fuel) {p : PState} (hp : Ready p (flat l ++ text)) :
    ∃ R p', itemFollow ⊆ R ∧ Peeked p' R n0 w0 rest0 ∧
      blockLoop D.g bt fuel ⟨single std name (startBlock bt std), name, lower name⟩ p =
        .ok (⟨single std name (es.foldl addEntry (startBlock bt std)), name, lower name⟩, p') := by
  have hn0 : n0 ∈ itemFollow := by rcases hn with rfl | rfl <;> decide
  have hne1 : n0 ≠ .loop := by rcases hn with rfl | rfl <;> decide
  have hne2 : n0 ≠ .dataName := by rcases hn with rfl | rfl <;> decide
  have hne3 : n0 ≠ .saveHeading := by rcases hn with rfl | rfl <;> decide
  have hend : ∀ (fuel : Nat) (m : Making) (p p' : PState) (R : List Tk), itemFollow ⊆ R → peek D.g.lx itemFollow p = .ok (n0, p') →
      Peeked p' R n0 w0 rest0 → blockLoop D.g bt (fuel + 1) m p = .ok (m, p') := by
    intro fuel m p p' R hs h1 h2
    rw [blockLoop, h1]
    simp only
    rw [if_neg (by simp [hne1, hne2, hne3]), D.lx, afterStar_peeked h2 hn0]
  obtain ⟨n, w, rest, hn1, hah, hnl⟩ := doc_ahead htext hn0 ha hsp hd
  have hnext := next_ready hp hah
  obtain ⟨R, p', hsays, hR, hpk⟩ := doc_says htext hn0 hne1 hne2 ha es l fuel p n w rest hsp hd hf hah hnext
  refine ⟨R, p', hR, hpk, ?_⟩
  obtain ⟨f, rfl⟩ : ∃ f, fuel = f + 1 := ⟨fuel - 1, by omega⟩
  cases hsays with
  | done _ t _ p1 _ h1 h2 h3 h4 =>
    obtain ⟨R1, p1', hR1, h5, h6⟩ := hnext
    rw [h1] at h5
    simp only [Except.ok.injEq, Prod.mk.injEq] at h5
    obtain ⟨rfl, rfl⟩ := h5
    have hl := docReads_nil hd
    subst hl
    obtain ⟨rfl, rfl, rfl⟩ := (hah itemFollow D.follow (fun _ h => h)).unique (ha itemFollow D.follow (fun _ h => h))
    rw [D.lx, afterStar_peeked h6 hn0] at h4
    simp only [Except.ok.injEq] at h4
    subst h4
    exact hend f _ p p1 R1 hR1 h1 h6
  | more _ t e es _ p1 p2 _ h1 h2 h3 h4 =>
    obtain ⟨R1, p1', hR1, h5, h6⟩ := hnext
    rw [h1] at h5
    simp only [Except.ok.injEq, Prod.mk.injEq] at h5
    obtain ⟨rfl, rfl⟩ := h5
    have hstore := storeEntries_eq (e :: es) (filling_fresh (fresh_start hb std) (locked_start hlock std)) hes.distinct
      (by simp [keys, (fresh_start hb std).1, dkeys]) hes.ok
    have hseq : dataSeq D.g f (startBlock bt std) p1 = .ok ((e :: es).foldl addEntry (startBlock bt std), p') := by
      have h7 := hstore.1
      rw [storeEntries] at h7
      obtain ⟨b1, r, hb1⟩ : ∃ b1 r, storeEntry (startBlock bt std) e = (b1, r) := ⟨_, _, rfl⟩
      rw [hb1] at h7
      cases r with
      | error x => simp at h7
      | ok u =>
        simp only at h7
        have hdat : datum D.g f (startBlock bt std) p1 = .ok (b1, p2) := (datum_iff _ _ _ _ _ _).2 ⟨e, h3, hb1⟩
        have hmore := (moreData_iff D.g f b1 p2 _ p').2 ⟨es, h4, h7⟩
        rw [dataSeq, hdat]
        exact hmore
    rw [blockLoop, h1]
    simp only
    rw [if_pos (by rcases h2 with h | h <;> simp [h]), D.lx, peek_peeked h6 (.inr (fun x hx => hR1 ((by decide : [Tk.loop, .dataName, .saveHeading] ⊆ itemFollow) hx)))]
    simp only
    rw [if_pos h2]
    rw [dataInto]
    simp only
    rw [getItem_where]
    simp only
    rw [hseq]
    simp only
    rw [lower_where]
    obtain ⟨f2, rfl⟩ : ∃ f2, f = f2 + 1 := by
      cases f with
      | zero => cases h4
      | succ f2 => exact ⟨f2, rfl⟩
    have hm : ({ single std name (startBlock bt std) with
        dict := dset (single std name (startBlock bt std)).dict (lower name) ((e :: es).foldl addEntry (startBlock bt std)) } : Coll) =
        single std name ((e :: es).foldl addEntry (startBlock bt std)) := by
      simp [single, dset]
    rw [hm]
    exact hend f2 _ p' p' R hR (by rw [D.lx]; exact peek_peeked hpk (.inr hR)) hpk

theorem keys_foldl : ∀ (es : List Entry) (b : Block), (es.foldl addEntry b).keys = b.keys ++ (Entry.allNames es).map lower
  | [], b => by simp [Entry.allNames]
  | e :: es, b => by
    rw [List.foldl_cons, keys_foldl es, keys_addEntry]
    simp [Entry.allNames]

theorem maxName_addEntry (b : Block) (e : Entry) : (addEntry b e).maxName = b.maxName := by cases e <;> rfl

theorem maxName_foldl : ∀ (es : List Entry) (b : Block), (es.foldl addEntry b).maxName = b.maxName
  | [], b => rfl
  | e :: es, b => by rw [List.foldl_cons, maxName_foldl es, maxName_addEntry]

/-- A data block is read. -/
theorem dataBlock_read {bt : Block} (hb : Fresh bt) (hlock : bt.overwrite = false) (hmax : bt.maxName = none) (std : Option Str) {name : Str}
    (hname : HeadingWord D name) {text : Str} (htext : Stops text) {n0 : Tk} {w0 rest0 : Str} (hn : n0 = .fin ∨ n0 = .dataHeading)
    (ha : Ahead D text n0 w0 rest0) {es : List Entry} (hes : EntriesOk std es) {l : List (Str × Str)} (hsp : Spaced l)
    (hd : DocReads D es (l.map (·.2))) {fuel : Nat} (hf : (flat l).length + 1 < fuel) {p : PState} {R : List Tk} (hR : .dataHeading ∈ R)
    (hp : Peeked p R .dataHeading ("data_".toList ++ name) (flat l ++ text)) :
    ∃ R' p', itemFollow ⊆ R' ∧ Peeked p' R' n0 w0 rest0 ∧
      dataBlock D.g bt std fuel p = .ok (single std name (es.foldl addEntry (startBlock bt std)), p') := by
  have hready := ready_of_peeked hp (by simp)
  obtain ⟨R', p', h1, h2, h3⟩ := blockLoop_doc (name := name) hb hlock std htext hn ha hes hsp hd hf hready
  refine ⟨R', p', h1, h2, ?_⟩
  have htake : take (Pat.lexer D.tb) .dataHeading p = .ok (_, _) := take_peeked hp hR
  have hdrop : ("data_".toList ++ name).drop 5 = name := rfl
  rw [dataBlock, D.lx, htake]
  simp only
  rw [hdrop, newBlock_single hb std hname]
  simp only
  rw [h3]
  simp only
  rw [getItem_where]
  simp only
  have hm : (es.foldl addEntry (startBlock bt std)).maxName = if std = some "CIF".toList then some 75 else none := by
    rw [maxName_foldl]
    unfold startBlock
    split <;> simp [hmax]
  have hset : ∃ b', (es.foldl addEntry (startBlock bt std)).setMaxNameLength (es.foldl addEntry (startBlock bt std)).maxName = (b', .ok ()) := by
    rw [hm]
    by_cases hc : std = some "CIF".toList
    · rw [if_pos hc]
      unfold setMaxNameLength
      simp only
      rw [if_neg]
      · exact ⟨_, rfl⟩
      · simp only [Bool.not_eq_true, List.any_eq_false, decide_eq_true_eq]
        intro k hk
        have hk' : k ∈ (es.foldl addEntry (startBlock bt std)).keys := hk
        rw [keys_foldl] at hk'
        simp only [keys, (fresh_start hb std).1, dkeys, List.map_nil, List.nil_append, List.mem_map] at hk'
        obtain ⟨n, hn', rfl⟩ := hk'
        have := hes.short hc n hn'
        omega
    · rw [if_neg hc]
      exact ⟨_, rfl⟩
  obtain ⟨b', hset⟩ := hset
  rw [hset]

/-! ## Files -/

/-- A data block in a text: its name, its entries, their words with the white space before them, and the white space at the end. -/
structure Part where
  name : Str
  es : List Entry
  words : List (Str × Str)
  tail : Str

/-- The text of a part. -/
def Part.text (q : Part) : Str := "data_".toList ++ q.name ++ flat q.words ++ q.tail

/-- The text of several parts. -/
def partsText : List Part → Str
  | [] => []
  | q :: qs => q.text ++ partsText qs

/-- A part the reader takes; if another part follows, there is white space between them. -/
structure PartOk (D : Dialect) (std : Option Str) (q : Part) : Prop where
  name : HeadingWord D q.name
  es : EntriesOk std q.es
  spaced : Spaced q.words
  reads : DocReads D q.es (q.words.map (·.2))
  tail : IsGap q.tail

/-- All parts but the last end in white space. -/
def Apart : List Part → Prop
  | [] => True
  | [_] => True
  | q :: r :: qs => q.tail ≠ [] ∧ Apart (r :: qs)

/-- The block read from a part. -/
def Part.block (bt : Block) (std : Option Str) (q : Part) : Block := q.es.foldl addEntry (startBlock bt std)

/-- The collection after blocks have been read, before they are unlocked. -/
def joined (c : Coll) (bs : List (Str × Block)) : Coll :=
  { c with
    dict := c.dict ++ bs.map fun p => (lower p.1, p.2)
    lowerKeys := c.lowerKeys ++ bs.map fun p => lower p.1
    visible := c.visible ++ bs.map fun p => lower p.1
    inputOrder := c.inputOrder ++ bs.map fun p => lower p.1
    childTable := c.childTable ++ bs.map fun p => (lower p.1, ⟨p.1, none⟩) }

theorem joined_nil (c : Coll) : joined c [] = c := by simp [joined]

theorem joined_joined (c : Coll) (bs ds : List (Str × Block)) : joined (joined c bs) ds = joined c (bs ++ ds) := by simp [joined]

theorem dset_new {α β : Type} [DecidableEq α] {d : Dict α β} {k : α} {v : β} (h : k ∉ dkeys d) : dset d k v = d ++ [(k, v)] := by
  induction d with
  | nil => rfl
  | cons p r ih =>
    simp only [dkeys, List.map_cons, List.mem_cons, not_or] at h
    rw [dset, if_neg (fun e => h.1 e.symm), ih h.2]
    rfl

theorem merge_single {c : Coll} {std : Option Str} {n : Str} {b : Block} (h1 : lower n ∉ c.lowerKeys) (h2 : lower n ∉ dkeys c.dict)
    (h3 : lower n ∉ dkeys c.childTable) : ∃ nb, c.mergeFast (single std n b) = (joined c [(n, b)], nb, .ok ()) := by
  have hd : (c.lowerKeys.filter fun k => decide (k ∈ (single std n b).lowerKeys)) = [] := by
    rw [List.filter_eq_nil_iff]
    intro k hk
    simp only [single, List.mem_singleton, decide_eq_true_eq]
    rintro rfl
    exact h1 hk
  unfold Coll.mergeFast
  simp only [hd, ne_eq, not_true, false_and, if_false]
  refine ⟨single std n b, ?_⟩
  congr 1
  unfold Coll.mergeJoin joined
  simp only [single, dupdate, List.foldl_cons, List.foldl_nil]
  rw [dset_new h2, dset_new h3]
  simp [h1]

/-- The keys of a collection all come from the same blocks. -/
def Keyed (c : Coll) : Prop := dkeys c.dict = c.lowerKeys ∧ dkeys c.childTable = c.lowerKeys

theorem keyed_joined {c : Coll} (h : Keyed c) (bs : List (Str × Block)) : Keyed (joined c bs) := by
  obtain ⟨h1, h2⟩ := h
  refine ⟨?_, ?_⟩
  · show dkeys (c.dict ++ _) = c.lowerKeys ++ _
    rw [dkeys_append, h1]; simp [dkeys]
  · show dkeys (c.childTable ++ _) = c.lowerKeys ++ _
    rw [dkeys_append, h2]; simp [dkeys]

theorem ahead_end {g : Str} (hg : IsGap g) : Ahead D g .fin [] [] := by
  intro R hR hs
  have := D.gap hR (by simp) (D.fin (R := R) (hs (by decide))) g hg
  simpa using this

theorem ahead_heading {R : List Tk} (hR : D.Outside R) (hn : .dataHeading ∈ R) {g n rest : Str} (hg : IsGap g) (h : HeadingWord D n) (hr : Stops rest) :
    Lexes D.tb R (g ++ ("data_".toList ++ n ++ rest)) .dataHeading ("data_".toList ++ n) rest :=
  D.gap hR (by simp) (D.heading hR hn h.2.1 h.1 hr) g hg

theorem stops_parts {q : Part} {qs : List Part} (hq : IsGap q.tail) (ha : Apart (q :: qs)) : Stops (q.tail ++ partsText qs) := by
  cases qs with
  | nil =>
    rw [partsText, List.append_nil]
    intro c t e
    exact hq c (by rw [e]; simp)
  | cons r qs =>
    cases ht : q.tail with
    | nil => exact absurd ht ha.1
    | cons c t =>
      intro d s e
      simp only [List.cons_append, List.cons.injEq] at e
      rw [← e.1]
      exact hq c (by rw [ht]; simp)

theorem apart_tail {q : Part} {qs : List Part} (h : Apart (q :: qs)) : Apart qs := by
  cases qs with
  | nil => trivial
  | cons r qs => exact h.2

theorem part_stops {q : Part} {qs : List Part} {std : Option Str} (hq : PartOk D std q) (ha : Apart (q :: qs)) :
    Stops (flat q.words ++ (q.tail ++ partsText qs)) := stops_flat hq.spaced (stops_parts hq.tail ha)

/-- The token with which the parts begin. -/
def NextPart (qs : List Part) (n0 : Tk) (w0 rest0 : Str) : Prop :=
  match qs with
  | [] => n0 = .fin ∧ w0 = [] ∧ rest0 = []
  | r :: rs => n0 = .dataHeading ∧ w0 = "data_".toList ++ r.name ∧ rest0 = flat r.words ++ (r.tail ++ partsText rs)

/-- The next token after a part. -/
theorem parts_ahead {std : Option Str} {q : Part} {qs : List Part} (hq : IsGap q.tail) (hqs : ∀ x ∈ qs, PartOk D std x) (ha : Apart (q :: qs)) :
    ∃ n0 w0 rest0, (n0 = .fin ∨ n0 = .dataHeading) ∧ Ahead D (q.tail ++ partsText qs) n0 w0 rest0 ∧
      NextPart qs n0 w0 rest0 := by
  cases qs with
  | nil =>
    refine ⟨.fin, [], [], .inl rfl, ?_, rfl, rfl, rfl⟩
    rw [partsText, List.append_nil]
    exact ahead_end hq
  | cons r rs =>
    have hr := hqs r (by simp)
    refine ⟨.dataHeading, _, _, .inr rfl, ?_, rfl, rfl, rfl⟩
    intro R hR hs
    have := ahead_heading hR (hs (by decide)) hq hr.name (part_stops hr (apart_tail ha))
    rw [partsText, Part.text]
    simpa using this

theorem inputLoop_read {bt : Block} (hb : Fresh bt) (hlock : bt.overwrite = false) (hmax : bt.maxName = none) :
    ∀ (qs : List Part) (c : Coll) (fuel : Nat) (p : PState) (R : List Tk) (n0 : Tk) (w0 rest0 : Str), (∀ q ∈ qs, PartOk D c.standard q) → Apart qs → Keyed c →
      (qs.map fun q => lower q.name).Nodup → (∀ q ∈ qs, lower q.name ∉ c.lowerKeys) → (partsText qs).length + 1 < fuel →
      [Tk.fin, .dataHeading] ⊆ R → Peeked p R n0 w0 rest0 →
      NextPart qs n0 w0 rest0 →
      inputLoop D.g bt fuel c p = (unlock (joined c (qs.map fun q => (q.name, q.block bt c.standard))), .ok ())
  | [], c, fuel + 1, p, R, n0, w0, rest0, _, _, _, _, _, _, hR, hp, h0 => by
    obtain ⟨rfl, rfl, rfl⟩ := h0
    rw [inputLoop, D.lx, peek_peeked hp (.inr hR)]
    simp only
    rw [if_neg (by decide), afterStar_peeked hp (by decide)]
    simp only
    rw [take_peeked hp (hR (by decide))]
    simp [joined_nil]
  | q :: qs, c, fuel + 1, p, R, n0, w0, rest0, hq, ha, hk, hnd, hnew, hf, hR, hp, h0 => by
    obtain ⟨rfl, rfl, rfl⟩ := h0
    have hq1 := hq q (by simp)
    obtain ⟨n1, w1, rest1, hn1, hah, hmatch⟩ := parts_ahead (std := c.standard) hq1.tail (fun x hx => hq x (by simp [hx])) ha
    rw [partsText, Part.text] at hf
    simp only [List.length_append] at hf
    have h5 : "data_".toList.length = 5 := rfl
    obtain ⟨R', p', h1, h2, h3⟩ := dataBlock_read hb hlock hmax c.standard hq1.name (stops_parts hq1.tail ha) hn1 hah hq1.es hq1.spaced hq1.reads
      (fuel := fuel) (by omega) (hR (by decide)) hp
    have hk1 := hnew q (by simp)
    obtain ⟨nb, h4⟩ := merge_single (std := c.standard) (b := q.block bt c.standard) hk1 (by rw [hk.1]; exact hk1) (by rw [hk.2]; exact hk1)
    simp only [List.map_cons, List.nodup_cons] at hnd
    have ih := inputLoop_read hb hlock hmax qs (joined c [(q.name, q.block bt c.standard)]) fuel p' R' n1 w1 rest1 (fun x hx => hq x (by simp [hx])) (apart_tail ha)
      (keyed_joined hk _) hnd.2 (fun x hx => by
        show lower x.name ∉ c.lowerKeys ++ _
        rw [List.mem_append]
        rintro (h | h)
        · exact hnew x (by simp [hx]) h
        · simp only [List.map_cons, List.map_nil, List.mem_singleton] at h
          exact hnd.1 (by rw [← h]; exact List.mem_map_of_mem (f := fun q : Part => lower q.name) hx)) (by omega)
      (fun x hx => h1 ((by decide : [Tk.fin, .dataHeading] ⊆ itemFollow) hx)) h2 hmatch
    rw [inputLoop, D.lx, peek_peeked hp (.inr hR)]
    simp only [if_true]
    rw [h3]
    simp only
    rw [show single c.standard q.name (q.es.foldl addEntry (startBlock bt c.standard)) = single c.standard q.name (q.block bt c.standard) from rfl, h4]
    simp only
    rw [ih, joined_joined]
    rfl

/-- A text with data blocks, after any white space, is read into a collection. -/
theorem input_read {bt : Block} (hb : Fresh bt) (hlock : bt.overwrite = false) (hmax : bt.maxName = none) (c : Coll) (hk : Keyed c)
    {q : Part} {qs : List Part} (hq : ∀ x ∈ q :: qs, PartOk D c.standard x) (ha : Apart (q :: qs))
    (hnd : ((q :: qs).map fun q => lower q.name).Nodup) (hnew : ∀ x ∈ q :: qs, lower x.name ∉ c.lowerKeys) (g : Str)
    (hg : ∀ R, D.Outside R → ∀ s n w rest, Lexes D.tb R ("data_".toList ++ s) n w rest → Lexes D.tb R (g ++ ("data_".toList ++ s)) n w rest) :
    Reader.input D.g bt c (g ++ partsText (q :: qs)) = (unlock (joined c ((q :: qs).map fun q => (q.name, q.block bt c.standard))), .ok ()) := by
  have hq1 := hq q (by simp)
  have hstop := part_stops hq1 ha
  have htext : g ++ partsText (q :: qs) = g ++ ("data_".toList ++ (q.name ++ (flat q.words ++ (q.tail ++ partsText qs)))) := by
    rw [partsText, Part.text]; simp
  have hlex : Lexes D.tb [.fin, .dataHeading] (g ++ partsText (q :: qs)) .dataHeading ("data_".toList ++ q.name)
      (flat q.words ++ (q.tail ++ partsText qs)) := by
    rw [htext]
    refine hg _ D.start _ _ _ _ ?_
    have := ahead_heading (R := [.fin, .dataHeading]) D.start (by decide) (g := []) (by intro c hc; simp at hc) hq1.name hstop
    simpa using this
  obtain ⟨p1, h1, h2⟩ := peek_ready (ready_start _) hlex
  -- the first block is read like the others
  have hloop := inputLoop_read hb hlock hmax (q :: qs) c (2 * (g ++ partsText (q :: qs)).length + 11) p1 [.fin, .dataHeading] _ _ _ hq ha hk hnd hnew
    (by simp only [List.length_append]; omega) (fun _ h => h) h2 ⟨rfl, rfl, rfl⟩
  rw [inputLoop, D.lx, peek_peeked h2 (.inr (fun _ h => h))] at hloop
  simp only [if_true] at hloop
  rw [Reader.input, D.lx]
  simp only [h1]
  simp only [if_true]
  exact hloop

/-- A header is skipped. -/
theorem lexes_header {R : List Tk} (hR : D.Outside R) {s : Str} {n : Tk} {w rest : Str} (hs : s.head? ≠ some ';')
    (h : Lexes D.tb R s n w rest) : ∀ (lines : List Str), (∀ l ∈ lines, '\n' ∉ l ∧ (l = [] ∨ l.head? = some '#')) →
      Lexes D.tb R (lines.flatMap (· ++ ['\n']) ++ s) n w rest ∧ (lines.flatMap (· ++ ['\n']) ++ s).head? ≠ some ';'
  | [], _ => ⟨h, hs⟩
  | l :: ls, hl => by
    obtain ⟨ih, ih'⟩ := lexes_header hR hs h ls fun x hx => hl x (by simp [hx])
    obtain ⟨h1, h2⟩ := hl l (by simp)
    rw [List.flatMap_cons, List.append_assoc, List.append_assoc]
    rcases h2 with rfl | h2
    · exact ⟨D.gap hR ih' ih ['\n'] (by simp), by simp⟩
    · cases l with
      | nil => simp at h2
      | cons c l =>
        simp only [List.head?_cons, Option.some.injEq] at h2
        subst h2
        refine ⟨?_, by simp⟩
        have := D.comment hR (l := l) (by simpa using h1) ih' ih
        simpa using this

end Verif.Lex
