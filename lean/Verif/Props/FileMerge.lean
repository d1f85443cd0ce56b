import Verif.Lemmas.FileMerge
import Verif.Props.Collection
import Verif.Props.BlockMerge
/-! # C98 - C100: merging files and dictionaries -/
namespace Verif.Coll
set_option linter.unusedSectionVars false

section
variable [CaseFold]

theorem split_key {nb : Coll} (hn : Consistent nb) {l1 l2 : List (Str × PC)} {k : Str} {pc : PC} (e : nb.childTable = l1 ++ (k, pc) :: l2) :
    (k, pc) ∈ nb.childTable ∧ k ∉ dkeys l1 ∧ k ∈ nb.lowerKeys ∧ (∀ x ∈ dkeys l1, x ∈ nb.lowerKeys) ∧ ∃ b, dget nb.dict k = some b := by
  have hm : (k, pc) ∈ nb.childTable := by rw [e]; simp
  have hk : k ∈ nb.lowerKeys := (hn.mem_table k).mp (List.mem_map_of_mem hm)
  refine ⟨hm, ?_, hk, ?_, dget_isSome.mpr ((hn.mem_dict k).mpr hk)⟩
  · have := hn.nd_table
    rw [e] at this
    simp only [dkeys, List.map_append, List.map_cons, List.nodup_append] at this
    intro hh
    exact this.2.2 k hh k List.mem_cons_self rfl
  · intro x hx
    apply (hn.mem_table x).mp
    rw [e]
    simp only [dkeys, List.map_append, List.mem_append]
    exact .inl hx

theorem mem_keys_of_entry {c c1 nb : Coll} {parent : Option Str} {l1 : List (Str × PC)} (hc : Consistent c) (hc1 : Consistent c1)
    (hn : Consistent nb) (hl1 : ∀ x ∈ dkeys l1, x ∈ nb.lowerKeys)
    (he : ∀ x, entry c1 x = if x ∈ dkeys l1 then (entry nb x).map (incoming c parent) else entry c x) (x : Str) :
    x ∈ c1.lowerKeys ↔ x ∈ dkeys l1 ∨ x ∈ c.lowerKeys := by
  rw [← entry_isSome hc1, he]
  by_cases hx : x ∈ dkeys l1
  · obtain ⟨e, h⟩ := (entry_isSome hn).mpr (hl1 x hx)
    simp [hx, h]
  · rw [if_neg hx, entry_isSome hc]
    simp [hx]

theorem entry_of_parts {nb : Coll} (hn : Consistent nb) {k : Str} {pc : PC} {b : Block} (hm : (k, pc) ∈ nb.childTable) (hb : dget nb.dict k = some b) :
    entry nb k = some ⟨b, pc.blockId, pc.parent⟩ := by
  unfold entry
  rw [hb, dget_of_mem hn.nd_table hm]

theorem stored_congr {c c1 : Coll} (h1 : c1.standard = c.standard) (h2 : c1.unicode = c.unicode) (b : Block) : stored c1 b = stored c b := by
  unfold stored
  rw [h1, h2]

theorem mem_keys_append (l1 : List (Str × PC)) (k : Str) (pc : PC) (x : Str) : x ∈ dkeys (l1 ++ [(k, pc)]) ↔ x ∈ dkeys l1 ∨ x = k := by
  simp [dkeys]

theorem newParent_lower {nb : Coll} (hn : Consistent nb) {parent : Option Str} {k : Str} {pc : PC} (hm : (k, pc) ∈ nb.childTable) :
    (newParent parent pc).map lower = (match pc.parent with | some p => some p | none => parent.map lower) := by
  unfold newParent
  cases hp : pc.parent with
  | none => rfl
  | some p =>
    have : parentOf nb k = some p := by
      unfold parentOf
      rw [dget_of_mem hn.nd_table hm, ← hp]
    simp only [Option.map_some]
    rw [hn.lower_keys p (hn.parents k p this)]

theorem parent_lower {nb : Coll} (hn : Consistent nb) {k p : Str} {pc : PC} (hm : (k, pc) ∈ nb.childTable) (hp : pc.parent = some p) : lower p = p := by
  apply hn.lower_keys
  apply hn.parents k
  unfold parentOf
  rw [dget_of_mem hn.nd_table hm, ← hp]

/-- C98: merging a file that has no block name in common with the receiving file succeeds, in every mode: all blocks of the receiving file
stay as they are, and all blocks of the other file are added behind them, with their contents, names and enclosing blocks. Missing: files in which a
block is not stored under its own name (`C98_renamed_fails`), is unnamed (`C98_unnamed_fails`) or comes before the block that encloses it
(`C98_order_fails`). -/
theorem C98_disjoint_partial (c nb : Coll) (hc : Consistent c) (hn : Consistent nb) (hpl : PlainNames nb) (hpf : ParentsFirst nb) (hf : NamesFit c nb)
    (hd : ∀ k ∈ nb.lowerKeys, k ∉ c.lowerKeys) (mode : Option Mode) (parent : Option Str) (hp : ∀ q, parent = some q → lower q ∈ c.lowerKeys) :
    (c.merge nb { mode := mode, parent := parent }).2 = .ok () ∧
    Consistent (c.merge nb { mode := mode, parent := parent }).1 ∧
    (∀ k, entry (c.merge nb { mode := mode, parent := parent }).1 k =
      if k ∈ nb.lowerKeys then (entry nb k).map (incoming c parent) else entry c k) ∧
    (c.merge nb { mode := mode, parent := parent }).1.inputOrder = c.inputOrder ++ dkeys nb.childTable := by
  have hstep := mergeBlocks_ok (nb := nb) (a := { mode := mode, parent := parent })
    (m := MergeArgs.modeFor { mode := mode, parent := parent } c)
    (fun l1 c1 => Consistent c1 ∧ c1.standard = c.standard ∧ c1.unicode = c.unicode ∧ c1.inputOrder = c.inputOrder ++ dkeys l1 ∧
      ∀ x, entry c1 x = if x ∈ dkeys l1 then (entry nb x).map (incoming c parent) else entry c x) (by
    rintro l1 k pc l2 s e ⟨h1, h2, h3, h4, h5⟩
    obtain ⟨hm, hk1, hkn, hl1, b, hb⟩ := split_key hn e
    obtain ⟨hk, hne, hlen, hbl⟩ := hpl k pc hm
    have hkeys := mem_keys_of_entry hc h1 hn hl1 h5
    have hw : wantedKey pc.blockId true = k := by
      unfold wantedKey
      rw [if_pos rfl, fixName_plain hbl, hk]
    have hks : k ∉ s.coll.lowerKeys := by
      rw [hkeys]
      rintro (hh | hh)
      · exact hk1 hh
      · exact hd k hkn hh
    have hnot : s.coll.contains pc.blockId = false := by
      simp only [contains, hk, decide_eq_false_iff_not]
      intro hv
      apply hks
      cases hsc : s.coll.scoping with
      | dictionary => exact (h1.visible_all hsc _).mp hv
      | «instance» => exact ((h1.visible_top hsc _).mp hv).1
    have hpar : ∀ p, newParent parent pc = some p → lower p ∈ s.coll.lowerKeys := by
      intro p hpp
      rw [hkeys]
      unfold newParent at hpp
      cases hq : pc.parent with
      | none => rw [hq] at hpp; exact .inr (hp p hpp)
      | some q =>
        rw [hq] at hpp
        injection hpp with hpp
        subst hpp
        rw [parent_lower hn hm hq]
        exact .inl (hpf l1 k pc l2 e q hq)
    have hnew := newBlock_plain h1 (name := pc.blockId) (b := b) (parent := newParent parent pc) (hw ▸ hks) hpar (prepare_ok hf h2 hb) (by omega)
    rw [hw, fixName_plain hbl, stored_congr h2 h3, newParent_lower hn hm] at hnew
    refine ⟨⟨added s.coll k ⟨stored c b, pc.blockId, (match pc.parent with | some p => some p | none => parent.map lower)⟩, s.baseKeys, s.items⟩, ?_, ?_, h2, h3, ?_, ?_⟩
    · rw [mergeBlock_eq hn hpl h1 hm hb, if_pos (.inl hnot), hnew]
      rfl
    · refine h1.added hks (hn.lower_keys k hkn) ?_
      intro p hpp
      have := hpar
      unfold newParent at this
      cases hq : pc.parent with
      | none =>
        rw [hq] at hpp this
        simp only at hpp this
        cases parent with
        | none => cases hpp
        | some q =>
          simp only [Option.map_some, Option.some.injEq] at hpp
          rw [← hpp]
          exact this q rfl
      | some q =>
        rw [hq] at hpp this
        simp only [Option.some.injEq] at hpp
        rw [← hpp, ← parent_lower hn hm hq]
        exact this q rfl
    · simp [added, h4, dkeys]
    · intro x
      rw [entry_added h1 hks]
      by_cases hx : x = k
      · rw [if_pos hx, if_pos ((mem_keys_append _ _ _ _).mpr (.inr hx)), hx, entry_of_parts hn hm hb]
        rfl
      · rw [if_neg hx, h5]
        have : x ∈ dkeys (l1 ++ [(k, pc)]) ↔ x ∈ dkeys l1 := by rw [mem_keys_append]; simp [hx]
        simp only [this])
    nb.childTable [] ⟨c, c.blockIds, []⟩ rfl ⟨hc, rfl, rfl, by simp [dkeys], fun x => by simp [dkeys]⟩
  obtain ⟨s', h1, h2, h3, h4, h5, h6⟩ := hstep
  have hmerge : c.merge nb { mode := mode, parent := parent } = (s'.coll, .ok ()) := by
    simp only [merge, baseItems]
    have : nb.blockIds = nb.childTable.map fun x => x.2.blockId := rfl
    rw [this, h1]
  rw [hmerge]
  refine ⟨rfl, h2, ?_, h5⟩
  intro k
  rw [h6]
  simp only [hn.mem_table]

theorem parentOf_of_entry {c : Coll} (h : Consistent c) {k : Str} {e : Entry} (he : entry c k = some e) : parentOf c k = e.parent := by
  rw [parentOf_eq_entry h, he]
  rfl

theorem within_flat {c : Coll} {k x : Str} (h : ∀ y, parentOf c y ≠ some k) : Within c k x ↔ x = k := by
  constructor
  · rintro (hh | hh)
    · exact hh
    · exfalso
      induction hh with
      | child hp => exact h _ hp
      | deeper _ _ ih => exact ih
  · exact .inl

open Classical in
/-- C98: in a file without nested blocks that follows no standard, merging in replace mode succeeds: all blocks of the other file are there
afterwards, in place of blocks of the same names, and the other blocks stay as they are. Missing: files with nested blocks, and files that
follow a standard, see `C98_replace_fails`. -/
theorem C98_replace_partial (c nb : Coll) (hc : Consistent c) (hn : Consistent nb) (hpl : PlainNames nb) (hpf : ParentsFirst nb)
    (hs : c.standard = none) (hflat : ∀ k, parentOf c k = none) (mode : Option Mode) (hm : mode = none ∨ mode = some .replace) :
    (c.merge nb { mode := mode }).2 = .ok () ∧ Consistent (c.merge nb { mode := mode }).1 ∧
    ∀ k, entry (c.merge nb { mode := mode }).1 k = if k ∈ nb.lowerKeys then (entry nb k).map (incoming c none) else entry c k := by
  have hmode : MergeArgs.modeFor { mode := mode } c = .replace := by
    unfold MergeArgs.modeFor
    rcases hm with rfl | rfl
    · simp only [hs, if_true]
    · rfl
  have hstep := mergeBlocks_ok (nb := nb) (a := { mode := mode }) (m := .replace)
    (fun l1 c1 => Consistent c1 ∧ c1.standard = c.standard ∧ c1.unicode = c.unicode ∧
      (∀ x y, parentOf c1 x = some y → y ∈ dkeys l1) ∧
      ∀ x, entry c1 x = if x ∈ dkeys l1 then (entry nb x).map (incoming c none) else entry c x) (by
    rintro l1 k pc l2 s e ⟨h1, h2, h3, h4, h5⟩
    obtain ⟨hm, hk1, hkn, hl1, b, hb⟩ := split_key hn e
    obtain ⟨hk, hne, hlen, hbl⟩ := hpl k pc hm
    have hkeys := mem_keys_of_entry hc h1 hn hl1 h5
    have hw : wantedKey pc.blockId true = k := by
      unfold wantedKey
      rw [if_pos rfl, fixName_plain hbl, hk]
    have hpar : ∀ p, newParent none pc = some p → lower p ∈ dkeys l1 := by
      intro p hpp
      unfold newParent at hpp
      cases hq : pc.parent with
      | none => rw [hq] at hpp; cases hpp
      | some q =>
        rw [hq] at hpp
        injection hpp with hpp
        subst hpp
        rw [parent_lower hn hm hq]
        exact hpf l1 k pc l2 e q hq
    have hwithin : ∀ x, Within s.coll k x ↔ x = k := fun x => within_flat fun y hy => hk1 (h4 y k hy)
    have htop : parentOf s.coll k = none := by
      rw [parentOf_eq_entry h1, h5, if_neg hk1, ← parentOf_eq_entry hc]
      exact hflat k
    have hnew := newBlock_replaces h1 (h2.trans hs) pc.blockId b true (newParent none pc)
      (fun p hpp => (hkeys _).mpr (.inl (hpar p hpp)))
      (by
        rw [hw]
        intro x hx hxl
        rw [(hwithin x).mp hx] at hxl ⊢
        exact top_visible h1 hxl htop)
      (by
        rw [hw]
        intro p hpp hx
        exact hk1 ((hwithin _).mp hx ▸ hpar p hpp))
      (by unfold prepare; rw [h2, hs]; rfl) (by omega)
      (fun x => decide (¬ (k ∈ s.coll.lowerKeys ∧ x = k))) (by
        intro x
        rw [hw]
        simp only [decide_eq_true_eq, hwithin])
    rw [hw, fixName_plain hbl, stored_congr h2 h3, newParent_lower hn hm] at hnew
    generalize hP : (fun x => decide (¬ (k ∈ s.coll.lowerKeys ∧ x = k))) = P at hnew
    have hPk : ∀ x, x ≠ k → P x = true := by
      intro x hx
      rw [← hP]
      simp [hx]
    have hcl : Closed s.coll P := by
      intro x y hy hx
      exfalso
      by_cases hxk : x = k
      · exact hk1 (h4 y k (hxk ▸ hy))
      · rw [hPk x hxk] at hx; cases hx
    have hks : k ∉ (restrict s.coll P).lowerKeys := by
      simp only [restrict, List.mem_filter, not_and]
      intro hin
      rw [← hP]
      simp [hin]
    have hr := h1.restrict hcl
    have hpn : ∀ p, (match pc.parent with | some p => some p | none => (none : Option Str).map lower) = some p → p ∈ dkeys l1 := by
      intro p hpp
      cases hq : pc.parent with
      | none => rw [hq] at hpp; cases hpp
      | some q =>
        rw [hq] at hpp
        simp only [Option.some.injEq] at hpp
        rw [← hpp]
        exact hpf l1 k pc l2 e q hq
    refine ⟨⟨added (restrict s.coll P) k ⟨stored c b, pc.blockId, (match pc.parent with | some p => some p | none => (none : Option Str).map lower)⟩,
      s.baseKeys, s.items⟩, ?_, ?_, h2, h3, ?_, ?_⟩
    · rw [mergeBlock_eq hn hpl h1 hm hb, if_pos (.inr rfl), hnew]
      rfl
    · refine hr.added hks (hn.lower_keys k hkn) ?_
      intro p hpp
      have hp1 := hpn p hpp
      refine List.mem_filter.mpr ⟨(hkeys p).mpr (.inl hp1), hPk p ?_⟩
      rintro rfl
      exact hk1 hp1
    · intro x y hxy
      simp only at hxy
      rw [parentOf_added (fun hh => hks ((hr.mem_table _).mp hh))] at hxy
      rw [mem_keys_append]
      by_cases hx : x = k
      · rw [if_pos hx] at hxy
        exact .inl (hpn y hxy)
      · rw [if_neg hx, parentOf_restrict, hPk x hx, if_pos rfl] at hxy
        exact .inl (h4 x y hxy)
    · intro x
      simp only
      rw [entry_added hr hks]
      by_cases hx : x = k
      · rw [if_pos hx, if_pos ((mem_keys_append _ _ _ _).mpr (.inr hx)), hx, entry_of_parts hn hm hb]
        rfl
      · rw [if_neg hx, entry_restrict, hPk x hx, if_pos rfl, h5]
        have : x ∈ dkeys (l1 ++ [(k, pc)]) ↔ x ∈ dkeys l1 := by rw [mem_keys_append]; simp [hx]
        simp only [this])
    nb.childTable [] ⟨c, c.blockIds, []⟩ rfl ⟨hc, rfl, rfl, fun x y h => (by rw [hflat] at h; cases h), fun x => by simp [dkeys]⟩
  obtain ⟨s', h1, h2, h3, h4, h5, h6⟩ := hstep
  have hmerge : c.merge nb { mode := mode } = (s'.coll, .ok ()) := by
    simp only [merge, baseItems]
    have : nb.blockIds = nb.childTable.map fun x => x.2.blockId := rfl
    rw [hmode, this, h1]
  rw [hmerge]
  refine ⟨rfl, h2, ?_⟩
  intro k
  rw [h6]
  simp only [hn.mem_table]

/-- A top-level block stays where it is while blocks with other names are added. -/
theorem newBlock_keeps {c : Coll} (h : Consistent c) (hs : c.standard ≠ none) {name : Str} {b : Block} {parent : Option Str}
    (hp : ∀ p, parent = some p → lower p ∈ c.lowerKeys) {k : Str} (hk : k ∈ c.lowerKeys) (ht : parentOf c k = none) (hne : wantedKey name true ≠ k)
    (hok : ∃ x, (c.newBlock name b true parent).2 = .ok x) :
    (∀ x ∈ c.lowerKeys, x ∈ (c.newBlock name b true parent).1.lowerKeys) ∧ wantedKey name true ∈ (c.newBlock name b true parent).1.lowerKeys ∧
    parentOf (c.newBlock name b true parent).1 k = none ∧ (c.newBlock name b true parent).1.standard = c.standard ∧
    Consistent (c.newBlock name b true parent).1 := by
  have hcons := newBlock_consistent h name b true parent ⟨hp, fun hh => absurd hh hs⟩
  have hres := newBlock_result h hs name b true parent hp
  generalize c.newBlock name b true parent = q at hcons hres hok
  generalize wantedKey name true = w at hres hne
  cases hres with
  | refused e => obtain ⟨x, hx⟩ := hok; cases hx
  | plain hw =>
    refine ⟨fun x hx => by simp [added, hx], by simp [added], ?_, rfl, hcons⟩
    rw [parentOf_added (fun hh => hw ((h.mem_table _).mp hh)), if_neg (Ne.symm hne)]
    exact ht
  | newKey hw hpo hpn =>
    have hf := freshKey_fresh c.lowerKeys w
    refine ⟨fun x hx => by simp [added, hx], by simp [added, hw], ?_, rfl, hcons⟩
    rw [parentOf_added (fun hh => hf ((h.mem_table _).mp hh)), if_neg ?_]
    · exact ht
    · rintro rfl; exact hf hk
  | moved p ob info hw hpo hpn hob hinfo =>
    have hf := freshKey_fresh c.lowerKeys w
    have hlow := h.lower_keys w hw
    have hfl := freshKey_lower c.lowerKeys (c.lowerKeys.length + 1) w hlow
    generalize freshKey c.lowerKeys (c.lowerKeys.length + 1) w = r at hf hfl hcons
    refine ⟨?_, by simp [added], ?_, rfl, hcons⟩
    · intro x hx
      simp only [added, rekeyed, List.mem_append, List.mem_filter, decide_eq_true_eq, List.mem_singleton]
      by_cases hxw : x = w
      · exact .inr hxw
      · exact .inl (.inl ⟨hx, hxw⟩)
    · have hv := top_visible h hw hpo
      have hip : info.parent = parentOf c w := by rw [parentOf, hinfo]
      have hc' := h.rekeyed (b := ob) (info := info) hw hv hf hfl hip
      have hwn : w ∉ (rekeyed c w r ob info).lowerKeys := by
        simp only [rekeyed, List.mem_append, List.mem_filter, List.mem_singleton, not_or]
        refine ⟨by simp, ?_⟩
        intro e; exact hf (e ▸ hw)
      rw [parentOf_added (fun hh => hwn ((hc'.mem_table _).mp hh)), if_neg (Ne.symm hne),
        parentOf_rekeyed (fun hh => hf ((h.mem_table _).mp hh)), if_neg (by rintro rfl; exact hf hk), if_neg (Ne.symm hne), ht]
      rfl

/-- C98: if a top-level block of a file that follows a standard has the same name as a block of the other file, merging is refused in
strict mode, and also in overlay and unknown modes. -/
theorem C98_clash (c nb : Coll) (hc : Consistent c) (hn : Consistent nb) (hpl : PlainNames nb) (hpf : ParentsFirst nb)
    (hs : c.standard ≠ none) (mode : Option Mode) (hm : mode ≠ some .replace) (parent : Option Str) (hp : ∀ q, parent = some q → lower q ∈ c.lowerKeys)
    (k : Str) (hk : k ∈ c.lowerKeys) (ht : parentOf c k = none) (hkn : k ∈ nb.lowerKeys) :
    (c.merge nb { mode := mode, parent := parent }).2 ≠ .ok () := by
  have hmode : MergeArgs.modeFor { mode := mode, parent := parent } c ≠ .replace := by
    unfold MergeArgs.modeFor
    cases mode with
    | none => simp [hs]
    | some m => exact fun hh => hm (by rw [← hh])
  generalize hM : MergeArgs.modeFor { mode := mode, parent := parent } c = m at hmode
  have := mergeBlocks_fails (nb := nb) (a := { mode := mode, parent := parent }) (m := m) (k0 := k)
    (fun l1 c1 => Consistent c1 ∧ c1.standard = c.standard ∧ (∀ x ∈ dkeys l1, x ∈ c1.lowerKeys) ∧ (∀ x ∈ c.lowerKeys, x ∈ c1.lowerKeys) ∧
      parentOf c1 k = none)
    (by
      rintro l1 k' pc l2 s e hne ⟨h1, h2, h3, h4, h5⟩ hok
      obtain ⟨hm, hk1, hkn, hl1, b, hb⟩ := split_key hn e
      obtain ⟨hk', -, hlen, hbl⟩ := hpl k' pc hm
      have hw : wantedKey pc.blockId true = k' := by
        unfold wantedKey
        rw [if_pos rfl, fixName_plain hbl, hk']
      rw [mergeBlock_eq hn hpl h1 hm hb] at hok ⊢
      by_cases hcon : s.coll.contains pc.blockId = false ∨ m = .replace
      · rw [if_pos hcon] at hok ⊢
        simp only at hok ⊢
        have hpar : ∀ p, newParent parent pc = some p → lower p ∈ s.coll.lowerKeys := by
          intro p hpp
          unfold newParent at hpp
          cases hq : pc.parent with
          | none => rw [hq] at hpp; exact h4 _ (hp p hpp)
          | some q =>
            rw [hq] at hpp
            injection hpp with hpp
            subst hpp
            rw [parent_lower hn hm hq]
            exact h3 _ (hpf l1 k' pc l2 e q hq)
        have hok' : ∃ x, (s.coll.newBlock pc.blockId b true (newParent parent pc)).2 = .ok x := by
          generalize (s.coll.newBlock pc.blockId b true (newParent parent pc)).2 = r at hok
          cases r with
          | error e => cases hok
          | ok x => exact ⟨x, rfl⟩
        obtain ⟨g1, g2, g3, g4, g5⟩ := newBlock_keeps h1 (h2 ▸ hs) hpar (h4 k hk) h5 (hw ▸ hne) hok'
        refine ⟨g5, g4.trans h2, ?_, fun x hx => g1 x (h4 x hx), g3⟩
        intro x hx
        rcases (mem_keys_append _ _ _ _).mp hx with hx | rfl
        · exact g1 x (h3 x hx)
        · exact hw ▸ g2
      · rw [if_neg hcon] at hok
        cases hok)
    (by
      rintro l1 pc l2 s e ⟨h1, h2, h3, h4, h5⟩
      obtain ⟨hm, hk1, hkn, hl1, b, hb⟩ := split_key hn e
      obtain ⟨hk', -, hlen, hbl⟩ := hpl k pc hm
      rw [mergeBlock_eq hn hpl h1 hm hb, if_neg]
      · exact fun hh => nomatch hh
      · rintro (hh | hh)
        · simp only [contains, hk', decide_eq_false_iff_not] at hh
          exact hh (top_visible h1 (h4 k hk) h5)
        · exact hmode hh)
    nb.childTable [] ⟨c, c.blockIds, []⟩ rfl ((hn.mem_table k).mpr hkn) ⟨hc, rfl, fun x hx => (nomatch hx), fun x hx => hx, ht⟩
  simp only [merge, baseItems, hM]
  exact this

/-- Where C98 fails: replace mode never replaces a block of a file that follows a standard, such as CIF: if a top-level block of the file
has the same name as a top-level block of the other file, an error is raised. -/
theorem C98_replace_fails (c nb : Coll) (hc : Consistent c) (hn : Consistent nb) (hpl : PlainNames nb) (hpf : ParentsFirst nb)
    (hs : c.standard ≠ none) (k : Str) (hk : k ∈ c.lowerKeys) (ht : parentOf c k = none) (hkn : k ∈ nb.lowerKeys) (htn : parentOf nb k = none) :
    (c.merge nb { mode := some .replace }).2 ≠ .ok () := by
  have := mergeBlocks_fails (nb := nb) (a := { mode := some .replace }) (m := .replace) (k0 := k)
    (fun l1 c1 => Consistent c1 ∧ c1.standard = c.standard ∧ (∀ x ∈ dkeys l1, x ∈ c1.lowerKeys) ∧ (∀ x ∈ c.lowerKeys, x ∈ c1.lowerKeys) ∧
      parentOf c1 k = none)
    (by
      rintro l1 k' pc l2 s e hne ⟨h1, h2, h3, h4, h5⟩ hok
      obtain ⟨hm, hk1, hkn, hl1, b, hb⟩ := split_key hn e
      obtain ⟨hk', -, hlen, hbl⟩ := hpl k' pc hm
      have hw : wantedKey pc.blockId true = k' := by
        unfold wantedKey
        rw [if_pos rfl, fixName_plain hbl, hk']
      rw [mergeBlock_eq hn hpl h1 hm hb, if_pos (.inr rfl)] at hok ⊢
      simp only at hok ⊢
      have hpar : ∀ p, newParent none pc = some p → lower p ∈ s.coll.lowerKeys := by
        intro p hpp
        unfold newParent at hpp
        cases hq : pc.parent with
        | none => rw [hq] at hpp; cases hpp
        | some q =>
          rw [hq] at hpp
          injection hpp with hpp
          subst hpp
          rw [parent_lower hn hm hq]
          exact h3 _ (hpf l1 k' pc l2 e q hq)
      have hok' : ∃ x, (s.coll.newBlock pc.blockId b true (newParent none pc)).2 = .ok x := by
        generalize (s.coll.newBlock pc.blockId b true (newParent none pc)).2 = r at hok
        cases r with
        | error e => cases hok
        | ok x => exact ⟨x, rfl⟩
      obtain ⟨g1, g2, g3, g4, g5⟩ := newBlock_keeps h1 (h2 ▸ hs) hpar (h4 k hk) h5 (hw ▸ hne) hok'
      refine ⟨g5, g4.trans h2, ?_, fun x hx => g1 x (h4 x hx), g3⟩
      intro x hx
      rcases (mem_keys_append _ _ _ _).mp hx with hx | rfl
      · exact g1 x (h3 x hx)
      · exact hw ▸ g2)
    (by
      rintro l1 pc l2 s e ⟨h1, h2, h3, h4, h5⟩
      obtain ⟨hm, hk1, hkn, hl1, b, hb⟩ := split_key hn e
      obtain ⟨hk', -, hlen, hbl⟩ := hpl k pc hm
      have hw : wantedKey pc.blockId true = k := by
        unfold wantedKey
        rw [if_pos rfl, fixName_plain hbl, hk']
      have hpc : newParent none pc = none := by
        unfold newParent
        have : pc.parent = none := by
          have := htn
          unfold parentOf at this
          rw [dget_of_mem hn.nd_table hm] at this
          exact this
        rw [this]
      rw [mergeBlock_eq hn hpl h1 hm hb, if_pos (.inr rfl), hpc]
      simp only
      have hres := newBlock_result h1 (h2 ▸ hs) pc.blockId b true none (fun p hh => nomatch hh)
      rw [hw] at hres
      generalize s.coll.newBlock pc.blockId b true none = q at hres
      cases hres with
      | refused e => exact fun hh => nomatch hh
      | plain hh => exact absurd (h4 k hk) hh
      | newKey _ hh _ => exact absurd h5 hh
      | moved p _ _ _ _ hh => cases hh)
    nb.childTable [] ⟨c, c.blockIds, []⟩ rfl ((hn.mem_table k).mpr hkn) ⟨hc, rfl, fun x hx => (nomatch hx), fun x hx => hx, ht⟩
  simp only [merge, baseItems, MergeArgs.modeFor]
  exact this

/-- C98: merging single blocks merges these as in C28, and leaves all other blocks alone. -/
theorem C98_single (c nb : Coll) (a : MergeArgs) (ours theirs : Str) (hs : a.single = some (ours, theirs)) (hm : a.mode = some .replace)
    (b b' : Block) (hb : c.getItem ours = .ok b) (hb' : nb.getItem theirs = .ok b') :
    (c.merge nb a).2 = (b.merge b' .replace a.matchAtt).2 ∧ (c.merge nb a).1.getItem ours = .ok (b.merge b' .replace a.matchAtt).1 ∧
    (∀ k, k ≠ lower ours → entry (c.merge nb a).1 k = entry c k) ∧ (c.merge nb a).1.keys = c.keys ∧ (c.merge nb a).1.lowerKeys = c.lowerKeys := by
  have hmerge : c.merge nb a = ({ c with dict := dset c.dict (lower ours) (b.merge b' .replace a.matchAtt).1 }, (b.merge b' .replace a.matchAtt).2) := by
    simp only [merge, hs, mergeSingle, hb, hb', MergeArgs.modeFor, hm]
  rw [hmerge]
  refine ⟨rfl, ?_, ?_, rfl, rfl⟩
  · have : lower ours ∈ c.lowerKeys := by
      apply Classical.byContradiction
      intro hh
      simp [getItem, hh] at hb
    simp only [getItem, this, if_true, dget_dset_self]
  · intro k hk
    simp only [entry, dget_dset, if_neg (Ne.symm hk)]

theorem findIdx_attr (s : Merging) (key : Str) : findBase s none key = .ok (key, s.baseKeys, s.items) := by
  unfold findBase
  rw [isMatch_none]

/-- While blocks of a file without nested blocks are merged, a top-level block stays where it is. -/
theorem mergeBlock_keeps {a : MergeArgs} (ha : a.parent = none) {m : Mode} {nb : Coll} (hflat : ∀ k, parentOf nb k = none) {s : Merging}
    (hs : Consistent s.coll) (hstd : s.coll.standard ≠ none) {k : Str} (hk : k ∈ s.coll.lowerKeys) (ht : parentOf s.coll k = none) {key : Str}
    (hok : (mergeBlock a m nb s key).2 = .ok ()) :
    Consistent (mergeBlock a m nb s key).1.coll ∧ (mergeBlock a m nb s key).1.coll.standard ≠ none ∧
      k ∈ (mergeBlock a m nb s key).1.coll.lowerKeys ∧ parentOf (mergeBlock a m nb s key).1.coll k = none := by
  unfold mergeBlock at hok ⊢
  by_cases hid : key = a.idblock
  · rw [if_pos hid]; exact ⟨hs, hstd, hk, ht⟩
  · rw [if_neg hid] at hok ⊢
    generalize blockAttr a nb key = av at hok ⊢
    cases av with
    | error e => cases hok
    | ok attval =>
      simp only at hok ⊢
      generalize findBase s attval key = fb at hok ⊢
      cases fb with
      | error e => cases hok
      | ok r =>
        obtain ⟨basekey, bk, it⟩ := r
        simp only at hok ⊢
        by_cases hc : s.coll.contains basekey = false ∨ m = .replace
        · rw [if_pos hc] at hok ⊢
          cases hgp : nb.getParent key with
          | error e => rw [hgp] at hok; cases hok
          | ok np =>
            have hnp : np = none := by
              have := hflat (lower key)
              unfold parentOf at this
              unfold getParent at hgp
              cases hd : dget nb.childTable (lower key) with
              | none => rw [hd] at hgp; cases hgp
              | some pc =>
                rw [hd] at hgp this
                injection hgp with hgp
                exact hgp ▸ this
            subst hnp
            rw [hgp] at hok
            simp only [ha] at hok ⊢
            cases hgi : nb.getItem key with
            | error e => rw [hgi] at hok; cases hok
            | ok b =>
              rw [hgi] at hok
              simp only at hok ⊢
              by_cases hw : wantedKey basekey true = k
              · exfalso
                have hres := newBlock_result hs hstd basekey b true none (fun p hh => nomatch hh)
                rw [hw] at hres
                generalize s.coll.newBlock basekey b true none = q at hres hok
                cases hres with
                | refused e => cases hok
                | plain hh => exact hh hk
                | newKey _ hh _ => exact hh ht
                | moved p _ _ _ _ hh => cases hh
              · have hok' : ∃ x, (s.coll.newBlock basekey b true none).2 = .ok x := by
                  generalize s.coll.newBlock basekey b true none = q at hok
                  obtain ⟨c', r⟩ := q
                  cases r with
                  | error e => cases hok
                  | ok x => exact ⟨x, rfl⟩
                obtain ⟨g1, g2, g3, g4, g5⟩ := newBlock_keeps (parent := none) hs hstd (fun p hh => nomatch hh) hk ht hw hok'
                generalize s.coll.newBlock basekey b true none = q at hok g1 g2 g3 g4 g5
                obtain ⟨c', r⟩ := q
                cases r with
                | error e => cases hok
                | ok x => exact ⟨g5, g4 ▸ hstd, g1 k hk, g3⟩
        · rw [if_neg hc] at hok
          exfalso
          cases m with
          | overlay =>
            simp only at hok
            cases hq : s.coll.getItem basekey with
            | error e => rw [hq] at hok; cases hok
            | ok b =>
              rw [hq] at hok
              cases hq' : nb.getItem key with
              | error e => rw [hq'] at hok; cases hok
              | ok b' => rw [hq'] at hok; cases hok
          | _ => cases hok

/-- Merging two files that both have the block `k`, and in the incoming file without the attribute to match. -/
theorem merge_matched_fails {c nb : Coll} {a : MergeArgs} (ha : a.parent = none) (hsi : a.single = none) (hid : a.idblock = []) (hc : Consistent c) (hn : Consistent nb)
    (hpl : PlainNames nb) (hstd : c.standard ≠ none) (hflat : ∀ k, parentOf nb k = none) {k : Str} (hk : k ∈ c.lowerKeys) (ht : parentOf c k = none)
    (hkn : k ∈ nb.lowerKeys) (hatt : ∀ b, dget nb.dict k = some b → ∀ att ∈ a.matchAtt, b.contains att = false) : (c.merge nb a).2 ≠ .ok () := by
  unfold merge
  rw [hsi]
  simp only
  generalize baseItems c a = items
  cases items with
  | error e => exact fun hh => nomatch hh
  | ok items =>
    simp only
    refine mergeBlocks_fails (nb := nb) (a := a) (m := a.modeFor c) (k0 := k)
      (fun _ c1 => Consistent c1 ∧ c1.standard ≠ none ∧ k ∈ c1.lowerKeys ∧ parentOf c1 k = none) ?_ ?_
      nb.childTable [] ⟨c, c.blockIds, items⟩ rfl ((hn.mem_table k).mpr hkn) ⟨hc, hstd, hk, ht⟩
    · rintro l1 k' pc l2 s e - ⟨h1, h2, h3, h4⟩ hok
      exact mergeBlock_keeps ha hflat h1 h2 h3 h4 hok
    · rintro l1 pc l2 s e ⟨h1, h2, h3, h4⟩
      obtain ⟨hm, -, -, -, b, hb⟩ := split_key hn e
      obtain ⟨hlk, hne, hlen, hbl⟩ := hpl k pc hm
      have hget : nb.getItem pc.blockId = .ok b := by simp only [getItem, hlk, hkn, if_true, hb]
      have hpn : pc.parent = none := by
        have := hflat k
        unfold parentOf at this
        rw [dget_of_mem hn.nd_table hm] at this
        exact this
      have hgp : nb.getParent pc.blockId = .ok none := by
        simp only [getParent, hlk, dget_of_mem hn.nd_table hm, hpn]
      have hw : wantedKey pc.blockId true = k := by
        unfold wantedKey
        rw [if_pos rfl, fixName_plain hbl, hlk]
      have hav : blockAttr a nb pc.blockId = .ok none := by
        unfold blockAttr
        cases hma : a.matchAtt with
        | nil => rfl
        | cons att r =>
          simp only [hget, attrOf, hatt b hb att (by rw [hma]; exact List.mem_cons_self)]
          rfl
      unfold mergeBlock
      rw [hid, if_neg hne, hav]
      simp only [findIdx_attr]
      have hcon : s.coll.contains pc.blockId = true := by
        simp only [contains, hlk, decide_eq_true_eq]
        exact top_visible h1 h3 h4
      by_cases hmm : a.modeFor c = .replace
      · rw [if_pos (.inr hmm)]
        simp only [hgp, hget, ha]
        have hres := newBlock_result h1 h2 pc.blockId b true none (fun p hh => nomatch hh)
        rw [hw] at hres
        generalize s.coll.newBlock pc.blockId b true none = q at hres
        cases hres with
        | refused e => exact fun hh => nomatch hh
        | plain hh => exact absurd h3 hh
        | newKey _ hh _ => exact absurd h4 hh
        | moved p _ _ _ _ hh => cases hh
      · rw [if_neg (by rw [hcon]; simp [hmm])]
        cases hmo : a.modeFor c with
        | overlay =>
          simp only
          cases hq : s.coll.getItem pc.blockId with
          | error e => exact fun hh => nomatch hh
          | ok b0 => rw [hget]; exact fun hh => nomatch hh
        | _ => exact fun hh => nomatch hh

theorem isMatch_iff (v w : PyVal) : isMatch (some v) w = true ↔ SameAttr v w := by
  unfold isMatch SameAttr
  rw [Bool.or_eq_true, decide_eq_true_eq]
  refine or_congr eq_comm ?_
  constructor
  · intro h
    split at h
    · exact ⟨_, .inl rfl, of_decide_eq_true h⟩
    · exact ⟨_, .inr rfl, of_decide_eq_true h⟩
    · cases h
  · rintro ⟨l, rfl | rfl, h⟩ <;> exact decide_eq_true h

theorem blockToItem_ok {c : Coll} {a : MergeArgs} {att : Str} (ha : a.matchFn = none) {val : Str → PyVal} : ∀ ks : List Str,
    (∀ k ∈ ks, ∃ b, c.getItem k = .ok b ∧ HasAttr b att (val k)) → blockToItem c a att ks = .ok (ks.map val)
  | [], _ => rfl
  | k :: ks, h => by
    obtain ⟨b, hb, hv⟩ := h k List.mem_cons_self
    have hi : itemOf a att b = .ok (val k) := by
      unfold itemOf attrOf
      rw [ha]
      unfold HasAttr at hv
      split at hv
      · rename_i hc
        simp only [hc, if_true, hv]
        rfl
      · rename_i hc
        rw [if_neg hc, hv]
        rfl
    unfold blockToItem
    simp only [hb, hi, blockToItem_ok ha ks fun x hx => h x (List.mem_cons_of_mem _ hx), List.map_cons]

theorem findIdx_map_unique {k : Str} {p : PyVal → Bool} {val : Str → PyVal} : ∀ {ks : List Str}, k ∈ ks → (∀ x ∈ ks, p (val x) = true ↔ x = k) →
    ∃ i, (ks.map val).findIdx? p = some i ∧ ks[i]? = some k
  | [], h, _ => nomatch h
  | x :: ks, h, hp => by
    by_cases hx : x = k
    · refine ⟨0, ?_, by rw [hx]; rfl⟩
      simp [List.findIdx?_cons, (hp x List.mem_cons_self).mpr hx]
    · have hf : p (val x) = false := by
        cases hh : p (val x) with
        | false => rfl
        | true => exact absurd ((hp x List.mem_cons_self).mp hh) hx
      obtain ⟨i, h1, h2⟩ := findIdx_map_unique (p := p) (val := val) ((List.mem_cons.mp h).resolve_left (Ne.symm hx)) fun y hy => hp y (List.mem_cons_of_mem _ hy)
      refine ⟨i + 1, ?_, by simpa using h2⟩
      simp [List.findIdx?_cons, hf, h1]

open Classical in
/-- C98: when blocks are to be recognised by an attribute, an incoming block takes the place of the block of this file that has the same value of the
attribute (or has it among several), under the name of the latter, whatever its own name is; the other blocks stay. Here for a single incoming
block and a file without nested blocks that follows no standard and whose blocks are listed in the same order in both of its tables.
Missing: several incoming blocks, nested blocks, and files that follow a standard (`C98_replace_fails`). -/
theorem C98_match_partial (c nb : Coll) (hc : Consistent c) (hn : Consistent nb) (hpl : PlainNames c) (hpn : PlainNames nb) (hs : c.standard = none)
    (hflat : ∀ k, parentOf c k = none) (hord : c.blockIds.map lower = c.keys) (k' : Str) (hnb : nb.blockIds = [k'])
    (hflat' : ∀ k, parentOf nb k = none) (b' : Block) (hb' : nb.getItem k' = .ok b') (att : Str) (v : PyVal) (hcon : b'.contains att = true)
    (hv : b'.getItem att = .ok v) (val : Str → PyVal) (hval : ∀ k ∈ c.keys, ∃ b, c.getItem k = .ok b ∧ HasAttr b att (val k))
    (k : Str) (hk : k ∈ c.keys) (huniq : ∀ x ∈ c.keys, SameAttr v (val x) ↔ x = k) :
    ∃ n, lower n = k ∧ n ∈ c.blockIds ∧ (c.merge nb { mode := some .replace, matchAtt := [att] }).2 = .ok () ∧
      ∀ x, entry (c.merge nb { mode := some .replace, matchAtt := [att] }).1 x = if x = k then some ⟨stored c b', n, none⟩ else entry c x := by
  obtain ⟨i, hi1, hi2⟩ := findIdx_map_unique (p := isMatch (some v)) hk fun x hx => (isMatch_iff _ _).trans (huniq x hx)
  have hbi : ∃ n, c.blockIds[i]? = some n ∧ lower n = k := by
    rw [← hord, List.getElem?_map] at hi2
    cases hg : c.blockIds[i]? with
    | none => rw [hg] at hi2; cases hi2
    | some n => rw [hg] at hi2; exact ⟨n, rfl, by simpa using hi2⟩
  obtain ⟨n, hn1, hn2⟩ := hbi
  have hnm : n ∈ c.blockIds := List.mem_of_getElem? hn1
  have hpc : ∃ kk pc, (kk, pc) ∈ c.childTable ∧ pc.blockId = n := by
    obtain ⟨a, ha, he⟩ := List.mem_map.mp hnm
    exact ⟨a.1, a.2, ha, he⟩
  obtain ⟨kk, pc, hpcm, hpcn⟩ := hpc
  obtain ⟨hq1, hq2, hq3, hq4⟩ := hpl kk pc hpcm
  rw [hpcn] at hq1 hq2 hq3 hq4
  have hkk : kk = k := hq1.symm.trans hn2
  subst hkk
  have hkl : kk ∈ c.lowerKeys := (hc.mem_table kk).mp (List.mem_map.mpr ⟨_, hpcm, rfl⟩)
  have hne : k' ≠ [] := by
    have : k' ∈ nb.blockIds := by rw [hnb]; exact List.mem_singleton.mpr rfl
    obtain ⟨a, ha, he⟩ := List.mem_map.mp this
    have := (hpn a.1 a.2 ha).2.1
    rw [he] at this
    exact this
  have hgp : nb.getParent k' = .ok none := by
    have hlk : lower k' ∈ nb.lowerKeys := by
      unfold getItem at hb'
      split at hb'
      · assumption
      · cases hb'
    obtain ⟨pc', h1⟩ := dget_isSome.mpr ((hn.mem_table (lower k')).mpr hlk)
    have h2 := hflat' (lower k')
    unfold parentOf at h2
    rw [h1] at h2
    unfold getParent
    rw [h1]
    exact congrArg Except.ok h2
  have hw : wantedKey n true = kk := by
    unfold wantedKey
    rw [if_pos rfl, fixName_plain hq4, hn2]
  have hwithin : ∀ x, Within c kk x ↔ x = kk := fun x => within_flat fun y hy => by rw [hflat] at hy; cases hy
  have hnew := newBlock_replaces hc hs n b' true none (fun p hh => nomatch hh)
    (by
      rw [hw]
      intro x hx hxl
      rw [(hwithin x).mp hx]
      exact top_visible hc hkl (hflat kk))
    (fun p hh => nomatch hh)
    (by unfold prepare; rw [hs]; rfl) (by omega)
    (fun x => decide (¬ (kk ∈ c.lowerKeys ∧ x = kk))) (by
      intro x
      rw [hw]
      simp only [decide_eq_true_eq, hwithin])
  rw [hw, if_pos rfl, fixName_plain hq4] at hnew
  generalize hP : (fun x => decide (¬ (kk ∈ c.lowerKeys ∧ x = kk))) = P at hnew
  have hPk : ∀ x, x ≠ kk → P x = true := by
    intro x hx
    rw [← hP]
    simp [hx]
  have hcl : Closed c P := by
    intro x y hy hx
    rw [hflat] at hy
    cases hy
  have hks : kk ∉ (restrict c P).lowerKeys := by
    simp only [restrict, List.mem_filter, not_and]
    intro hin
    rw [← hP]
    simp [hin]
  have hmerge : c.merge nb { mode := some .replace, matchAtt := [att] } = (added (restrict c P) kk ⟨stored c b', n, none⟩, .ok ()) := by
    have hitems : baseItems c { mode := some .replace, matchAtt := [att] } = .ok (c.keys.map val) := blockToItem_ok rfl _ hval
    have hattr : blockAttr { mode := some .replace, matchAtt := [att] } nb k' = .ok (some v) := by
      simp only [blockAttr, hb', attrOf, hcon, if_true, hv]
      rfl
    have hfind : findBase ⟨c, c.blockIds, c.keys.map val⟩ (some v) k' =
        .ok (n, c.blockIds.eraseIdx i, (c.keys.map val).eraseIdx i) := by
      simp only [findBase, hi1, hn1]
    have hmode : MergeArgs.modeFor { mode := some .replace, matchAtt := [att] } c = .replace := rfl
    have hone : mergeBlock { mode := some .replace, matchAtt := [att] } .replace nb ⟨c, c.blockIds, c.keys.map val⟩ k' =
        (⟨added (restrict c P) kk ⟨stored c b', n, none⟩, c.blockIds.eraseIdx i, (c.keys.map val).eraseIdx i⟩, .ok ()) := by
      unfold mergeBlock
      rw [if_neg hne, hattr]
      simp only [hfind]
      rw [if_pos (.inr trivial)]
      simp only [hgp, hb', hnew, Option.map_none]
    simp only [merge, hitems, hmode, hnb, mergeBlocks, hone]
  refine ⟨n, hn2, hnm, by rw [hmerge], fun x => ?_⟩
  rw [hmerge]
  simp only
  rw [entry_added (hc.restrict hcl) hks]
  by_cases hx : x = kk
  · rw [if_pos hx, if_pos hx]
  · rw [if_neg hx, if_neg hx, entry_restrict, hPk x hx, if_pos rfl]

/-- C99: one dictionary is taken as it is. -/
theorem C99_one (base : Coll) (m : Mode) : mergeDic [base] m = .ok base := by
  unfold mergeDic
  simp only [mergeDics]
  split
  · rfl
  · split <;> rfl

/-- Where C99 fails: DDL1 dictionaries cannot be merged in any mode. All of them have the block `on_this_dictionary`, which has no
`_name` and so is merged with the block of this name. -/
theorem C99_ddl1_fails (base d : Coll) (ds : List Coll) (m : Mode) (hc : Consistent base) (hn : Consistent d) (hpl : PlainNames d)
    (hstd : base.standard ≠ none) (htop : parentOf base "on_this_dictionary".toList = none) (hflat : ∀ k, parentOf d k = none)
    (hk : "on_this_dictionary".toList ∈ base.lowerKeys) (hkn : "on_this_dictionary".toList ∈ d.lowerKeys)
    (hname : ∀ b, dget d.dict "on_this_dictionary".toList = some b → b.contains "_name".toList = false) (c' : Coll) :
    mergeDic (base :: d :: ds) m ≠ .ok c' := by
  have hcon : base.contains "on_this_dictionary".toList = true := by
    simp only [contains, decide_eq_true_eq]
    rw [hc.lower_keys _ hk]
    exact top_visible hc hk htop
  have hfail := merge_matched_fails (a := { mode := some m, matchAtt := ["_name".toList] }) rfl rfl rfl hc hn hpl hstd hflat hk htop hkn
    (fun b hb att hatt => by rw [List.mem_singleton.mp hatt]; exact hname b hb)
  unfold mergeDic
  simp only [hcon, if_true, mergeDics]
  generalize base.merge d { mode := some m, matchAtt := ["_name".toList] } = q at hfail
  obtain ⟨c1, r⟩ := q
  cases r with
  | error e => exact fun hh => nomatch hh
  | ok u => exact absurd rfl hfail

theorem mergeDics_single {k : Str} {m : Mode} : ∀ (ds : List Coll) (c c' : Coll),
    mergeDics (mergeOuter m k) c ds = (c', .ok ()) →
    c'.lowerKeys = c.lowerKeys ∧ c'.childTable = c.childTable ∧ ∀ x, x ≠ lower k → dget c'.dict x = dget c.dict x
  | [], c, c', h => by
    simp only [mergeDics, Prod.mk.injEq, and_true] at h
    subst h
    exact ⟨rfl, rfl, fun _ _ => rfl⟩
  | d :: ds, c, c', h => by
    rw [mergeDics, mergeOuter] at h
    cases hk : d.keys with
    | nil => rw [hk] at h; cases h
    | cons k' r =>
      rw [hk] at h
      simp only at h
      cases hg : d.getItem k' with
      | error e => rw [hg] at h; cases h
      | ok b' =>
        rw [hg] at h
        simp only at h
        have hone : ∀ q, c.merge d { mode := some m, single := some (k, k'), matchAtt := ["_item.name".toList], matchFn := some findParent } = q →
            q.1.lowerKeys = c.lowerKeys ∧ q.1.childTable = c.childTable ∧ ∀ x, x ≠ lower k → dget q.1.dict x = dget c.dict x := by
          rintro q rfl
          simp only [merge, mergeSingle, hg]
          cases c.getItem k with
          | error e => exact ⟨rfl, rfl, fun _ _ => rfl⟩
          | ok b =>
            simp only
            exact ⟨trivial, trivial, fun x hx => by rw [dget_dset, if_neg (Ne.symm hx)]⟩
        generalize c.merge d { mode := some m, single := some (k, k'), matchAtt := ["_item.name".toList], matchFn := some findParent } = q at h hone
        obtain ⟨c1, r1⟩ := q
        cases r1 with
        | error e => cases h
        | ok u =>
          cases u
          simp only at h
          obtain ⟨h1, h2, h3⟩ := mergeDics_single ds c1 c' h
          obtain ⟨g1, g2, g3⟩ := hone _ rfl
          exact ⟨h1.trans g1, h2.trans g2, fun x hx => (h3 x hx).trans (g3 x hx)⟩

/-- Where C99 fails: dictionaries with their definitions in save frames lose all definitions but those of the first dictionary: only the
outer data blocks are merged. -/
theorem C99_frames_fails (base : Coll) (ds : List Coll) (m : Mode) (k : Str) (hk : base.keys = [k])
    (hd : base.contains "on_this_dictionary".toList = false) (c' : Coll) (h : mergeDic (base :: ds) m = .ok c') :
    c'.lowerKeys = base.lowerKeys ∧ ∀ x, x ≠ lower k → entry c' x = entry base x := by
  unfold mergeDic at h
  simp only [hd, hk] at h
  generalize hq : mergeDics (mergeOuter m k) base ds = q at h
  obtain ⟨c1, r⟩ := q
  cases r with
  | error e => cases h
  | ok u =>
    cases u
    simp only [Bool.false_eq_true, if_false, Except.ok.injEq] at h
    subst h
    obtain ⟨h1, h2, h3⟩ := mergeDics_single ds base c1 hq
    refine ⟨h1, fun x hx => ?_⟩
    unfold entry
    rw [h2, h3 x hx]

/-- Where C99 fails: if the first dictionary has several blocks but not `on_this_dictionary`, the others are ignored. -/
theorem C99_several_fails (base : Coll) (ds : List Coll) (m : Mode) (hk : base.keys.length ≠ 1)
    (hd : base.contains "on_this_dictionary".toList = false) : mergeDic (base :: ds) m = .ok base := by
  unfold mergeDic
  simp only [hd]
  split
  · rename_i h; cases h
  · split
    · rename_i k hkk; rw [hkk] at hk; exact absurd rfl hk
    · rfl

/-- C99 for the outer blocks of two dictionaries with save frames: the merged block has the items of both, with the values of the second
dictionary where both have one. Missing: the definitions, see `C99_frames_fails`. -/
theorem C99_outer_partial (base d : Coll) (k k' : Str) (hk : base.keys = [k]) (hk' : ∃ r, d.keys = k' :: r)
    (hd : base.contains "on_this_dictionary".toList = false) (b b' : Block) (hb : base.getItem k = .ok b) (hb' : d.getItem k' = .ok b')
    (hr : Block.Reachable b) (hr' : Block.Reachable b') (hrect : b'.Rect) (c' : Coll) (h : mergeDic [base, d] .replace = .ok c') :
    ∃ b2, c'.getItem k = .ok b2 ∧ ∀ n, b2.lookup n = if b'.contains n = true then b'.lookup n else b.lookup n := by
  obtain ⟨r, hk'⟩ := hk'
  unfold mergeDic at h
  simp only [hd, hk, Bool.false_eq_true, if_false, mergeDics, mergeOuter, hk', hb'] at h
  obtain ⟨h1, h2, -⟩ := C98_single base d { mode := some .replace, single := some (k, k'), matchAtt := ["_item.name".toList], matchFn := some findParent }
    k k' rfl rfl b b' hb hb'
  generalize base.merge d { mode := some .replace, single := some (k, k'), matchAtt := ["_item.name".toList], matchFn := some findParent } = q at h h1 h2
  obtain ⟨c1, r1⟩ := q
  cases r1 with
  | error e => cases h
  | ok u =>
    cases u
    simp only [Except.ok.injEq] at h
    subst h
    refine ⟨_, h2, ?_⟩
    exact (Block.C28_replace b b' _ hr hr' _ hrect (Prod.ext rfl h1.symm)).2.1

theorem selectNot_list (ch : List PyVal) : ∀ names : List PyVal, selectNot (.list ch) names = .ok (names.filter fun v => decide (v ∉ ch))
  | [] => rfl
  | v :: vs => by
    simp only [selectNot, notAmong, selectNot_list ch vs, List.filter_cons]

theorem filter_single {α : Type} {p : α → Bool} {r : α} : ∀ {l : List α}, l.filter p = [r] ↔
    ∃ l1 l2, l = l1 ++ r :: l2 ∧ p r = true ∧ ∀ x ∈ l1 ++ l2, p x = false := by
  intro l
  constructor
  · intro h
    rw [List.filter_eq_cons_iff] at h
    obtain ⟨l1, l2, h1, h2, h3, h4⟩ := h
    refine ⟨l1, l2, h1, h3, fun x hx => ?_⟩
    rcases List.mem_append.mp hx with hx | hx
    · simpa using h2 x hx
    · simpa using List.filter_eq_nil_iff.mp h4 x hx
  · rintro ⟨l1, l2, rfl, h2, h3⟩
    rw [List.filter_append, List.filter_cons, if_pos h2, List.filter_eq_nil_iff.mpr, List.filter_eq_nil_iff.mpr]
    · rfl
    · intro x hx
      rw [h3 x (List.mem_append_right _ hx)]
      simp
    · intro x hx
      rw [h3 x (List.mem_append_left _ hx)]
      simp

/-- C100: in a definition with several names and lists of parents and children, the topmost parent is the one name that is not listed as
a child; if there is none, or more than one, no parent is found. Missing: definitions with a single child, see `C100_text_fails`. -/
theorem C100_topmost_partial (b : Block) (names children : List PyVal) (hn : b.lookup "_item.name".toList = some (.list names))
    (hch : b.lookup "_item_linked.child_name".toList = some (.list children)) (hp : b.contains "_item_linked.parent_name".toList = true) (r : PyVal) :
    (findParent b = .ok r ↔ ∃ l1 l2, names = l1 ++ r :: l2 ∧ r ∉ children ∧ ∀ x ∈ l1 ++ l2, x ∈ children) ∧
    (findParent b = .ok r ∨ (∃ r', findParent b = .ok r') ∨ findParent b = .error .cif) := by
  have hn' := Block.lookup_some.mp hn
  have hch' := Block.lookup_some.mp hch
  have c1 : b.contains "_item.name".toList = true := Block.contains_iff.mpr (Block.getItem_ok_mem hn')
  have c2 : b.contains "_item_linked.child_name".toList = true := Block.contains_iff.mpr (Block.getItem_ok_mem hch')
  have hfp : findParent b = match names.filter fun v => decide (v ∉ children) with
      | [x] => .ok x
      | _ => .error .cif := by
    unfold findParent
    simp only [c1, c2, hp, hn', hch', Bool.true_eq_false, if_false, selectNot_list]
    split <;> simp_all
  rw [hfp]
  constructor
  · have := filter_single (p := fun v => decide (v ∉ children)) (r := r) (l := names)
    simp only [decide_eq_true_eq, decide_eq_false_iff_not, Classical.not_not] at this
    rw [← this]
    constructor
    · intro hh
      split at hh
      · injection hh with hh
        subst hh
        assumption
      · cases hh
    · intro hh
      rw [hh]
  · split
    · exact .inr (.inl ⟨_, rfl⟩)
    · exact .inr (.inr rfl)

/-- C100: a definition of one item has no other parent, and a definition without names none. -/
theorem C100_plain (b : Block) : (b.contains "_item.name".toList = false → findParent b = .ok .none) ∧
    ∀ s, b.lookup "_item.name".toList = some (.str s) → findParent b = .ok (.str s) := by
  constructor
  · intro h
    unfold findParent
    rw [if_pos h]
  · intro s h
    have hn := Block.lookup_some.mp h
    have c1 : b.contains "_item.name".toList = true := Block.contains_iff.mpr (Block.getItem_ok_mem hn)
    unfold findParent
    simp only [c1, hn, Bool.true_eq_false, if_false]

/-- Where C100 fails: if the definition has one child, given as a text, a name that is part of the name of the child is taken for a child
as well; so the parent of an item is not found if its name is part of the name of the child. -/
theorem C100_text_fails (b : Block) (parent child : Str) (hpart : parent <:+: child)
    (hn : b.lookup "_item.name".toList = some (.list [.str parent, .str child]))
    (hch : b.lookup "_item_linked.child_name".toList = some (.str child)) (hp : b.contains "_item_linked.parent_name".toList = true) :
    findParent b = .error .cif := by
  have hn' := Block.lookup_some.mp hn
  have hch' := Block.lookup_some.mp hch
  have c1 : b.contains "_item.name".toList = true := Block.contains_iff.mpr (Block.getItem_ok_mem hn')
  have c2 : b.contains "_item_linked.child_name".toList = true := Block.contains_iff.mpr (Block.getItem_ok_mem hch')
  unfold findParent
  simp only [c1, c2, hp, hn', hch', Bool.true_eq_false, if_false, selectNot, notAmong, hpart, List.infix_refl, not_true, decide_false,
    Bool.false_eq_true]

end

section Samples
attribute [local instance] asciiFold

/-- A check of `PlainNames` and `ParentsFirst`. -/
def plainFile : List (Str × PC) → List Str → Bool
  | [], _ => true
  | (k, pc) :: l, seen => decide (lower pc.blockId = k ∧ pc.blockId ≠ [] ∧ pc.blockId.length ≤ 75 ∧ ∀ ch ∈ pc.blockId, ch ≠ ' ' ∧ ch ≠ '\t') &&
    (match pc.parent with | none => true | some p => decide (p ∈ seen)) && plainFile l (seen ++ [k])

theorem plainFile_names : ∀ (l : List (Str × PC)) (seen : List Str), plainFile l seen = true → ∀ k pc, (k, pc) ∈ l →
    lower pc.blockId = k ∧ pc.blockId ≠ [] ∧ pc.blockId.length ≤ 75 ∧ ∀ ch ∈ pc.blockId, ch ≠ ' ' ∧ ch ≠ '\t'
  | (k', pc') :: l, seen, h, k, pc, hm => by
    simp only [plainFile, Bool.and_eq_true, decide_eq_true_eq] at h
    rcases List.mem_cons.mp hm with e | hm
    · cases e; exact h.1.1
    · exact plainFile_names l _ h.2 k pc hm

theorem plainFile_parents : ∀ (l : List (Str × PC)) (seen : List Str), plainFile l seen = true → ∀ l1 k pc l2, l = l1 ++ (k, pc) :: l2 →
    ∀ p, pc.parent = some p → p ∈ seen ++ dkeys l1
  | [], _, _, l1, k, pc, l2, e, _, _ => by cases l1 <;> cases e
  | (k', pc') :: l, seen, h, l1, k, pc, l2, e, p, hp => by
    simp only [plainFile, Bool.and_eq_true] at h
    cases l1 with
    | nil =>
      cases e
      have h2 := h.1.2
      rw [hp] at h2
      exact List.mem_append_left _ (of_decide_eq_true h2)
    | cons a l1 =>
      cases e
      have := plainFile_parents _ _ h.2 l1 k pc l2 rfl p hp
      rw [List.append_assoc] at this
      exact this

theorem plain_of {nb : Coll} (h : plainFile nb.childTable [] = true) : PlainNames nb ∧ ParentsFirst nb :=
  ⟨fun k pc hm => plainFile_names _ _ h k pc hm, fun l1 k pc l2 e p hp => by
    have := plainFile_parents _ _ h l1 k pc l2 e p hp
    rwa [List.nil_append] at this⟩

theorem flat_of {c : Coll} (h : (c.childTable.all fun a => a.2.parent.isNone) = true) (k : Str) : parentOf c k = none := by
  unfold parentOf
  cases hd : dget c.childTable k with
  | none => rfl
  | some pc =>
    have := List.all_eq_true.mp h _ (dget_mem hd)
    cases hp : pc.parent with
    | none => exact hp
    | some p => rw [hp] at this; cases this

/-- An empty file. -/
def noFile : Coll := { scoping := .dictionary, standard := some "Dic".toList }

/-- `P` encloses `Q`. -/
def pair : Coll := run noFile [.new "P".toList (itemBlock "_p" "1") true none, .new "Q".toList (itemBlock "_q" "2") true (some "P".toList)]

theorem pair_consistent : Consistent pair := by
  refine reachable_consistent ?_
  unfold pair noFile
  simp only [run]
  refine .step _ (.step _ (.start _ _ _) ?_) ?_ <;> refine ⟨?_, fun h => ?_⟩
  all_goals first
    | (exact absurd h (by decide +kernel))
    | skip
  · intro q hq; cases hq
  · intro q hq; injection hq with hq; subst hq; decide +kernel

/-- `P` and `MAIN`. -/
def clashing : Coll := run noFile [.new "P".toList (itemBlock "_p" "1") true none, .new "MAIN".toList (itemBlock "_q" "2") true none]

theorem clashing_consistent : Consistent clashing := by
  refine reachable_consistent ?_
  unfold clashing noFile
  simp only [run]
  refine .step _ (.step _ (.start _ _ _) ?_) ?_ <;> refine ⟨?_, fun h => ?_⟩
  all_goals first
    | (exact absurd h (by decide +kernel))
    | (intro q hq; cases hq)

/-- A file in which `child` was put inside `P` afterwards. -/
def swapped : Coll := run noFile
  [.new "child".toList (itemBlock "_p" "1") true none, .new "P".toList (itemBlock "_q" "2") true none, .setParent "P".toList "child".toList]

/-- A file with the data blocks `m` and `x` and a save frame `x` inside `m`. -/
def twice : Coll := run noFile
  [.new "m".toList (itemBlock "_p" "1") true none, .new "x".toList (itemBlock "_p" "1") true (some "m".toList),
   .new "x".toList (itemBlock "_q" "2") true none]

/-- A file without a standard. -/
def freeFile : Coll := run { scoping := .dictionary, standard := none } [.new "P".toList (itemBlock "_z" "9") true none, .new "R".toList (itemBlock "_r" "3") true none]

theorem freeFile_consistent : Consistent freeFile := by
  refine reachable_consistent ?_
  unfold freeFile
  simp only [run]
  refine .step _ (.step _ (.start _ _ _) ?_) ?_ <;>
    refine ⟨fun q hq => (nomatch hq), fun _ => ⟨fun x _ hx => ?_, fun q hq => (nomatch hq)⟩⟩
  · cases hx
  · exact (by decide +kernel : ∀ x ∈ (({ scoping := .dictionary, standard := none } : Coll).step (.new "P".toList (itemBlock "_z" "9") true none)).lowerKeys,
      x ∈ (({ scoping := .dictionary, standard := none } : Coll).step (.new "P".toList (itemBlock "_z" "9") true none)).keys) x hx

/-- `C98_disjoint_partial` applies. -/
example : Consistent demo ∧ Consistent pair ∧ PlainNames pair ∧ ParentsFirst pair ∧ NamesFit demo pair ∧ (∀ k ∈ pair.lowerKeys, k ∉ demo.lowerKeys) ∧
    (∀ q, some "OTHER".toList = some q → lower q ∈ demo.lowerKeys) :=
  ⟨reachable_consistent demo_reachable, pair_consistent, (plain_of (by decide +kernel)).1, (plain_of (by decide +kernel)).2,
    fun h => absurd h (by decide +kernel), by decide +kernel, fun q h => by cases h; decide +kernel⟩

/-- A block `other` with the same `_r` as the block `R` of `freeFile`. -/
def renamedFile : Coll := run { scoping := .dictionary, standard := none } [.new "other".toList (itemBlock "_r" "3") true none]

/-- `C98_match_partial` applies. -/
example : freeFile.blockIds.map lower = freeFile.keys ∧ renamedFile.blockIds = ["other".toList] ∧
    (renamedFile.getItem "other".toList).isOk = true ∧ (itemBlock "_r" "3").contains "_r".toList = true ∧ freeFile.keys = ["p".toList, "r".toList] ∧
    (freeFile.merge renamedFile { mode := some .replace, matchAtt := ["_r".toList] }).2 = .ok () ∧
    (freeFile.merge renamedFile { mode := some .replace, matchAtt := ["_r".toList] }).1.keys = ["p".toList, "r".toList] := by decide +kernel

/-- `C98_replace_partial` applies. -/
example : Consistent freeFile ∧ Consistent pair ∧ PlainNames pair ∧ ParentsFirst pair ∧ freeFile.standard = none ∧ ∀ k, parentOf freeFile k = none :=
  ⟨freeFile_consistent, pair_consistent, (plain_of (by decide +kernel)).1, (plain_of (by decide +kernel)).2, by decide +kernel, flat_of (by decide +kernel)⟩

/-- `C98_clash` and `C98_replace_fails` apply. -/
example : Consistent demo ∧ Consistent clashing ∧ PlainNames clashing ∧ ParentsFirst clashing ∧ demo.standard ≠ none ∧ "main".toList ∈ demo.lowerKeys ∧
    parentOf demo "main".toList = none ∧ "main".toList ∈ clashing.lowerKeys ∧ parentOf clashing "main".toList = none :=
  ⟨reachable_consistent demo_reachable, clashing_consistent, (plain_of (by decide +kernel)).1, (plain_of (by decide +kernel)).2, by decide +kernel,
    by decide +kernel, by decide +kernel, by decide +kernel, by decide +kernel⟩

/-- Where C98 fails: a strict merge that is refused has already added the blocks before the one that clashes. -/
theorem C98_atomic_fails : Consistent demo ∧ Consistent clashing ∧ (demo.merge clashing { mode := some .strict }).2 = .error .star ∧
    entry demo "p".toList = none ∧ (entry (demo.merge clashing { mode := some .strict }).1 "p".toList).isSome = true :=
  ⟨reachable_consistent demo_reachable, clashing_consistent, by decide +kernel, by decide +kernel, by decide +kernel⟩

/-- Where C98 fails: a block that comes before the block that encloses it is lost, and the tables of the file no longer agree. -/
theorem C98_order_fails : (swapped.getItem "child".toList).isOk = true ∧ (noFile.merge swapped).2 = .ok () ∧
    "child".toList ∈ swapped.keys ∧ "child".toList ∉ (noFile.merge swapped).1.keys ∧ "child".toList ∈ (noFile.merge swapped).1.lowerKeys := by
  refine ⟨?_, ?_, ?_, ?_, ?_⟩ <;> decide +kernel

/-- Where C98 fails: a file with a save frame named like a data block cannot be merged, not even into an empty file. -/
theorem C98_renamed_fails : twice.keys = ["m".toList, "x".toList, "x+".toList] ∧ (noFile.merge twice).2 = .error .star := by
  refine ⟨?_, ?_⟩ <;> decide +kernel

/-- Where C98 fails: blocks without a name are skipped. -/
theorem C98_unnamed_fails (c nb : Coll) (h : nb.blockIds = [[]]) (mode : Option Mode) (parent : Option Str) :
    c.merge nb { mode := mode, parent := parent } = (c, .ok ()) := by
  simp only [merge, baseItems, h, mergeBlocks, mergeBlock, if_true]

example : (run noFile [.new [] (itemBlock "_p" "1") true none]).blockIds = [[]] := by decide +kernel

/-- `C98_single` applies: the values of the second file win. -/
example : demo.getItem "MAIN".toList = .ok (stored demo (itemBlock "_a" "1")) ∧ pair.getItem "p".toList = .ok (stored pair (itemBlock "_p" "1")) := by
  refine ⟨?_, ?_⟩ <;> decide +kernel

/-- A small DDL1 dictionary. -/
def ddl1Dic (n : String) : Coll := run noFile
  [.new "on_this_dictionary".toList (itemBlock "_dictionary_name" "d") true none, .new n.toList (itemBlock "_name" n) true none]

theorem ddl1Dic_consistent (n : String) : Consistent (ddl1Dic n) := by
  refine reachable_consistent ?_
  unfold ddl1Dic noFile
  simp only [run]
  refine .step _ (.step _ (.start _ _ _) ?_) ?_ <;> refine ⟨fun q hq => (nomatch hq), fun h => ?_⟩
  · cases h
  · exact absurd h (by decide +kernel)

/-- `C99_ddl1_fails` applies. -/
example : Consistent (ddl1Dic "_x") ∧ Consistent (ddl1Dic "_y") ∧ PlainNames (ddl1Dic "_y") ∧ (ddl1Dic "_x").standard ≠ none ∧
    parentOf (ddl1Dic "_x") "on_this_dictionary".toList = none ∧ (∀ k, parentOf (ddl1Dic "_y") k = none) ∧
    "on_this_dictionary".toList ∈ (ddl1Dic "_x").lowerKeys ∧ "on_this_dictionary".toList ∈ (ddl1Dic "_y").lowerKeys ∧
    dget (ddl1Dic "_y").dict "on_this_dictionary".toList = some (stored noFile (itemBlock "_dictionary_name" "d")) ∧
    (stored noFile (itemBlock "_dictionary_name" "d")).contains "_name".toList = false :=
  ⟨ddl1Dic_consistent _, ddl1Dic_consistent _, (plain_of (by decide +kernel)).1, by decide +kernel, by decide +kernel, flat_of (by decide +kernel),
    by decide +kernel, by decide +kernel, by decide +kernel, by decide +kernel⟩

/-- A dictionary with a save frame. -/
def framedDic (n v : String) : Coll := run noFile [.new n.toList (itemBlock "_dictionary.title" n) true none,
  .new v.toList (itemBlock "_item.name" v) true (some n.toList), .scoping .instance]

/-- `C99_frames_fails` and `C99_outer_partial` apply: the result has the title of the second dictionary, but not its definition. -/
example : (framedDic "a" "_x").keys = ["a".toList] ∧ (framedDic "b" "_y").keys = ["b".toList] ∧
    (framedDic "a" "_x").contains "on_this_dictionary".toList = false ∧
    ((mergeDic [framedDic "a" "_x", framedDic "b" "_y"]).toOption.map fun c => (c.lowerKeys, (c.getItem "a".toList).toOption.bind (·.lookup "_dictionary.title".toList))) =
      some (["a".toList, "_x".toList], some (.str "b".toList)) := by
  refine ⟨?_, ?_, ?_, ?_⟩ <;> decide +kernel

/-- `C99_several_fails` applies. -/
example : clashing.keys.length ≠ 1 ∧ clashing.contains "on_this_dictionary".toList = false := by
  refine ⟨?_, ?_⟩ <;> decide +kernel

/-- A definition of two items. -/
def linkedDef (children : PyVal) : Block := ({} : Block).run [.add "_item.name".toList (.list [.str "_a.id".toList, .str "_b_a.id".toList]) true,
  .add "_item_linked.parent_name".toList (.str "_a.id".toList) true, .add "_item_linked.child_name".toList children true]

/-- `C100_topmost_partial` and `C100_text_fails` (with a parent named like a part of the child) apply. -/
example : (linkedDef (.list [.str "_b_a.id".toList])).lookup "_item.name".toList = some (.list [.str "_a.id".toList, .str "_b_a.id".toList]) ∧
    (linkedDef (.list [.str "_b_a.id".toList])).lookup "_item_linked.child_name".toList = some (.list [.str "_b_a.id".toList]) ∧
    (linkedDef (.list [.str "_b_a.id".toList])).contains "_item_linked.parent_name".toList = true ∧
    findParent (linkedDef (.list [.str "_b_a.id".toList])) = .ok (.str "_a.id".toList) ∧
    (linkedDef (.str "_b_a.id".toList)).lookup "_item.name".toList = some (.list [.str "_a.id".toList, .str "_b_a.id".toList]) ∧
    (linkedDef (.str "_b_a.id".toList)).lookup "_item_linked.child_name".toList = some (.str "_b_a.id".toList) ∧
    (linkedDef (.str "_b_a.id".toList)).contains "_item_linked.parent_name".toList = true ∧ "_a.id".toList <:+: "_b_a.id".toList := by
  refine ⟨?_, ?_, ?_, ?_, ?_, ?_, ?_, ?_⟩ <;> decide +kernel

end Samples
end Verif.Coll
