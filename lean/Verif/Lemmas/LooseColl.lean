import Verif.Lemmas.CollectionMerge
/-! # What collections satisfy while a file is being read

While blocks are put together, lists of visible keys do not yet agree with the scoping. -/
set_option linter.unusedSectionVars false

namespace Verif.Coll
variable [CaseFold]

/-- The tables of a collection have the same keys. Keys of top-level blocks are visible and satisfy `D`; keys of other blocks
satisfy `S`. -/
structure Loose (D S : Str → Prop) (c : Coll) : Prop where
  ndT : (dkeys c.childTable).Nodup
  ndK : c.lowerKeys.Nodup
  dict : ∀ k, k ∈ dkeys c.dict ↔ k ∈ c.lowerKeys
  table : ∀ k, k ∈ dkeys c.childTable ↔ k ∈ c.lowerKeys
  order : ∀ k ∈ c.lowerKeys, k ∈ c.inputOrder
  low : ∀ k ∈ c.lowerKeys, lower k = k
  top : ∀ k pc, dget c.childTable k = some pc → pc.parent = none → k ∈ c.visible ∧ D k
  sub : ∀ k pc, dget c.childTable k = some pc → pc.parent ≠ none → S k

/-- All blocks are visible. -/
def Shown (c : Coll) : Prop := ∀ k ∈ c.lowerKeys, k ∈ c.visible

theorem Loose.weaken {D S D' S' : Str → Prop} {c : Coll} (h : Loose D S c) (hd : ∀ k, D k → D' k) (hs : ∀ k, S k → S' k) : Loose D' S' c :=
  ⟨h.ndT, h.ndK, h.dict, h.table, h.order, h.low, fun k pc h1 h2 => ⟨(h.top k pc h1 h2).1, hd k (h.top k pc h1 h2).2⟩,
    fun k pc h1 h2 => hs k (h.sub k pc h1 h2)⟩

theorem Loose.getItem {D S : Str → Prop} {c : Coll} (h : Loose D S c) {k : Str} (hk : lower k ∈ c.lowerKeys) :
    ∃ b, c.getItem k = .ok b ∧ dget c.dict (lower k) = some b := by
  obtain ⟨b, hb⟩ := dget_isSome.mpr ((h.dict _).mpr hk)
  exact ⟨b, by simp [Coll.getItem, hk, hb], hb⟩

theorem mem_pyErase_ne {l : List Str} {x y : Str} (h : x ≠ y) : x ∈ pyErase l y ↔ x ∈ l := by
  induction l with
  | nil => simp [pyErase]
  | cons a r ih =>
    by_cases e : a = y
    · subst e
      simp [pyErase, h]
    · simp [pyErase, e] at ih ⊢
      rw [ih]

theorem children_relinked {t : Dict Str PC} {old new : Str} (hne : new ≠ old) (c : Coll) :
    ({ c with childTable := relinkTable t old new } : Coll).children old = [] := by
  unfold children
  simp only [List.map_eq_nil_iff, List.filter_eq_nil_iff, decide_eq_true_eq]
  intro a ha
  simp only [relinkTable, List.mem_map] at ha
  obtain ⟨q, _, rfl⟩ := ha
  exact relink_ne_old hne _

theorem relink_none {old new : Str} {p : Option Str} : relink old new p = none ↔ p = none := by
  cases p <;> simp [relink]

/-- Giving a visible block another key. -/
theorem Loose.rekey {D S : Str → Prop} {c : Coll} (h : Loose D S c) {old new : Str} (ho : old ∈ c.lowerKeys) (hv : old ∈ c.visible)
    (hnew : new ∉ c.lowerKeys) (hlow : lower new = new) (hD : D old → D new) (hS : S old → S new) :
    ∃ c', c.rekey old new [] = (c', .ok ()) ∧ Loose D S c' ∧ (Shown c → Shown c') ∧ c'.standard = c.standard ∧
      ∀ x, x ∈ c'.lowerKeys ↔ (x ∈ c.lowerKeys ∧ x ≠ old) ∨ x = new := by
  have hlo := h.low old ho
  obtain ⟨b, hb, hb'⟩ := h.getItem (k := old) (by rw [hlo]; exact ho)
  obtain ⟨info, hi⟩ := dget_isSome.mpr ((h.table old).mpr ho)
  have hne : new ≠ old := fun e => hnew (e ▸ ho)
  have hdel : ({ c with childTable := relinkTable c.childTable old new } : Coll).delItem old =
      ({ c with
          dict := ddel c.dict old
          childTable := ddel (relinkTable c.childTable old new) old
          visible := pyErase c.visible old
          lowerKeys := pyErase c.lowerKeys old
          inputOrder := pyErase c.inputOrder old }, .ok ()) := by
    unfold delItem delFuel
    have e1 : ({ c with childTable := relinkTable c.childTable old new } : Coll).getItem old = .ok b := hb
    rw [e1]
    simp only
    rw [hlo, children_relinked hne]
    simp only [forEach]
    unfold removeKey
    rw [if_neg (Classical.not_not.mpr ((h.dict old).mpr ho))]
    simp only [dkeys_relinkTable]
    rw [if_neg (Classical.not_not.mpr ((h.table old).mpr ho)), pyRemove_eq hv]
    simp only
    rw [pyRemove_eq ho]
    simp only
    rw [pyRemove_eq (h.order old ho)]
  have hkeys : ∀ x, x ∈ pyErase c.lowerKeys old ↔ x ∈ c.lowerKeys ∧ x ≠ old := by
    intro x
    rw [pyErase_eq_filter h.ndK]
    simp
  have hnk : new ∉ pyErase c.lowerKeys old := fun hx => hnew ((hkeys new).mp hx).1
  refine ⟨{ c with
      dict := dset (ddel c.dict old) new b
      lowerKeys := pyErase c.lowerKeys old ++ [new]
      inputOrder := (pyErase c.inputOrder old).take (c.inputOrder.idxOf old) ++ new :: (pyErase c.inputOrder old).drop (c.inputOrder.idxOf old)
      childTable := dset (ddel (relinkTable c.childTable old new) old) new info
      visible := pyErase c.visible old ++ [new] }, ?_, ?_⟩
  · unfold Coll.rekey
    simp only [hb, hi]
    rw [dupdate_moved _ _ _ h.ndT, if_neg (Classical.not_not.mpr (h.order old ho)), hdel]
    simp only [hnk, if_false, hv, if_true]
  · have hget : ∀ k, dget (dset (ddel (relinkTable c.childTable old new) old) new info) k =
        if k = new then some info else if k = old then none else (dget c.childTable k).map fun pc => ⟨pc.blockId, relink old new pc.parent⟩ := by
      intro k
      rw [dget_dset, dget_ddel, dget_relinkTable]
      by_cases e1 : k = new
      · simp [e1]
      · by_cases e2 : k = old
        · simp [e2, Ne.symm hne, hne]
        · simp [e1, e2, Ne.symm e1, Ne.symm e2]
    refine ⟨⟨?_, ?_, ?_, ?_, ?_, ?_, ?_, ?_⟩, ?_, rfl, ?_⟩
    · exact nodup_dkeys_dset _ _ _ (nodup_dkeys_ddel _ _ (by rw [dkeys_relinkTable]; exact h.ndT))
    · rw [List.nodup_append]
      refine ⟨?_, by simp, ?_⟩
      · rw [pyErase_eq_filter h.ndK]
        exact List.filter_sublist.nodup h.ndK
      · intro a ha b hb e
        simp only [List.mem_singleton] at hb
        exact hnk (hb ▸ e ▸ ha)
    · intro k
      rw [mem_dkeys_dset, mem_dkeys_ddel, List.mem_append, hkeys, List.mem_singleton, h.dict]
      constructor
      · rintro (e | ⟨h1, h2⟩)
        · exact .inr e
        · first | exact .inl ⟨h1, h2⟩ | exact .inl ⟨h2, h1⟩
      · rintro (⟨h1, h2⟩ | e)
        · first | exact .inr ⟨h1, h2⟩ | exact .inr ⟨h2, h1⟩
        · exact .inl e
    · intro k
      rw [mem_dkeys_dset, mem_dkeys_ddel, List.mem_append, hkeys, List.mem_singleton, dkeys_relinkTable, h.table]
      constructor
      · rintro (e | ⟨h1, h2⟩)
        · exact .inr e
        · first | exact .inl ⟨h1, h2⟩ | exact .inl ⟨h2, h1⟩
      · rintro (⟨h1, h2⟩ | e)
        · first | exact .inr ⟨h1, h2⟩ | exact .inr ⟨h2, h1⟩
        · exact .inl e
    · intro k hk
      rw [List.mem_append, hkeys, List.mem_singleton] at hk
      rw [List.mem_append, List.mem_cons]
      rcases hk with ⟨h1, h2⟩ | e
      · have := (mem_pyErase_ne h2).mpr (h.order k h1)
        rw [← List.take_append_drop (c.inputOrder.idxOf old) (pyErase c.inputOrder old), List.mem_append] at this
        rcases this with h | h
        · exact .inl h
        · exact .inr (.inr h)
      · exact .inr (.inl e)
    · intro k hk
      rw [List.mem_append, hkeys, List.mem_singleton] at hk
      rcases hk with ⟨h1, _⟩ | e
      · exact h.low k h1
      · rw [e]; exact hlow
    · intro k pc hk hp
      rw [hget] at hk
      rw [List.mem_append, List.mem_singleton]
      split at hk
      · rename_i e
        cases hk
        exact ⟨.inr e, e ▸ hD (h.top old info hi hp).2⟩
      · split at hk
        · cases hk
        · rename_i h1 h2
          cases hq : dget c.childTable k with
          | none => rw [hq] at hk; cases hk
          | some q =>
            rw [hq] at hk
            cases hk
            have := h.top k q hq (relink_none.mp hp)
            exact ⟨.inl ((mem_pyErase_ne h2).mpr this.1), this.2⟩
    · intro k pc hk hp
      rw [hget] at hk
      split at hk
      · rename_i e
        cases hk
        exact e ▸ hS (h.sub old info hi hp)
      · split at hk
        · cases hk
        · cases hq : dget c.childTable k with
          | none => rw [hq] at hk; cases hk
          | some q =>
            rw [hq] at hk
            cases hk
            exact h.sub k q hq fun e => hp (relink_none.mpr e)
    · intro hs k hk
      rw [List.mem_append, hkeys, List.mem_singleton] at hk
      rw [List.mem_append, List.mem_singleton]
      rcases hk with ⟨h1, h2⟩ | e
      · exact .inl ((mem_pyErase_ne h2).mpr (hs k h1))
      · exact .inr e
    · intro x
      rw [List.mem_append, hkeys, List.mem_singleton]

/-- Joining two collections. -/
theorem Loose.join {D S D' S' : Str → Prop} {c nb : Coll} (h : Loose D S c) (hn : Loose D' S' nb) (parent : Option Str)
    (hD : parent = none → ∀ k, D' k → D k) (hDS : parent ≠ none → ∀ k, D' k → S k) (hS : ∀ k, S' k → S k) :
    Loose D S (mergeJoin c nb parent) ∧ (Shown c → Shown (mergeJoin c nb parent)) ∧ (mergeJoin c nb parent).standard = c.standard ∧
      ∀ x, x ∈ (mergeJoin c nb parent).lowerKeys ↔ x ∈ c.lowerKeys ∨ x ∈ nb.lowerKeys := by
  have hk : ∀ x, x ∈ (mergeJoin c nb parent).lowerKeys ↔ x ∈ c.lowerKeys ∨ x ∈ nb.lowerKeys := by
    intro x
    simp only [mergeJoin, List.mem_append, List.mem_filter, decide_eq_true_eq]
    constructor
    · rintro (h | ⟨h, _⟩)
      · exact .inl h
      · exact .inr h
    · intro h
      by_cases hx : x ∈ c.lowerKeys
      · exact .inl hx
      · exact .inr ⟨h.resolve_left hx, hx⟩
  let t := (nb.childTable.filter fun a => decide (a.2.parent = none))
  have ht : ∀ p : Str, ∀ k pc, dget (t.map fun a => (a.1, (⟨a.2.blockId, some (lower p)⟩ : PC))) k = some pc →
      pc.parent ≠ none ∧ ∃ q, dget nb.childTable k = some q ∧ q.parent = none := by
    intro p k pc hk
    have := dget_mem hk
    obtain ⟨a, ha, e⟩ := List.mem_map.mp this
    obtain ⟨ha1, ha2⟩ := List.mem_filter.mp ha
    simp only [Prod.mk.injEq] at e
    obtain ⟨e1, e2⟩ := e
    subst e1
    subst e2
    refine ⟨nofun, a.2, dget_of_mem hn.ndT ha1, by simpa using ha2⟩
  have ht0 : ∀ p : Str, ∀ k, dget (t.map fun a => (a.1, (⟨a.2.blockId, some (lower p)⟩ : PC))) k = none → ∀ q, dget nb.childTable k = some q →
      q.parent ≠ none := by
    intro p k hk q hq he
    rw [dget_eq_none] at hk
    apply hk
    have : ((k, q) : Str × PC) ∈ t := List.mem_filter.mpr ⟨dget_mem hq, by simpa using he⟩
    exact mem_dkeys (List.mem_map_of_mem (f := fun a => (a.1, (⟨a.2.blockId, some (lower p)⟩ : PC))) this)
  have htk : ∀ p : Str, ∀ k, k ∈ dkeys (t.map fun a => (a.1, (⟨a.2.blockId, some (lower p)⟩ : PC))) → k ∈ dkeys nb.childTable := by
    intro p k hk
    obtain ⟨pc, hpc⟩ := dget_isSome.mpr hk
    obtain ⟨_, q, hq, _⟩ := ht p k pc hpc
    exact dget_isSome.mp ⟨q, hq⟩
  have htn : ∀ p : Str, (dkeys (t.map fun a => (a.1, (⟨a.2.blockId, some (lower p)⟩ : PC)))).Nodup := by
    intro p
    have : dkeys (t.map fun a => (a.1, (⟨a.2.blockId, some (lower p)⟩ : PC))) = dkeys t := by simp [dkeys, Function.comp_def]
    rw [this]
    exact (List.filter_sublist.map _).nodup hn.ndT
  -- every entry of the joined table
  have hent : ∀ k pc, dget (mergeJoin c nb parent).childTable k = some pc →
      (∃ q, dget nb.childTable k = some q ∧ ((q.parent = none ∧ parent = none ∧ pc.parent = none) ∨
        (q.parent = none ∧ parent ≠ none ∧ pc.parent ≠ none) ∨ (q.parent ≠ none ∧ pc.parent ≠ none))) ∨ dget c.childTable k = some pc := by
    intro k pc hg
    have base : ∀ pc, dget (dupdate c.childTable nb.childTable) k = some pc → dget nb.childTable k = some pc ∨ (dget nb.childTable k = none ∧ dget c.childTable k = some pc) := by
      intro pc hg
      rw [dget_dupdate _ _ hn.ndT] at hg
      cases hq : dget nb.childTable k with
      | none => rw [hq] at hg; exact .inr ⟨rfl, by simpa using hg⟩
      | some q => rw [hq] at hg; exact .inl (by simpa using hg)
    cases parent with
    | none =>
      rcases base pc hg with hq | ⟨_, hq⟩
      · refine .inl ⟨pc, hq, ?_⟩
        by_cases e : pc.parent = none
        · exact .inl ⟨e, rfl, e⟩
        · exact .inr (.inr ⟨e, e⟩)
      · exact .inr hq
    | some p =>
      simp only [mergeJoin] at hg
      rw [dget_dupdate _ _ (htn p)] at hg
      cases hm : dget (t.map fun a => (a.1, (⟨a.2.blockId, some (lower p)⟩ : PC))) k with
      | some x =>
        have hx : some x = some pc := by rw [← hg]; exact (by rw [show dget (List.map (fun a => (a.1, (⟨a.2.blockId, some (lower p)⟩ : PC))) (nb.childTable.filter fun a => decide (a.2.parent = none))) k = some x from hm]; rfl)
        cases hx
        obtain ⟨h1, q, h2, h3⟩ := ht p k pc hm
        exact .inl ⟨q, h2, .inr (.inl ⟨h3, nofun, h1⟩)⟩
      | none =>
        have hx : dget (dupdate c.childTable nb.childTable) k = some pc := by
          rw [show dget (List.map (fun a => (a.1, (⟨a.2.blockId, some (lower p)⟩ : PC))) (nb.childTable.filter fun a => decide (a.2.parent = none))) k = none from hm] at hg
          simpa using hg
        rcases base pc hx with hq | ⟨_, hq⟩
        · exact .inl ⟨pc, hq, .inr (.inr ⟨ht0 p k hm pc hq, ht0 p k hm pc hq⟩)⟩
        · exact .inr hq
  refine ⟨⟨?_, ?_, ?_, ?_, ?_, ?_, ?_, ?_⟩, ?_, rfl, hk⟩
  · cases parent with
    | none => exact nodup_dkeys_dupdate _ _ h.ndT
    | some p => exact nodup_dkeys_dupdate _ _ (nodup_dkeys_dupdate _ _ h.ndT)
  · simp only [mergeJoin]
    rw [List.nodup_append]
    refine ⟨h.ndK, List.filter_sublist.nodup hn.ndK, ?_⟩
    intro a ha b hb e
    subst e
    exact (by simpa using (List.mem_filter.mp hb).2 : a ∉ c.lowerKeys) ha
  · intro k
    rw [hk]
    simp only [mergeJoin, mem_dkeys_dupdate, h.dict, hn.dict]
  · intro k
    rw [hk]
    cases parent with
    | none => simp only [mergeJoin, mem_dkeys_dupdate, h.table, hn.table]
    | some p =>
      simp only [mergeJoin, mem_dkeys_dupdate, h.table, hn.table]
      constructor
      · rintro (h | h)
        · exact h
        · exact .inr ((hn.table k).mp (htk p k h))
      · exact .inl
  · intro k hx
    rw [hk] at hx
    simp only [mergeJoin, List.mem_append]
    exact hx.imp (h.order k) (hn.order k)
  · intro k hx
    rw [hk] at hx
    exact hx.elim (h.low k) (hn.low k)
  · intro k pc hg hp
    simp only [mergeJoin, List.mem_append]
    rcases hent k pc hg with ⟨q, hq, hh⟩ | hq
    · rcases hh with ⟨h1, h2, _⟩ | ⟨_, _, h3⟩ | ⟨_, h3⟩
      · exact ⟨.inr ((hn.table k).mp (dget_isSome.mp ⟨q, hq⟩)), hD h2 k (hn.top k q hq h1).2⟩
      · exact absurd hp h3
      · exact absurd hp h3
    · exact ⟨.inl (h.top k pc hq hp).1, (h.top k pc hq hp).2⟩
  · intro k pc hg hp
    rcases hent k pc hg with ⟨q, hq, hh⟩ | hq
    · rcases hh with ⟨_, _, h3⟩ | ⟨h1, h2, _⟩ | ⟨h1, _⟩
      · exact absurd h3 hp
      · exact hDS h2 k (hn.top k q hq h1).2
      · exact hS k (hn.sub k q hq h1)
    · exact h.sub k pc hq hp
  · intro hs k hx
    rw [hk] at hx
    simp only [mergeJoin, List.mem_append]
    exact hx.imp (hs k) id

end Verif.Coll
