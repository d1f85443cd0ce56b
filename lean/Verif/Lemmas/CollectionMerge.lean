import Verif.Lemmas.CollectionTree
/-! Helper lemmas: joining two collections. -/
set_option linter.unusedSectionVars false
namespace Verif
open List

theorem dget_dupdate {β : Type} : ∀ (e d : Dict Str β), (dkeys e).Nodup → ∀ k, dget (dupdate d e) k = (dget e k).or (dget d k)
  | [], d, _, k => by simp [dupdate, dget]
  | (a, v) :: r, d, hn, k => by
    have hn' := List.nodup_cons.mp hn
    have ih := dget_dupdate r (dset d a v) hn'.2 k
    simp only [dupdate, List.foldl_cons] at ih ⊢
    rw [ih, dget_dset]
    simp only [dget]
    by_cases h : a = k
    · subst h
      rw [dget_eq_none.mpr hn'.1]; simp
    · simp [h]

theorem mem_dkeys_dupdate {β : Type} : ∀ (e d : Dict Str β) (k : Str), k ∈ dkeys (dupdate d e) ↔ k ∈ dkeys d ∨ k ∈ dkeys e
  | [], d, k => by simp [dupdate, dkeys]
  | (a, v) :: r, d, k => by
    have ih := mem_dkeys_dupdate r (dset d a v) k
    simp only [dupdate, List.foldl_cons] at ih ⊢
    rw [ih, mem_dkeys_dset]
    simp only [dkeys, List.map_cons, List.mem_cons]
    constructor
    · rintro ((h | h) | h)
      · exact Or.inr (Or.inl h)
      · exact Or.inl h
      · exact Or.inr (Or.inr h)
    · rintro (h | h | h)
      · exact Or.inl (Or.inr h)
      · exact Or.inl (Or.inl h)
      · exact Or.inr h

theorem nodup_dkeys_dupdate {β : Type} : ∀ (e d : Dict Str β), (dkeys d).Nodup → (dkeys (dupdate d e)).Nodup
  | [], _, h => h
  | (a, v) :: r, d, h => by
    have ih := nodup_dkeys_dupdate r (dset d a v) (nodup_dkeys_dset d a v h)
    simpa only [dupdate, List.foldl_cons] using ih

namespace Coll
variable [CaseFold]

/-- The parent a block of the other collection gets. -/
def graft (parent : Option Str) (p : Option Str) : Option Str :=
  match p with
  | some q => some q
  | none => parent.map lower

theorem dget_mergeJoin {c nb : Coll} (hn : Consistent nb) (parent : Option Str) (k : Str) :
    dget (mergeJoin c nb parent).childTable k =
      match dget nb.childTable k with
      | some pc => some ⟨pc.blockId, graft parent pc.parent⟩
      | none => dget c.childTable k := by
  unfold mergeJoin
  cases parent with
  | none =>
    simp only
    rw [dget_dupdate _ _ hn.nd_table]
    cases hk : dget nb.childTable k with
    | none => rfl
    | some pc =>
      obtain ⟨id, par⟩ := pc
      cases par <;> rfl
  | some p =>
    simp only
    have hkeys : dkeys ((nb.childTable.filter fun a => decide (a.2.parent = none)).map fun a => (a.1, (⟨a.2.blockId, some (lower p)⟩ : PC))) =
        (nb.childTable.filter fun a => decide (a.2.parent = none)).map (·.1) := by
      simp [dkeys, Function.comp_def]
    have hnd : (dkeys ((nb.childTable.filter fun a => decide (a.2.parent = none)).map fun a => (a.1, (⟨a.2.blockId, some (lower p)⟩ : PC)))).Nodup := by
      rw [hkeys]
      exact (List.filter_sublist.map _).nodup hn.nd_table
    rw [dget_dupdate _ _ hnd, dget_dupdate _ _ hn.nd_table]
    cases hk : dget nb.childTable k with
    | none =>
      have : dget ((nb.childTable.filter fun a => decide (a.2.parent = none)).map fun a => (a.1, (⟨a.2.blockId, some (lower p)⟩ : PC))) k = none := by
        rw [dget_eq_none, hkeys]
        intro hm
        obtain ⟨a, ha, rfl⟩ := List.mem_map.mp hm
        exact dget_eq_none.mp hk (mem_dkeys (List.mem_filter.mp ha).1)
      rw [this]; rfl
    | some pc =>
      obtain ⟨id, par⟩ := pc
      cases par with
      | none =>
        have : dget ((nb.childTable.filter fun a => decide (a.2.parent = none)).map fun a => (a.1, (⟨a.2.blockId, some (lower p)⟩ : PC))) k = some ⟨id, some (lower p)⟩ := by
          apply dget_of_mem hnd
          exact List.mem_map.mpr ⟨(k, ⟨id, none⟩), List.mem_filter.mpr ⟨dget_mem hk, by simp⟩, rfl⟩
        rw [this]; rfl
      | some q =>
        have : dget ((nb.childTable.filter fun a => decide (a.2.parent = none)).map fun a => (a.1, (⟨a.2.blockId, some (lower p)⟩ : PC))) k = none := by
          rw [dget_eq_none, hkeys]
          intro hm
          obtain ⟨a, ha, e⟩ := List.mem_map.mp hm
          obtain ⟨h1, h2⟩ := List.mem_filter.mp ha
          have := dget_of_mem hn.nd_table (k := a.1) (v := a.2) h1
          rw [e, hk] at this
          injection this with this
          rw [← this] at h2
          simp at h2
        rw [this]; rfl

theorem entry_mergeJoin {c nb : Coll} (hn : Consistent nb) (parent : Option Str) (k : Str) :
    entry (mergeJoin c nb parent) k =
      match entry nb k with
      | some e => some { e with parent := graft parent e.parent }
      | none => entry c k := by
  have ht := dget_mergeJoin (c := c) hn parent k
  have hd : dget (mergeJoin c nb parent).dict k = (dget nb.dict k).or (dget c.dict k) := dget_dupdate _ _ hn.nd_dict k
  unfold entry
  rw [ht, hd]
  by_cases hk : k ∈ nb.lowerKeys
  · obtain ⟨b, hb⟩ := dget_isSome.mpr ((hn.mem_dict k).mpr hk)
    obtain ⟨pc, hpc⟩ := dget_isSome.mpr ((hn.mem_table k).mpr hk)
    rw [hb, hpc]; rfl
  · rw [dget_eq_none.mpr (fun h => hk ((hn.mem_dict k).mp h)), dget_eq_none.mpr (fun h => hk ((hn.mem_table k).mp h))]
    simp

theorem parentOf_mergeJoin {c nb : Coll} (hn : Consistent nb) (parent : Option Str) (k : Str) :
    parentOf (mergeJoin c nb parent) k = if k ∈ nb.lowerKeys then graft parent (parentOf nb k) else parentOf c k := by
  unfold parentOf
  rw [dget_mergeJoin hn]
  by_cases hk : k ∈ nb.lowerKeys
  · obtain ⟨pc, hpc⟩ := dget_isSome.mpr ((hn.mem_table k).mpr hk)
    rw [hpc, if_pos hk]
  · rw [dget_eq_none.mpr (fun h => hk ((hn.mem_table k).mp h)), if_neg hk]

theorem mergeJoin_consistent {c nb : Coll} (h : Consistent c) (hn : Consistent nb) (hd : ∀ k ∈ c.lowerKeys, k ∉ nb.lowerKeys)
    (parent : Option Str) (hp : ∀ p, parent = some p → lower p ∈ c.lowerKeys) (hs : c.scoping = .dictionary) :
    Consistent (mergeJoin c nb parent) := by
  have hnd : ∀ l m : List Str, l.Nodup → m.Nodup → (∀ x ∈ l, x ∈ c.lowerKeys) → (∀ x ∈ m, x ∈ nb.lowerKeys) → (l ++ m).Nodup := by
    intro l m h1 h2 h3 h4
    rw [List.nodup_append]
    refine ⟨h1, h2, ?_⟩
    intro a ha b hb e
    subst e
    exact hd a (h3 a ha) (h4 a hb)
  have hkeys : (mergeJoin c nb parent).lowerKeys = c.lowerKeys ++ nb.lowerKeys := by
    show c.lowerKeys ++ nb.lowerKeys.filter _ = _
    rw [List.filter_eq_self.mpr]
    intro k hk
    simp only [decide_eq_true_eq]
    exact fun hm => hd k hm hk
  have hpar := parentOf_mergeJoin (c := c) hn parent
  have htab : ∀ k, k ∈ dkeys (mergeJoin c nb parent).childTable ↔ k ∈ c.lowerKeys ∨ k ∈ nb.lowerKeys := by
    intro k
    rw [← dget_isSome, dget_mergeJoin hn]
    by_cases hk : k ∈ nb.lowerKeys
    · obtain ⟨pc, hpc⟩ := dget_isSome.mpr ((hn.mem_table k).mpr hk)
      rw [hpc]; simp [hk]
    · rw [dget_eq_none.mpr (fun h => hk ((hn.mem_table k).mp h))]
      simp only [hk, or_false]
      rw [dget_isSome]; exact h.mem_table k
  have htn : (dkeys (mergeJoin c nb parent).childTable).Nodup := by
    unfold mergeJoin
    cases parent with
    | none => exact nodup_dkeys_dupdate _ _ h.nd_table
    | some p => exact nodup_dkeys_dupdate _ _ (nodup_dkeys_dupdate _ _ h.nd_table)
  have hup : ∀ a x, Under (mergeJoin c nb parent) a x →
      (Under c a x ∧ x ∈ c.lowerKeys) ∨ (x ∈ nb.lowerKeys ∧ (Under nb a x ∨ a ∈ c.lowerKeys)) := by
    intro a x hu
    induction hu with
    | @child x hq =>
      rw [hpar] at hq
      split at hq
      · rename_i hx
        right
        refine ⟨hx, ?_⟩
        cases hpn : parentOf nb x with
        | some q =>
          rw [hpn] at hq
          simp only [graft] at hq
          exact Or.inl (.child (hpn.trans hq))
        | none =>
          rw [hpn] at hq
          simp only [graft] at hq
          cases hpp : parent with
          | none => rw [hpp] at hq; cases hq
          | some p =>
            rw [hpp] at hq
            injection hq with hq
            right; rw [← hq]; exact hp p hpp
      · exact Or.inl ⟨.child hq, (h.mem_table x).mp (parentOf_mem hq)⟩
    | @deeper x y hu hq ih =>
      rw [hpar] at hq
      split at hq
      · rename_i hy
        right
        refine ⟨hy, ?_⟩
        cases hpn : parentOf nb y with
        | some q =>
          rw [hpn] at hq
          simp only [graft] at hq
          injection hq with hq
          subst hq
          rcases ih with ⟨_, h2⟩ | ⟨h1, h2⟩
          · exact absurd (hn.parents _ _ hpn) (hd _ h2)
          · rcases h2 with h2 | h2
            · exact Or.inl (.deeper h2 hpn)
            · exact Or.inr h2
        | none =>
          rw [hpn] at hq
          simp only [graft] at hq
          cases hpp : parent with
          | none => rw [hpp] at hq; cases hq
          | some p =>
            rw [hpp] at hq
            injection hq with hq
            have hx := hp p hpp
            rw [hq] at hx
            rcases ih with ⟨h1, _⟩ | ⟨h1, _⟩
            · right
              obtain ⟨j, hj, _⟩ := under_iff_head.mp h1
              exact h.parents _ _ hj
            · exact absurd h1 (hd _ hx)
      · rename_i hy
        left
        have hx := h.parents _ _ hq
        rcases ih with ⟨h1, _⟩ | ⟨h1, _⟩
        · exact ⟨.deeper h1 hq, (h.mem_table y).mp (parentOf_mem hq)⟩
        · exact absurd h1 (hd _ hx)
  constructor
  · exact nodup_dkeys_dupdate _ _ h.nd_dict
  · exact htn
  · rw [hkeys]; exact hnd _ _ h.nd_keys hn.nd_keys (fun _ hx => hx) (fun _ hx => hx)
  · exact hnd _ _ h.nd_order hn.nd_order (fun x hx => (h.mem_order x).mp hx) (fun x hx => (hn.mem_order x).mp hx)
  · exact hnd _ _ h.nd_visible hn.nd_keys (fun x hx => visible_mem h hx) (fun _ hx => hx)
  · intro k
    rw [hkeys, List.mem_append]
    show k ∈ dkeys (dupdate c.dict nb.dict) ↔ _
    rw [mem_dkeys_dupdate, h.mem_dict, hn.mem_dict]
  · intro k; rw [hkeys, List.mem_append]; exact htab k
  · intro k
    rw [hkeys, List.mem_append]
    show k ∈ c.inputOrder ++ nb.inputOrder ↔ _
    rw [List.mem_append, h.mem_order, hn.mem_order]
  · intro k
    rw [hkeys, List.mem_append]
    rintro (hk | hk)
    · exact h.lower_keys k hk
    · exact hn.lower_keys k hk
  · intro k p hq
    rw [hkeys, List.mem_append]
    rw [hpar] at hq
    split at hq
    · cases hpn : parentOf nb k with
      | some q =>
        rw [hpn] at hq
        simp only [graft] at hq
        exact Or.inr (hn.parents _ _ (hpn.trans hq))
      | none =>
        rw [hpn] at hq
        simp only [graft] at hq
        cases hpp : parent with
        | none => rw [hpp] at hq; cases hq
        | some p =>
          rw [hpp] at hq
          injection hq with hq
          left; rw [← hq]; exact hp p hpp
    · exact Or.inl (h.parents _ _ hq)
  · intro k hu
    rcases hup k k hu with ⟨h1, _⟩ | ⟨h1, h2 | h2⟩
    · exact h.acyclic k h1
    · exact hn.acyclic k h2
    · exact hd k h2 h1
  · intro _ k
    rw [hkeys, List.mem_append]
    show k ∈ c.visible ++ nb.lowerKeys ↔ _
    rw [List.mem_append, show k ∈ c.visible ↔ _ from h.visible_all hs k]
  · intro hs'
    have : c.scoping = .instance := hs'
    rw [hs] at this; cases this

end Coll
end Verif
