import Verif.Spec.Collection
import Verif.Lemmas.Dict
/-! Helper lemmas for block collections: deleting, re-keying and adding a block. -/
set_option linter.unusedSectionVars false
namespace Verif
open List

theorem dget_filter {α β : Type} [DecidableEq α] (d : Dict α β) (P : α → Bool) (k : α) :
    dget (d.filter fun p => P p.1) k = if P k then dget d k else none := by
  induction d with
  | nil => simp [dget]
  | cons p r ih =>
    obtain ⟨a, b⟩ := p
    by_cases hp : P a
    · rw [List.filter_cons_of_pos (by simpa using hp)]
      simp only [dget]
      by_cases hk : a = k
      · subst hk; simp [hp]
      · simp only [hk, if_false]; exact ih
    · rw [List.filter_cons_of_neg (by simpa using hp)]
      rw [ih]
      simp only [dget]
      by_cases hk : a = k
      · subst hk; simp [hp]
      · simp [hk]

theorem dkeys_filter {α β : Type} (d : Dict α β) (P : α → Bool) :
    dkeys (d.filter fun p => P p.1) = (dkeys d).filter P := by
  induction d with
  | nil => rfl
  | cons p r ih =>
    by_cases hp : P p.1
    · rw [List.filter_cons_of_pos (by simpa using hp)]
      simp only [dkeys, List.map_cons] at ih ⊢
      rw [List.filter_cons_of_pos (by simpa using hp), ih]
    · rw [List.filter_cons_of_neg (by simpa using hp)]
      simp only [dkeys, List.map_cons] at ih ⊢
      rw [List.filter_cons_of_neg (by simpa using hp), ih]

namespace Coll
variable [CaseFold]

/-! ## Nesting -/

theorem Under.trans {c : Coll} {a b x : Str} (h1 : Under c a b) (h2 : Under c b x) : Under c a x := by
  induction h2 with
  | child h => exact .deeper h1 h
  | deeper _ h ih => exact .deeper ih h

theorem under_iff_head {c : Coll} {a x : Str} :
    Under c a x ↔ ∃ j, parentOf c j = some a ∧ Within c j x := by
  constructor
  · intro h
    induction h with
    | child h => exact ⟨_, h, Or.inl rfl⟩
    | deeper _ h2 ih =>
      obtain ⟨j, hj, hw⟩ := ih
      refine ⟨j, hj, Or.inr ?_⟩
      rcases hw with rfl | hw
      · exact .child h2
      · exact .deeper hw h2
  · rintro ⟨j, hj, rfl | hw⟩
    · exact .child hj
    · exact (Under.child hj).trans hw

theorem within_iff_head {c : Coll} {a x : Str} :
    Within c a x ↔ x = a ∨ ∃ j, parentOf c j = some a ∧ Within c j x := by
  unfold Within
  rw [under_iff_head]; rfl

theorem Within.trans {c : Coll} {a b x : Str} (h1 : Within c a b) (h2 : Within c b x) : Within c a x := by
  rcases h1 with rfl | h1
  · exact h2
  · rcases h2 with rfl | h2
    · exact Or.inr h1
    · exact Or.inr (h1.trans h2)

theorem Under.parent {c : Coll} {a x : Str} (h : Under c a x) : ∃ p, parentOf c x = some p ∧ Within c a p := by
  cases h with
  | child h => exact ⟨a, h, Or.inl rfl⟩
  | deeper h1 h2 => exact ⟨_, h2, Or.inr h1⟩

theorem Within.step {c : Coll} {a x y : Str} (h : Within c a x) (hy : parentOf c y = some x) : Within c a y := by
  rcases h with rfl | h
  · exact Or.inr (.child hy)
  · exact Or.inr (.deeper h hy)

theorem parentOf_mem {c : Coll} {k p : Str} (h : parentOf c k = some p) : k ∈ dkeys c.childTable := by
  unfold parentOf at h
  split at h
  · rename_i pc hpc
    exact dget_isSome.mp ⟨pc, hpc⟩
  · cases h

theorem under_mem {c : Coll} {a x : Str} (h : Under c a x) : x ∈ dkeys c.childTable := by
  obtain ⟨p, hp, _⟩ := h.parent
  exact parentOf_mem hp

theorem mem_children {c : Coll} (hn : (dkeys c.childTable).Nodup) {k j : Str} :
    j ∈ c.children k ↔ parentOf c j = some k := by
  simp only [children, List.mem_map, List.mem_filter, decide_eq_true_eq]
  constructor
  · rintro ⟨⟨a, pc⟩, ⟨hm, hp⟩, rfl⟩
    simp only at hp ⊢
    rw [parentOf, dget_of_mem hn hm]; exact hp
  · intro h
    unfold parentOf at h
    split at h
    · rename_i pc hpc
      exact ⟨(j, pc), ⟨dget_mem hpc, h⟩, rfl⟩
    · cases h

theorem mem_topLevel {c : Coll} (hn : (dkeys c.childTable).Nodup) {j : Str} :
    j ∈ c.topLevel ↔ j ∈ dkeys c.childTable ∧ parentOf c j = none := by
  simp only [topLevel, List.mem_map, List.mem_filter, decide_eq_true_eq]
  constructor
  · rintro ⟨⟨a, pc⟩, ⟨hm, hp⟩, rfl⟩
    simp only at hp ⊢
    refine ⟨mem_dkeys hm, ?_⟩
    rw [parentOf, dget_of_mem hn hm]; exact hp
  · rintro ⟨hm, h⟩
    obtain ⟨pc, hpc⟩ := dget_isSome.mpr hm
    rw [parentOf, hpc] at h
    exact ⟨(j, pc), ⟨dget_mem hpc, h⟩, rfl⟩

theorem nodup_children {c : Coll} (hn : (dkeys c.childTable).Nodup) (k : Str) : (c.children k).Nodup := by
  unfold children
  exact (List.filter_sublist.map _).nodup hn

theorem nodup_topLevel {c : Coll} (hn : (dkeys c.childTable).Nodup) : c.topLevel.Nodup := by
  unfold topLevel
  exact (List.filter_sublist.map _).nodup hn

/-- Number of blocks in a subtree. -/
noncomputable def size (c : Coll) (k : Str) : Nat := by
  classical exact (dkeys c.childTable).countP fun x => decide (Within c k x)

/-- The part of consistency that deletion needs. -/
structure Keyed (c : Coll) : Prop where
  nd_dict : (dkeys c.dict).Nodup
  nd_table : (dkeys c.childTable).Nodup
  nd_keys : c.lowerKeys.Nodup
  nd_order : c.inputOrder.Nodup
  nd_visible : c.visible.Nodup
  mem_dict : ∀ k, k ∈ dkeys c.dict ↔ k ∈ c.lowerKeys
  mem_table : ∀ k, k ∈ dkeys c.childTable ↔ k ∈ c.lowerKeys
  mem_order : ∀ k, k ∈ c.inputOrder ↔ k ∈ c.lowerKeys
  lower_keys : ∀ k ∈ c.lowerKeys, lower k = k
  acyclic : ∀ k, ¬ Under c k k

theorem Consistent.keyed {c : Coll} (h : Consistent c) : Keyed c :=
  ⟨h.nd_dict, h.nd_table, h.nd_keys, h.nd_order, h.nd_visible, h.mem_dict, h.mem_table, h.mem_order, h.lower_keys, h.acyclic⟩

theorem size_lt {c : Coll} (h : Keyed c) {k j : Str} (hk : k ∈ c.lowerKeys) (hj : parentOf c j = some k) : size c j < size c k := by
  classical
  unfold size
  have hk' := (h.mem_table k).mpr hk
  obtain ⟨l1, l2, e⟩ := List.append_of_mem hk'
  have hm : ∀ l : List Str, l.countP (fun x => decide (Within c j x)) ≤ l.countP (fun x => decide (Within c k x)) := by
    intro l
    apply List.countP_mono_left
    intro x _ hx
    simp only [decide_eq_true_eq] at hx ⊢
    exact Within.trans (Or.inr (.child hj)) hx
  rw [e]
  simp only [List.countP_append, List.countP_cons]
  have h1 : ¬ Within c j k := by
    rintro (rfl | hw)
    · exact h.acyclic _ (.child hj)
    · exact h.acyclic _ ((Under.child hj).trans hw)
  have h2 : Within c k k := Or.inl rfl
  simp only [h1, h2, decide_true, decide_false, if_true]
  have := hm l1; have := hm l2
  simp only [Bool.false_eq_true, if_false]
  omega

theorem size_le (c : Coll) (k : Str) : size c k ≤ c.childTable.length := by
  classical
  unfold size
  refine Nat.le_trans List.countP_le_length ?_
  simp [dkeys]

/-! ## Restriction to some of the keys -/

/-- The collection with only the keys for which `P` holds. -/
def restrict (c : Coll) (P : Str → Bool) : Coll :=
  { c with
    dict := c.dict.filter fun p => P p.1
    lowerKeys := c.lowerKeys.filter P
    childTable := c.childTable.filter fun p => P p.1
    visible := c.visible.filter P
    inputOrder := c.inputOrder.filter P }

theorem restrict_restrict (c : Coll) (P Q : Str → Bool) :
    restrict (restrict c P) Q = restrict c (fun x => P x && Q x) := by
  simp only [restrict, List.filter_filter]
  congr 1 <;> (apply List.filter_congr; intros; rw [Bool.and_comm])

theorem restrict_congr (c : Coll) {P Q : Str → Bool} (h : ∀ x, P x = Q x) : restrict c P = restrict c Q := by
  rw [show P = Q from funext h]

theorem restrict_true (c : Coll) {P : Str → Bool} (h : ∀ x, P x = true) : restrict c P = c := by
  have : P = fun _ => true := funext h
  subst this
  have h1 : ∀ {α : Type} (l : List α), l.filter (fun _ => true) = l := fun l => List.filter_eq_self.mpr (by simp)
  simp only [restrict, h1]

theorem parentOf_restrict (c : Coll) (P : Str → Bool) (k : Str) :
    parentOf (restrict c P) k = if P k then parentOf c k else none := by
  simp only [parentOf, restrict, dget_filter]
  by_cases h : P k <;> simp [h]

/-- The keys removed include everything below them. -/
def Closed (c : Coll) (P : Str → Bool) : Prop := ∀ x y, parentOf c y = some x → P x = false → P y = false

theorem under_restrict {c : Coll} {P : Str → Bool} (hP : Closed c P) {a x : Str} :
    Under (restrict c P) a x ↔ Under c a x ∧ P x = true := by
  constructor
  · intro h
    induction h with
    | child h =>
      rw [parentOf_restrict] at h
      split at h
      · exact ⟨.child h, by assumption⟩
      · cases h
    | deeper _ h ih =>
      rw [parentOf_restrict] at h
      split at h
      · exact ⟨.deeper ih.1 h, by assumption⟩
      · cases h
  · rintro ⟨h, hx⟩
    induction h with
    | child h => exact .child (by rw [parentOf_restrict, if_pos hx]; exact h)
    | @deeper x y _ h ih =>
      have : P x = true := by
        cases hp : P x with
        | true => rfl
        | false => rw [hP _ _ h hp] at hx; cases hx
      exact .deeper (ih this) (by rw [parentOf_restrict, if_pos hx]; exact h)

theorem Keyed.restrict {c : Coll} (h : Keyed c) {P : Str → Bool} (hP : Closed c P) : Keyed (c.restrict P) where
  nd_dict := by simp only [Coll.restrict, dkeys_filter]; exact h.nd_dict.filter _
  nd_table := by simp only [Coll.restrict, dkeys_filter]; exact h.nd_table.filter _
  nd_keys := h.nd_keys.filter _
  nd_order := h.nd_order.filter _
  nd_visible := h.nd_visible.filter _
  mem_dict k := by simp only [Coll.restrict, dkeys_filter, List.mem_filter, h.mem_dict]
  mem_table k := by simp only [Coll.restrict, dkeys_filter, List.mem_filter, h.mem_table]
  mem_order k := by simp only [Coll.restrict, List.mem_filter, h.mem_order]
  lower_keys k hk := h.lower_keys k (List.mem_filter.mp hk).1
  acyclic k hk := h.acyclic k ((under_restrict hP).mp hk).1

theorem closed_within (c : Coll) (k : Str) [∀ x, Decidable (Within c k x)] :
    Closed c (fun x => decide (¬ Within c k x)) := by
  intro x y hy hx
  simp only [decide_eq_false_iff_not, Classical.not_not] at hx ⊢
  exact hx.step hy

theorem size_restrict_le {c : Coll} {P : Str → Bool} (hP : Closed c P) (k : Str) : size (restrict c P) k ≤ size c k := by
  classical
  unfold size
  simp only [restrict, dkeys_filter]
  refine Nat.le_trans (List.countP_mono_left (l := (dkeys c.childTable).filter P) (q := fun x => decide (Within c k x)) ?_) ?_
  · intro x _ hx
    have hx := of_decide_eq_true hx
    refine decide_eq_true ?_
    rcases hx with rfl | hx
    · exact Or.inl rfl
    · exact Or.inr ((under_restrict hP).mp hx).1
  · exact List.Sublist.countP_le List.filter_sublist

/-! ## Deletion -/

theorem getItem_ok {c : Coll} (h : Keyed c) {k : Str} (hk : k ∈ c.lowerKeys) :
    ∃ b, c.getItem k = .ok b ∧ dget c.dict k = some b := by
  obtain ⟨b, hb⟩ := dget_isSome.mpr ((h.mem_dict k).mpr hk)
  refine ⟨b, ?_, hb⟩
  simp only [getItem, h.lower_keys k hk, hk, if_true, hb]

theorem filter_ne_eq_ddel {β : Type} (d : Dict Str β) (k : Str) : (d.filter fun p => decide (p.1 ≠ k)) = ddel d k := rfl

theorem removeKey_eq {c : Coll} (h : Keyed c) {k : Str} (hk : k ∈ c.lowerKeys) (hv : k ∈ c.visible) :
    c.removeKey k = (restrict c (fun x => decide (x ≠ k)), .ok ()) := by
  unfold removeKey
  rw [if_neg (Classical.not_not.mpr ((h.mem_dict k).mpr hk))]
  simp only
  rw [if_neg (Classical.not_not.mpr ((h.mem_table k).mpr hk)), pyRemove_eq hv]
  simp only
  rw [pyRemove_eq hk]
  simp only
  rw [pyRemove_eq ((h.mem_order k).mpr hk)]
  simp only [restrict, filter_ne_eq_ddel, pyErase_eq_filter h.nd_visible, pyErase_eq_filter h.nd_keys, pyErase_eq_filter h.nd_order]

open Classical in
theorem forEach_delFuel {n : Nat}
    (ih : ∀ (c : Coll) (k : Str), Keyed c → k ∈ c.lowerKeys → (∀ x, Within c k x → x ∈ c.visible) → size c k ≤ n →
      delFuel n c k = (restrict c (fun x => decide (¬ Within c k x)), .ok ())) :
    ∀ (ks : List Str) (c : Coll), Keyed c → ks.Nodup → (∀ i ∈ ks, i ∈ c.lowerKeys) →
      (∀ i ∈ ks, ∀ x, Within c i x → x ∈ c.visible) → (∀ i ∈ ks, size c i ≤ n) →
      (∀ i ∈ ks, ∀ j ∈ ks, i ≠ j → ¬ Within c i j) →
      forEach (delFuel n) c ks = (restrict c (fun x => decide (¬ ∃ i ∈ ks, Within c i x)), .ok ())
  | [], c, _, _, _, _, _, _ => by
    simp only [forEach]
    rw [restrict_true]
    intro x; simp
  | j :: ks, c, hK, hn, hm, hv, hs, hp => by
    have hj : j ∈ j :: ks := List.mem_cons_self
    have hcl := closed_within c j
    simp only [forEach]
    rw [ih c j hK (hm j hj) (hv j hj) (hs j hj)]
    simp only
    have hne : ∀ i ∈ ks, i ≠ j := fun i hi e => (List.nodup_cons.mp hn).1 (e ▸ hi)
    have hU : ∀ i x, Within (c.restrict fun x => decide (¬ Within c j x)) i x → Within c i x := by
      rintro i x (rfl | hx)
      · exact Or.inl rfl
      · exact Or.inr ((under_restrict hcl).mp hx).1
    rw [forEach_delFuel ih ks _ (hK.restrict hcl) (List.nodup_cons.mp hn).2]
    · rw [restrict_restrict]
      refine congrArg (fun x => (x, Except.ok ())) (restrict_congr c ?_)
      intro x
      rw [Bool.eq_iff_iff]
      simp only [Bool.and_eq_true, decide_eq_true_eq, List.mem_cons]
      constructor
      · rintro ⟨h1, h2⟩ ⟨i, rfl | hi, hw⟩
        · exact h1 hw
        · apply h2
          refine ⟨i, hi, ?_⟩
          rcases hw with rfl | hw
          · exact Or.inl rfl
          · exact Or.inr ((under_restrict hcl).mpr ⟨hw, by simpa using h1⟩)
      · intro h1
        refine ⟨fun hw => h1 ⟨j, Or.inl rfl, hw⟩, ?_⟩
        rintro ⟨i, hi, hw⟩
        exact h1 ⟨i, Or.inr hi, hU i x hw⟩
    · intro i hi
      refine List.mem_filter.mpr ⟨hm i (List.mem_cons_of_mem _ hi), ?_⟩
      simpa using hp j hj i (List.mem_cons_of_mem _ hi) (Ne.symm (hne i hi))
    · intro i hi x hw
      refine List.mem_filter.mpr ⟨hv i (List.mem_cons_of_mem _ hi) x (hU i x hw), ?_⟩
      rcases hw with rfl | hw
      · simpa using hp j hj _ (List.mem_cons_of_mem _ hi) (Ne.symm (hne _ hi))
      · exact ((under_restrict hcl).mp hw).2
    · intro i hi
      exact Nat.le_trans (size_restrict_le hcl i) (hs i (List.mem_cons_of_mem _ hi))
    · intro i hi k hk hik hw
      exact hp i (List.mem_cons_of_mem _ hi) k (List.mem_cons_of_mem _ hk) hik (hU i k hw)

open Classical in
theorem delFuel_eq : ∀ (n : Nat) (c : Coll) (k : Str), Keyed c → k ∈ c.lowerKeys → (∀ x, Within c k x → x ∈ c.visible) →
    size c k ≤ n → delFuel n c k = (restrict c (fun x => decide (¬ Within c k x)), .ok ())
  | 0, c, k, hK, hk, _, hs => by
    exfalso
    have : 0 < size c k := by
      unfold size
      exact List.countP_pos_iff.mpr ⟨k, (hK.mem_table k).mpr hk, by simp [Within]⟩
    omega
  | n + 1, c, k, hK, hk, hv, hs => by
    obtain ⟨b, hb, _⟩ := getItem_ok hK hk
    have hch : ∀ j, j ∈ c.children k ↔ parentOf c j = some k := fun j => mem_children hK.nd_table
    simp only [delFuel, hb, hK.lower_keys k hk]
    rw [forEach_delFuel (delFuel_eq n) (c.children k) c hK (nodup_children hK.nd_table k)]
    · simp only
      have hcl : Closed c (fun x => decide (¬ ∃ i ∈ c.children k, Within c i x)) := by
        intro x y hy hx
        simp only [decide_eq_false_iff_not, Classical.not_not] at hx ⊢
        obtain ⟨i, hi, hw⟩ := hx
        exact ⟨i, hi, hw.step hy⟩
      have hkk : ¬ ∃ i ∈ c.children k, Within c i k := by
        rintro ⟨i, hi, hw⟩
        have hu := Under.child ((hch i).mp hi)
        rcases hw with rfl | hw
        · exact hK.acyclic _ hu
        · exact hK.acyclic _ (hu.trans hw)
      rw [removeKey_eq (hK.restrict hcl) (List.mem_filter.mpr ⟨hk, by simpa using hkk⟩)
        (List.mem_filter.mpr ⟨hv k (Or.inl rfl), by simpa using hkk⟩)]
      rw [restrict_restrict]
      refine congrArg (fun x => (x, Except.ok ())) (restrict_congr c ?_)
      intro x
      rw [Bool.eq_iff_iff]
      simp only [Bool.and_eq_true, decide_eq_true_eq]
      rw [within_iff_head]
      simp only [hch]
      constructor
      · rintro ⟨h1, h2⟩ (e | h3)
        · exact h2 e
        · exact h1 h3
      · intro h
        exact ⟨fun h3 => h (Or.inr h3), fun e => h (Or.inl e)⟩
    · intro i hi
      exact (hK.mem_table i).mp (parentOf_mem ((hch i).mp hi))
    · intro i hi x hw
      exact hv x (Within.trans (Or.inr (.child ((hch i).mp hi))) hw)
    · intro i hi
      have := size_lt hK hk ((hch i).mp hi)
      omega
    · rintro i hi j hj hij (rfl | hw)
      · exact hij rfl
      · obtain ⟨p, hp, hw'⟩ := hw.parent
        rw [(hch j).mp hj] at hp
        cases hp
        have hu := Under.child ((hch i).mp hi)
        rcases hw' with rfl | hw'
        · exact hK.acyclic _ hu
        · exact hK.acyclic _ (hu.trans hw')

open Classical in
/-- Deleting a block whose whole subtree is visible. -/
theorem delItem_eq {c : Coll} (hK : Keyed c) {key : Str} (hk : lower key ∈ c.lowerKeys)
    (hv : ∀ x, Within c (lower key) x → x ∈ c.visible) :
    c.delItem key = (restrict c (fun x => decide (¬ Within c (lower key) x)), .ok ()) := by
  have h := delFuel_eq (c.childTable.length + 1) c (lower key) hK hk hv (Nat.le_trans (size_le c _) (by omega))
  rw [← h, delItem]
  simp only [delFuel, getItem, CaseFold.lower_lower]

theorem delItem_eq' {c : Coll} (hK : Keyed c) {key : Str} (hk : lower key ∈ c.lowerKeys)
    (hv : ∀ x, Within c (lower key) x → x ∈ c.visible) {P : Str → Bool} (hP : ∀ x, P x = true ↔ ¬ Within c (lower key) x) :
    c.delItem key = (restrict c P, .ok ()) := by
  rw [delItem_eq hK hk hv]
  refine congrArg (fun x => (x, Except.ok ())) (restrict_congr c ?_)
  intro x
  rw [Bool.eq_iff_iff, hP]
  simp

/-- Restriction keeps consistency. -/
theorem Consistent.restrict {c : Coll} (h : Consistent c) {P : Str → Bool} (hP : Closed c P) : Consistent (c.restrict P) :=
  let k := h.keyed.restrict hP
  { nd_dict := k.nd_dict, nd_table := k.nd_table, nd_keys := k.nd_keys, nd_order := k.nd_order, nd_visible := k.nd_visible
    mem_dict := k.mem_dict, mem_table := k.mem_table, mem_order := k.mem_order, lower_keys := k.lower_keys, acyclic := k.acyclic
    parents := by
      intro x p hp
      rw [parentOf_restrict] at hp
      split at hp
      · rename_i hx
        refine List.mem_filter.mpr ⟨h.parents x p hp, ?_⟩
        cases hq : P p with
        | true => rfl
        | false => rw [hP _ _ hp hq] at hx; cases hx
      · cases hp
    visible_all := by
      intro hs x
      have := h.visible_all hs x
      simp only [keys, Coll.restrict, List.mem_filter] at this ⊢
      rw [this]
    visible_top := by
      intro hs x
      have := h.visible_top hs x
      rw [parentOf_restrict]
      simp only [keys, Coll.restrict, List.mem_filter] at this ⊢
      rw [this]
      by_cases hx : P x <;> simp [hx] }

theorem entry_restrict (c : Coll) (P : Str → Bool) (k : Str) :
    entry (restrict c P) k = if P k then entry c k else none := by
  simp only [entry, restrict, dget_filter]
  by_cases h : P k <;> simp [h]

/-! ## Fresh keys -/

theorem freshKey_not_mem (keys : List Str) : ∀ (n : Nat) (k : Str),
    keys.countP (fun x => decide (k.length ≤ x.length)) < n → freshKey keys n k ∉ keys
  | 0, _, h => by omega
  | n + 1, k, h => by
    unfold freshKey
    split
    · rename_i hk
      apply freshKey_not_mem keys n
      obtain ⟨l1, l2, e⟩ := List.append_of_mem hk
      have hm : ∀ l : List Str, l.countP (fun x => decide ((k ++ ['+']).length ≤ x.length)) ≤
          l.countP (fun x => decide (k.length ≤ x.length)) := by
        intro l
        apply List.countP_mono_left
        intro x _ hx
        simp only [List.length_append, List.length_cons, List.length_nil, decide_eq_true_eq] at hx ⊢
        omega
      have h1 := hm l1
      have h2 := hm l2
      rw [e] at h ⊢
      simp only [List.countP_append, List.countP_cons, List.length_append, List.length_cons, List.length_nil] at h h1 h2 ⊢
      have h3 : ¬ (k.length + (0 + 1) ≤ k.length) := by omega
      simp only [h3, decide_false, Bool.false_eq_true, if_false, Nat.le_refl, decide_true, if_true] at h ⊢
      omega
    · assumption

theorem freshKey_fresh (keys : List Str) (k : Str) : freshKey keys (keys.length + 1) k ∉ keys := by
  apply freshKey_not_mem
  have := List.countP_le_length (l := keys) (p := fun x => decide (k.length ≤ x.length))
  omega

theorem freshKey_lower (keys : List Str) : ∀ (n : Nat) (k : Str), lower k = k → lower (freshKey keys n k) = freshKey keys n k
  | 0, _, h => h
  | n + 1, k, h => by
    unfold freshKey
    split
    · exact freshKey_lower keys n _ (CaseFold.lower_plus k h)
    · exact h

/-- A fresh key is the key with some plus signs appended. -/
theorem freshKey_form (keys : List Str) : ∀ (n : Nat) (k : Str), ∃ m, freshKey keys n k = k ++ List.replicate m '+'
  | 0, k => ⟨0, by simp [freshKey]⟩
  | n + 1, k => by
    unfold freshKey
    split
    · obtain ⟨m, hm⟩ := freshKey_form keys n (k ++ ['+'])
      exact ⟨m + 1, by rw [hm]; simp [List.replicate_succ]⟩
    · exact ⟨0, by simp⟩

/-! ## Giving a block another key -/

/-- The parent link after `old` has become `new`. -/
def relink (old new : Str) : Option Str → Option Str
  | some p => some (if p = old then new else p)
  | none => none

/-- The parent table with links to `old` changed to `new`. -/
def relinkTable (t : Dict Str PC) (old new : Str) : Dict Str PC :=
  t.map fun a => (a.1, ⟨a.2.blockId, relink old new a.2.parent⟩)

theorem dupdate_moved (t : Dict Str PC) (old new : Str) (hn : (dkeys t).Nodup) :
    dupdate t ((t.filter fun a => decide (a.2.parent = some old)).map fun a => (a.1, ⟨a.2.blockId, some new⟩)) =
      relinkTable t old new := by
  have key : ∀ (l : Dict Str PC) (d : Dict Str PC), (dkeys d).Nodup → (∀ a ∈ l, a.1 ∈ dkeys d) →
      dupdate d (l.map fun a => (a.1, ⟨a.2.blockId, some new⟩)) =
        d.map fun a => match dget (l.reverse) a.1 with
          | some pc => (a.1, ⟨pc.blockId, some new⟩)
          | none => a := by
    intro l
    induction l with
    | nil => intro d _ _; simp [dupdate, dget]
    | cons p r ih =>
      intro d hd hm
      simp only [dupdate, List.map_cons, List.foldl_cons] at ih ⊢
      rw [ih _ (nodup_dkeys_dset _ _ _ hd)]
      · rw [dset_map_of_nodup _ _ _ hd (hm p List.mem_cons_self), List.map_map]
        apply List.map_congr_left
        intro a ha
        simp only [Function.comp, List.reverse_cons, dget_append]
        by_cases hpa : a.1 = p.1
        · simp only [hpa, if_true]
          cases hr : dget r.reverse p.1 <;> simp [dget]
        · simp only [hpa, if_false]
          have : p.1 ≠ a.1 := fun e => hpa e.symm
          cases hr : dget r.reverse a.1 <;> simp [dget, this]
      · intro a ha
        rw [mem_dkeys_dset]
        exact Or.inr (hm a (List.mem_cons_of_mem _ ha))
  rw [key _ _ hn]
  · apply List.map_congr_left
    intro a ha
    obtain ⟨k, id, par⟩ := a
    have hnr : (dkeys ((t.filter fun a => decide (a.2.parent = some old)).reverse)).Nodup := by
      unfold dkeys
      rw [List.map_reverse]
      exact (List.reverse_perm _).nodup_iff.mpr ((List.filter_sublist.map _).nodup hn)
    by_cases hp : par = some old
    · have : ((k, (⟨id, par⟩ : PC)) : Str × PC) ∈ (t.filter fun a => decide (a.2.parent = some old)).reverse := by
        rw [List.mem_reverse, List.mem_filter]
        exact ⟨ha, by simpa using hp⟩
      simp only [dget_of_mem hnr this, hp, relink, if_true]
    · have : dget (t.filter fun a => decide (a.2.parent = some old)).reverse k = none := by
        rw [dget_eq_none]
        intro hk
        obtain ⟨pc, hpc⟩ := dget_isSome.mpr hk
        have hm := dget_mem hpc
        rw [List.mem_reverse, List.mem_filter] at hm
        have e1 := dget_of_mem hn hm.1
        have e2 := dget_of_mem hn ha
        rw [e1] at e2
        injection e2 with e2
        subst e2
        exact hp (by simpa using hm.2)
      simp only [this]
      cases par with
      | none => rfl
      | some p =>
        have : p ≠ old := fun e => hp (by rw [e])
        simp [relink, this]
  · intro a ha
    exact mem_dkeys (List.mem_filter.mp ha).1

theorem dget_relinkTable (t : Dict Str PC) (old new k : Str) :
    dget (relinkTable t old new) k = (dget t k).map fun pc => ⟨pc.blockId, relink old new pc.parent⟩ := by
  induction t with
  | nil => rfl
  | cons p r ih =>
    obtain ⟨a, b⟩ := p
    simp only [relinkTable, List.map_cons, dget] at ih ⊢
    split
    · rfl
    · exact ih

theorem dkeys_relinkTable (t : Dict Str PC) (old new : Str) : dkeys (relinkTable t old new) = dkeys t := by
  simp [dkeys, relinkTable, Function.comp_def]

theorem take_drop_replace {l : List Str} (hn : l.Nodup) {old : Str} (new : Str) (h : old ∈ l) :
    (l.filter fun x => decide (x ≠ old)).take (l.idxOf old) ++ new :: (l.filter fun x => decide (x ≠ old)).drop (l.idxOf old) =
      l.map fun x => if x = old then new else x := by
  induction l with
  | nil => simp at h
  | cons a r ih =>
    obtain ⟨ha, hr⟩ := List.nodup_cons.mp hn
    by_cases e : a = old
    · subst e
      have hf : r.filter (fun x => decide (x ≠ a)) = r := by
        apply List.filter_eq_self.mpr
        intro x hx
        simp only [decide_eq_true_eq]
        exact fun e => ha (e ▸ hx)
      have hmm : (r.map fun x => if x = a then new else x) = r := by
        conv => rhs; rw [← List.map_id r]
        apply List.map_congr_left
        intro x hx
        have : x ≠ a := fun e => ha (e ▸ hx)
        simp [this]
      rw [List.filter_cons_of_neg (by simp), hf]
      simp [List.idxOf_cons_self, hmm]
    · have hi : (a :: r).idxOf old = r.idxOf old + 1 := by
        rw [List.idxOf_cons, beq_false_of_ne e]; rfl
      rw [List.filter_cons_of_pos (by simpa using e), hi]
      simp only [List.take_succ_cons, List.drop_succ_cons, List.cons_append, List.map_cons, e, if_false]
      have h' : old ∈ r := by
        rcases List.mem_cons.mp h with h | h
        · exact absurd h.symm e
        · exact h
      rw [ih hr h']

/-- The collection after its block `old` has got the key `new` and the printed name `id`. -/
def rekeyed (c : Coll) (old new : Str) (b : Block) (info : PC) : Coll :=
  { c with
    dict := ddel c.dict old ++ [(new, b)]
    lowerKeys := (c.lowerKeys.filter fun x => decide (x ≠ old)) ++ [new]
    inputOrder := c.inputOrder.map fun x => if x = old then new else x
    childTable := ddel (relinkTable c.childTable old new) old ++ [(new, info)]
    visible := (c.visible.filter fun x => decide (x ≠ old)) ++ [new] }

theorem parentOf_relinked {c : Coll} {old new : Str} (k : Str) :
    parentOf { c with childTable := relinkTable c.childTable old new } k = relink old new (parentOf c k) := by
  simp only [parentOf, dget_relinkTable]
  cases dget c.childTable k <;> rfl

theorem relink_ne_old {old new : Str} (h : new ≠ old) (p : Option Str) : relink old new p ≠ some old := by
  cases p with
  | none => simp [relink]
  | some p =>
    simp only [relink]
    split
    · intro e; injection e with e; exact h e
    · intro e; injection e with e; contradiction

theorem rekey_eq {c : Coll} (h : Consistent c) {old new id : Str} (ho : old ∈ c.lowerKeys) (hv : old ∈ c.visible)
    (hnew : new ∉ c.lowerKeys) :
    ∃ b info, dget c.dict old = some b ∧ dget c.childTable old = some info ∧
      c.rekey old new id = (rekeyed c old new b (if id = [] then info else ⟨id, info.parent⟩), .ok ()) := by
  obtain ⟨b, hb, hb'⟩ := getItem_ok h.keyed ho
  obtain ⟨info, hi⟩ := dget_isSome.mpr ((h.mem_table old).mpr ho)
  have hne : new ≠ old := fun e => hnew (e ▸ ho)
  refine ⟨b, info, hb', hi, ?_⟩
  unfold rekey
  simp only [hb, hi]
  rw [dupdate_moved _ _ _ h.nd_table, if_neg (Classical.not_not.mpr ((h.mem_order old).mpr ho))]
  have hw : ∀ x, Within { c with childTable := relinkTable c.childTable old new } old x ↔ x = old := by
    intro x
    rw [within_iff_head]
    constructor
    · rintro (e | ⟨j, hj, _⟩)
      · exact e
      · rw [parentOf_relinked] at hj
        exact absurd hj (relink_ne_old hne _)
    · exact Or.inl
  have hlink : ∀ a x, Under { c with childTable := relinkTable c.childTable old new } a x → a ≠ new → Under c a x := by
    intro a x hu han
    induction hu with
    | child hp =>
      rw [parentOf_relinked] at hp
      refine .child ?_
      cases hq : parentOf c _ with
      | none => rw [hq] at hp; cases hp
      | some q =>
        rw [hq] at hp
        simp only [relink] at hp
        split at hp
        · injection hp with hp; exact absurd hp.symm han
        · exact hp
    | @deeper x y hu hp ih =>
      rw [parentOf_relinked] at hp
      refine .deeper ih ?_
      cases hq : parentOf c y with
      | none => rw [hq] at hp; cases hp
      | some q =>
        rw [hq] at hp
        simp only [relink] at hp
        split at hp
        · injection hp with hp
          subst hp
          have := under_mem hu
          simp only [dkeys_relinkTable] at this
          exact absurd ((h.mem_table _).mp this) hnew
        · exact hp
  have hK : Keyed { c with childTable := relinkTable c.childTable old new } := by
    refine ⟨h.nd_dict, ?_, h.nd_keys, h.nd_order, h.nd_visible, h.mem_dict, ?_, h.mem_order, h.lower_keys, ?_⟩
    · simp only [dkeys_relinkTable]; exact h.nd_table
    · simp only [dkeys_relinkTable]; exact h.mem_table
    · intro k hu
      by_cases hk : k = new
      · subst hk
        have := under_mem hu
        simp only [dkeys_relinkTable] at this
        exact hnew ((h.mem_table _).mp this)
      · exact h.acyclic k (hlink k k hu hk)
  have hlo := h.lower_keys old ho
  rw [delItem_eq' hK (by rw [hlo]; exact ho) (by intro x hx; rw [hlo] at hx; rw [(hw x).mp hx]; exact hv)
    (P := fun x => decide (x ≠ old)) (by intro x; rw [hlo, hw]; simp)]
  simp only
  have hnf : ∀ l : List Str, (∀ x, x ∈ l → x ∈ c.lowerKeys) → new ∉ l.filter fun x => decide (x ≠ old) :=
    fun l hl hm => hnew (hl _ (List.mem_filter.mp hm).1)
  rw [if_neg (show new ∉ (restrict { c with childTable := relinkTable c.childTable old new } fun x => decide (x ≠ old)).lowerKeys
    from hnf _ fun _ hx => hx)]
  simp only [restrict, filter_ne_eq_ddel, rekeyed]
  rw [if_pos hv, take_drop_replace h.nd_order new ((h.mem_order old).mpr ho)]
  rw [dset_of_not_mem _ _ _ (by rw [dkeys_ddel]; exact hnf _ fun x hx => (h.mem_dict x).mp hx)]
  rw [dset_of_not_mem _ _ _ (by rw [dkeys_ddel, dkeys_relinkTable]; exact hnf _ fun x hx => (h.mem_table x).mp hx)]

theorem parentOf_rekeyed {c : Coll} {old new : Str} {b : Block} {info : PC} (hnew : new ∉ dkeys c.childTable) (k : Str) :
    parentOf (rekeyed c old new b info) k =
      if k = new then info.parent else if k = old then none else relink old new (parentOf c k) := by
  simp only [parentOf, rekeyed, dget_append, dget_ddel, dget_relinkTable]
  by_cases hk : k = new
  · subst hk
    have := dget_eq_none.mpr hnew
    rw [this]
    simp [dget]
  · have hk' : ¬ new = k := fun e => hk e.symm
    by_cases ho : k = old
    · subst ho
      simp [dget, hk, hk']
    · have ho' : ¬ old = k := fun e => ho e.symm
      simp only [ho', if_false, dget, hk', hk, ho]
      cases dget c.childTable k <;> simp [relink]

theorem entry_rekeyed {c : Coll} (h : Consistent c) {old new : Str} {b : Block} {info : PC} (hnew : new ∉ c.lowerKeys) (k : Str) :
    entry (rekeyed c old new b info) k =
      if k = new then some ⟨b, info.blockId, info.parent⟩ else if k = old then none
      else (entry c k).map fun e => { e with parent := relink old new e.parent } := by
  simp only [entry, rekeyed, dget_append, dget_ddel, dget_relinkTable]
  by_cases hk : k = new
  · subst hk
    have h1 := dget_eq_none.mpr (fun hm => hnew ((h.mem_table _).mp hm))
    have h2 := dget_eq_none.mpr (fun hm => hnew ((h.mem_dict _).mp hm))
    rw [h1, h2]
    simp [dget]
  · have hk' : ¬ new = k := fun e => hk e.symm
    by_cases ho : k = old
    · subst ho
      simp [dget, hk, hk']
    · have ho' : ¬ old = k := fun e => ho e.symm
      simp only [ho', if_false, dget, hk', hk, ho]
      cases dget c.childTable k <;> cases dget c.dict k <;> simp

theorem rekeyed_up {c : Coll} (h : Consistent c) {old new : Str} {b : Block} {info : PC} (ho : old ∈ c.lowerKeys)
    (hnew : new ∉ c.lowerKeys) (hip : info.parent = parentOf c old) {x p : Str}
    (hp : parentOf (rekeyed c old new b info) x = some p) :
    parentOf c (if x = new then old else x) = some (if p = new then old else p) := by
  rw [parentOf_rekeyed (fun hm => hnew ((h.mem_table _).mp hm))] at hp
  by_cases hx : x = new
  · simp only [hx, if_true] at hp ⊢
    rw [hip] at hp
    rw [hp]
    have : p ≠ new := fun e => hnew (e ▸ h.parents _ _ hp)
    simp [this]
  · simp only [hx, if_false] at hp ⊢
    split at hp
    · cases hp
    · cases hq : parentOf c x with
      | none => rw [hq] at hp; cases hp
      | some q =>
        rw [hq] at hp
        have hqn : q ≠ new := fun e => hnew (e ▸ h.parents _ _ hq)
        simp only [relink] at hp
        split at hp
        · rename_i e
          injection hp with hp
          subst hp; subst e; simp
        · injection hp with hp
          subst hp
          simp [hqn]

theorem rekeyed_under {c : Coll} (h : Consistent c) {old new : Str} {b : Block} {info : PC} (ho : old ∈ c.lowerKeys)
    (hnew : new ∉ c.lowerKeys) (hip : info.parent = parentOf c old) {a x : Str}
    (hu : Under (rekeyed c old new b info) a x) : Under c (if a = new then old else a) (if x = new then old else x) := by
  induction hu with
  | child hp => exact .child (rekeyed_up h ho hnew hip hp)
  | deeper _ hp ih => exact .deeper ih (rekeyed_up h ho hnew hip hp)

theorem Consistent.rekeyed {c : Coll} (h : Consistent c) {old new : Str} {b : Block} {info : PC} (ho : old ∈ c.lowerKeys)
    (hv : old ∈ c.visible) (hnew : new ∉ c.lowerKeys) (hlow : lower new = new) (hip : info.parent = parentOf c old) :
    Consistent (c.rekeyed old new b info) := by
  have hne : new ≠ old := fun e => hnew (e ▸ ho)
  have nd : ∀ l : List Str, l.Nodup → (∀ x ∈ l, x ∈ c.lowerKeys) → ((l.filter fun x => decide (x ≠ old)) ++ [new]).Nodup := by
    intro l hl hm
    rw [List.nodup_append]
    refine ⟨hl.filter _, by simp, ?_⟩
    intro a ha b hb e
    subst e
    simp only [List.mem_singleton] at hb
    subst hb
    exact hnew (hm _ (List.mem_filter.mp ha).1)
  have hk : ∀ k, k ∈ (c.rekeyed old new b info).lowerKeys ↔ (k ∈ c.lowerKeys ∧ k ≠ old) ∨ k = new := by
    intro k
    simp only [Coll.rekeyed, List.mem_append, List.mem_filter, List.mem_singleton, decide_eq_true_eq]
  have hvn : ∀ x ∈ c.visible, x ∈ c.lowerKeys := by
    intro x hx
    cases hs : c.scoping with
    | dictionary => exact (h.visible_all hs x).mp hx
    | «instance» => exact ((h.visible_top hs x).mp hx).1
  constructor
  · simp only [Coll.rekeyed, dkeys_append, dkeys_ddel]
    exact nd _ h.nd_dict fun x hx => (h.mem_dict x).mp hx
  · simp only [Coll.rekeyed, dkeys_append, dkeys_ddel, dkeys_relinkTable]
    exact nd _ h.nd_table fun x hx => (h.mem_table x).mp hx
  · exact nd _ h.nd_keys fun x hx => hx
  · have hno : new ∉ c.inputOrder := fun e => hnew ((h.mem_order _).mp e)
    simp only [Coll.rekeyed]
    unfold List.Nodup
    rw [List.pairwise_map]
    refine List.Pairwise.imp_of_mem ?_ h.nd_order
    intro x y hx hy hxy
    have hxn : x ≠ new := fun e => hno (e ▸ hx)
    have hyn : y ≠ new := fun e => hno (e ▸ hy)
    by_cases e1 : x = old
    · by_cases e2 : y = old
      · exact absurd (e1.trans e2.symm) hxy
      · simp only [e1, e2, if_true, if_false]; exact fun e => hyn e.symm
    · by_cases e2 : y = old
      · simp only [e1, e2, if_true, if_false]; exact hxn
      · simp only [e1, e2, if_false]; exact hxy
  · exact nd _ h.nd_visible hvn
  · intro k
    rw [hk]
    simp only [Coll.rekeyed, dkeys_append, dkeys_ddel, List.mem_append, List.mem_filter, decide_eq_true_eq, h.mem_dict]
    simp [dkeys]
  · intro k
    rw [hk]
    simp only [Coll.rekeyed, dkeys_append, dkeys_ddel, dkeys_relinkTable, List.mem_append, List.mem_filter, decide_eq_true_eq, h.mem_table]
    simp [dkeys]
  · intro k
    rw [hk]
    simp only [Coll.rekeyed, List.mem_map]
    constructor
    · rintro ⟨a, ha, e⟩
      split at e
      · exact Or.inr e.symm
      · subst e; exact Or.inl ⟨(h.mem_order _).mp ha, by assumption⟩
    · rintro (⟨hk, hne'⟩ | rfl)
      · exact ⟨k, (h.mem_order k).mpr hk, by simp [hne']⟩
      · exact ⟨old, (h.mem_order old).mpr ho, by simp⟩
  · intro k hk'
    rcases (hk k).mp hk' with ⟨h1, _⟩ | rfl
    · exact h.lower_keys k h1
    · exact hlow
  · intro k p hp
    have := rekeyed_up h ho hnew hip hp
    rw [hk]
    by_cases hpn : p = new
    · exact Or.inr hpn
    · simp only [hpn, if_false] at this
      left
      refine ⟨h.parents _ _ this, ?_⟩
      rintro rfl
      rw [parentOf_rekeyed (fun hm => hnew ((h.mem_table _).mp hm))] at hp
      split at hp
      · rw [hip] at hp; exact h.acyclic _ (.child hp)
      · split at hp
        · cases hp
        · exact relink_ne_old hne _ hp
  · intro k hu
    exact h.acyclic _ (rekeyed_under h ho hnew hip hu)
  · intro hs k
    have hs' : c.scoping = .dictionary := hs
    rw [hk]
    simp only [keys, Coll.rekeyed, List.mem_append, List.mem_filter, decide_eq_true_eq, List.mem_singleton]
    rw [show k ∈ c.visible ↔ k ∈ c.lowerKeys from h.visible_all hs' k]
  · intro hs k
    have hs' : c.scoping = .instance := hs
    have hot := (h.visible_top hs' old).mp hv
    rw [hk, parentOf_rekeyed (fun hm => hnew ((h.mem_table _).mp hm))]
    simp only [keys, Coll.rekeyed, List.mem_append, List.mem_filter, decide_eq_true_eq, List.mem_singleton]
    rw [show k ∈ c.visible ↔ _ from h.visible_top hs' k]
    by_cases hkn : k = new
    · subst hkn
      simp [hip, hot.2]
    · by_cases hko : k = old
      · subst hko; simp [hkn]
      · simp only [hkn, hko, if_false, or_false]
        cases hq : parentOf c k <;> simp [relink, hko]

/-! ## Adding a block under an unused key -/

theorem addBlock_eq {c : Coll} {key name : Str} {b : Block} {parent : Option Str} (hk : key ∉ c.lowerKeys)
    (hp : ∀ p, parent = some p → lower p ∈ c.lowerKeys) (hd : key ∉ dkeys c.dict) (ht : key ∉ dkeys c.childTable) :
    c.addBlock key name b parent =
      { c with
        dict := c.dict ++ [(key, { b with unicode := c.unicode })]
        lowerKeys := c.lowerKeys ++ [key]
        inputOrder := c.inputOrder ++ [key]
        childTable := c.childTable ++ [(key, ⟨name, parent.map lower⟩)]
        visible := if parent = none ∨ c.scoping = .dictionary then c.visible ++ [key] else c.visible } := by
  unfold addBlock
  cases parent with
  | none =>
    simp only [if_neg hk, Option.map_none, true_or, if_true]
    rw [dset_of_not_mem _ _ _ hd, dset_of_not_mem _ _ _ ht]
  | some p =>
    have h1 : lower p ∈ c.lowerKeys ++ [key] := List.mem_append_left _ (hp p rfl)
    simp only [if_neg hk, if_pos h1, Option.map_some]
    rw [dset_of_not_mem _ _ _ hd, dset_of_not_mem _ _ _ ht]
    cases c.scoping <;> simp

/-- The collection with one more block. -/
def added (c : Coll) (key : Str) (e : Entry) : Coll :=
  { c with
    dict := c.dict ++ [(key, e.block)]
    lowerKeys := c.lowerKeys ++ [key]
    inputOrder := c.inputOrder ++ [key]
    childTable := c.childTable ++ [(key, ⟨e.blockId, e.parent⟩)]
    visible := if e.parent = none ∨ c.scoping = .dictionary then c.visible ++ [key] else c.visible }

theorem parentOf_added {c : Coll} {key : Str} {e : Entry} (ht : key ∉ dkeys c.childTable) (k : Str) :
    parentOf (added c key e) k = if k = key then e.parent else parentOf c k := by
  simp only [parentOf, added, dget_append]
  by_cases hk : k = key
  · subst hk
    rw [dget_eq_none.mpr ht]; simp [dget]
  · have : ¬ key = k := fun e => hk e.symm
    simp only [hk, if_false, dget, this]
    cases dget c.childTable k <;> rfl

theorem entry_added {c : Coll} {key : Str} {e : Entry} (h : Consistent c) (hn : key ∉ c.lowerKeys) (k : Str) :
    entry (added c key e) k = if k = key then some e else entry c k := by
  simp only [entry, added, dget_append]
  by_cases hk : k = key
  · subst hk
    rw [dget_eq_none.mpr (fun hm => hn ((h.mem_table _).mp hm)), dget_eq_none.mpr (fun hm => hn ((h.mem_dict _).mp hm))]
    simp [dget]
  · have : ¬ key = k := fun e => hk e.symm
    simp only [hk, if_false, dget, this]
    cases dget c.childTable k <;> cases dget c.dict k <;> rfl

theorem Consistent.added {c : Coll} (h : Consistent c) {key : Str} {e : Entry} (hn : key ∉ c.lowerKeys) (hlow : lower key = key)
    (hp : ∀ p, e.parent = some p → p ∈ c.lowerKeys) : Consistent (c.added key e) := by
  have nd : ∀ l : List Str, l.Nodup → (∀ x ∈ l, x ∈ c.lowerKeys) → (l ++ [key]).Nodup := by
    intro l hl hm
    rw [List.nodup_append]
    refine ⟨hl, by simp, ?_⟩
    intro a ha b hb e
    subst e
    simp only [List.mem_singleton] at hb
    subst hb
    exact hn (hm _ ha)
  have hvn : ∀ x ∈ c.visible, x ∈ c.lowerKeys := by
    intro x hx
    cases hs : c.scoping with
    | dictionary => exact (h.visible_all hs x).mp hx
    | «instance» => exact ((h.visible_top hs x).mp hx).1
  have ht : key ∉ dkeys c.childTable := fun hm => hn ((h.mem_table _).mp hm)
  have hpar := parentOf_added (c := c) (e := e) ht
  have hk : ∀ k, k ∈ (c.added key e).lowerKeys ↔ k ∈ c.lowerKeys ∨ k = key := by
    intro k; simp [Coll.added]
  have hup : ∀ x a, Under (c.added key e) a x → (x = key ∧ a ∈ c.lowerKeys) ∨ Under c a x := by
    intro x a hu
    induction hu with
    | child hq =>
      rw [hpar] at hq
      split at hq
      · exact Or.inl ⟨by assumption, hp _ hq⟩
      · exact Or.inr (.child hq)
    | @deeper x y hu hq ih =>
      rw [hpar] at hq
      split at hq
      · rename_i hy
        have hx := hp _ hq
        rcases ih with ⟨rfl, _⟩ | ih
        · exact absurd hx hn
        · obtain ⟨j, hj, _⟩ := under_iff_head.mp ih
          exact Or.inl ⟨hy, h.parents _ _ hj⟩
      · have hx := h.parents _ _ hq
        rcases ih with ⟨rfl, _⟩ | ih
        · exact absurd hx hn
        · exact Or.inr (.deeper ih hq)
  constructor
  · simp only [Coll.added, dkeys_append]
    exact nd _ h.nd_dict fun x hx => (h.mem_dict x).mp hx
  · simp only [Coll.added, dkeys_append]
    exact nd _ h.nd_table fun x hx => (h.mem_table x).mp hx
  · exact nd _ h.nd_keys fun x hx => hx
  · exact nd _ h.nd_order fun x hx => (h.mem_order x).mp hx
  · simp only [keys, Coll.added]
    split
    · exact nd _ h.nd_visible hvn
    · exact h.nd_visible
  · intro k; rw [hk]; simp only [Coll.added, dkeys_append, List.mem_append, h.mem_dict]; simp [dkeys]
  · intro k; rw [hk]; simp only [Coll.added, dkeys_append, List.mem_append, h.mem_table]; simp [dkeys]
  · intro k; rw [hk]; simp only [Coll.added, List.mem_append, h.mem_order]; simp
  · intro k hk'
    rcases (hk k).mp hk' with h1 | rfl
    · exact h.lower_keys k h1
    · exact hlow
  · intro k p hq
    rw [hpar] at hq
    rw [hk]
    split at hq
    · exact Or.inl (hp p hq)
    · exact Or.inl (h.parents _ _ hq)
  · intro k hu
    rcases hup k k hu with ⟨rfl, hm⟩ | hu
    · exact hn hm
    · exact h.acyclic k hu
  · intro hs k
    have hs' : c.scoping = .dictionary := hs
    have := h.visible_all hs' k
    rw [hk]
    simp only [keys, Coll.added, hs', or_true, if_true, List.mem_append, List.mem_singleton] at this ⊢
    rw [this]
  · intro hs k
    have hs' : c.scoping = .instance := hs
    have := h.visible_top hs' k
    rw [hk, hpar]
    simp only [keys] at this
    simp only [keys, Coll.added, hs']
    by_cases hkk : k = key
    · subst hkk
      have hkv : k ∉ c.visible := fun hm => hn (hvn _ hm)
      cases hep : e.parent <;> simp [hkv]
    · cases hep : e.parent <;> simp [hkk, this]

theorem visible_mem {c : Coll} (h : Consistent c) {x : Str} (hx : x ∈ c.visible) : x ∈ c.lowerKeys := by
  cases hs : c.scoping with
  | dictionary => exact (h.visible_all hs x).mp hx
  | «instance» => exact ((h.visible_top hs x).mp hx).1

theorem top_visible {c : Coll} (h : Consistent c) {x : Str} (hx : x ∈ c.lowerKeys) (ht : parentOf c x = none) : x ∈ c.visible := by
  cases hs : c.scoping with
  | dictionary => exact (h.visible_all hs x).mpr hx
  | «instance» => exact (h.visible_top hs x).mpr ⟨hx, ht⟩

end Coll
end Verif
