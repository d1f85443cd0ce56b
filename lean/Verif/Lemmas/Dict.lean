import Verif.Model.Dict
/-! Helper lemmas about association lists. -/
namespace Verif
variable {α β : Type} [DecidableEq α]

theorem dget_mem {d : Dict α β} {k : α} {v : β} (h : dget d k = some v) : (k, v) ∈ d := by
  induction d with
  | nil => simp [dget] at h
  | cons p r ih =>
    obtain ⟨a, b⟩ := p
    simp only [dget] at h
    split at h
    · rename_i e; simp at h; subst e; subst h; simp
    · exact List.mem_cons_of_mem _ (ih h)

theorem dget_eq_none {d : Dict α β} {k : α} : dget d k = none ↔ k ∉ dkeys d := by
  induction d with
  | nil => simp [dget, dkeys]
  | cons p r ih =>
    obtain ⟨a, b⟩ := p
    simp only [dget, dkeys, List.map_cons, List.mem_cons, not_or]
    split
    · rename_i e; subst e; simp
    · rename_i e; simp only [dkeys] at ih; rw [ih]; have e' : ¬ k = a := fun h => e h.symm; simp [e']

theorem dget_isSome {d : Dict α β} {k : α} : (∃ v, dget d k = some v) ↔ k ∈ dkeys d := by
  constructor
  · rintro ⟨v, h⟩
    exact List.mem_map.mpr ⟨(k, v), dget_mem h, rfl⟩
  · intro h
    cases hd : dget d k with
    | none => exact absurd h (dget_eq_none.mp hd)
    | some v => exact ⟨v, rfl⟩

omit [DecidableEq α] in
theorem mem_dkeys {d : Dict α β} {k : α} {v : β} (h : (k, v) ∈ d) : k ∈ dkeys d :=
  List.mem_map.mpr ⟨(k, v), h, rfl⟩

theorem dget_of_mem {d : Dict α β} {k : α} {v : β} (hn : (dkeys d).Nodup) (h : (k, v) ∈ d) :
    dget d k = some v := by
  induction d with
  | nil => simp at h
  | cons p r ih =>
    obtain ⟨a, b⟩ := p
    simp only [dkeys, List.map_cons, List.nodup_cons] at hn
    simp only [dget]
    simp only [List.mem_cons, Prod.mk.injEq] at h
    rcases h with ⟨h1, h2⟩ | h
    · simp [h1, h2]
    · split
      · rename_i e; subst e; exact absurd (mem_dkeys h) hn.1
      · exact ih hn.2 h

theorem dget_dset (d : Dict α β) (k k' : α) (v : β) :
    dget (dset d k v) k' = if k = k' then some v else dget d k' := by
  induction d with
  | nil => simp [dset, dget]
  | cons p r ih =>
    obtain ⟨a, b⟩ := p
    simp only [dset]
    split
    · rename_i e; subst e; simp only [dget]; split <;> rfl
    · rename_i e
      simp only [dget, ih]
      split
      · rename_i e2; subst e2; rw [if_neg (fun h => e h.symm)]
      · rfl

theorem dget_dset_self (d : Dict α β) (k : α) (v : β) : dget (dset d k v) k = some v := by
  simp [dget_dset]

theorem dget_dset_ne (d : Dict α β) {k k' : α} (v : β) (h : k ≠ k') :
    dget (dset d k v) k' = dget d k' := by
  simp [dget_dset, h]

theorem dkeys_dset (d : Dict α β) (k : α) (v : β) :
    dkeys (dset d k v) = if k ∈ dkeys d then dkeys d else dkeys d ++ [k] := by
  induction d with
  | nil => simp [dset, dkeys]
  | cons p r ih =>
    obtain ⟨a, b⟩ := p
    simp only [dset]
    split
    · rename_i e; subst e; simp [dkeys]
    · rename_i e
      have hc : ∀ (x : Dict α β), dkeys ((a, b) :: x) = a :: dkeys x := fun _ => rfl
      have : k ≠ a := fun h => e h.symm
      rw [hc, hc, ih]
      by_cases hk : k ∈ dkeys r
      · rw [if_pos hk, if_pos (by simp [hk])]
      · rw [if_neg hk, if_neg (by simp [hk, this])]; rfl

theorem mem_dkeys_dset (d : Dict α β) (k k' : α) (v : β) :
    k' ∈ dkeys (dset d k v) ↔ k' = k ∨ k' ∈ dkeys d := by
  rw [dkeys_dset]
  split
  · constructor
    · exact Or.inr
    · rintro (rfl | h) <;> assumption
  · simp; exact or_comm

theorem nodup_dkeys_dset (d : Dict α β) (k : α) (v : β) (h : (dkeys d).Nodup) :
    (dkeys (dset d k v)).Nodup := by
  rw [dkeys_dset]
  split
  · exact h
  · rename_i hk
    rw [List.nodup_append]
    refine ⟨h, by simp, ?_⟩
    intro a ha b hb
    simp at hb; subst hb
    exact fun e => hk (e ▸ ha)

theorem dset_of_not_mem (d : Dict α β) (k : α) (v : β) (h : k ∉ dkeys d) : dset d k v = d ++ [(k, v)] := by
  induction d with
  | nil => rfl
  | cons p r ih =>
    obtain ⟨a, b⟩ := p
    simp only [dkeys, List.map_cons, List.mem_cons, not_or] at h
    simp only [dset]
    rw [if_neg (fun e => h.1 e.symm), ih h.2]; rfl

theorem dset_map_of_nodup (d : Dict α β) (k : α) (v : β) (hn : (dkeys d).Nodup) (h : k ∈ dkeys d) :
    dset d k v = d.map fun p => if p.1 = k then (p.1, v) else p := by
  induction d with
  | nil => simp [dkeys] at h
  | cons p r ih =>
    obtain ⟨a, b⟩ := p
    simp only [dkeys, List.map_cons, List.nodup_cons, List.mem_cons] at hn h
    simp only [dset, List.map_cons]
    split
    · rename_i e; subst e
      congr 1
      have : ∀ p ∈ r, (if p.1 = a then (p.1, v) else p) = p := by
        intro p hp
        rw [if_neg]
        intro e
        exact hn.1 (e ▸ List.mem_map.mpr ⟨p, hp, rfl⟩)
      rw [List.map_congr_left this]; simp
    · rename_i e
      rw [ih hn.2 (h.resolve_left (fun x => e x.symm))]

theorem dkeys_ddel (d : Dict α β) (k : α) : dkeys (ddel d k) = (dkeys d).filter (fun x => decide (x ≠ k)) := by
  induction d with
  | nil => rfl
  | cons p r ih =>
    obtain ⟨a, b⟩ := p
    simp only [dkeys, ddel] at *
    simp only [List.filter_cons, List.map_cons]
    split <;> simp_all

theorem mem_dkeys_ddel (d : Dict α β) (k k' : α) : k' ∈ dkeys (ddel d k) ↔ k' ∈ dkeys d ∧ k' ≠ k := by
  rw [dkeys_ddel]; simp

theorem nodup_dkeys_ddel (d : Dict α β) (k : α) (h : (dkeys d).Nodup) : (dkeys (ddel d k)).Nodup := by
  rw [dkeys_ddel]; exact h.filter _

theorem dget_ddel (d : Dict α β) (k k' : α) :
    dget (ddel d k) k' = if k = k' then none else dget d k' := by
  induction d with
  | nil => simp [ddel, dget]
  | cons p r ih =>
    obtain ⟨a, b⟩ := p
    simp only [ddel] at *
    simp only [List.filter_cons]
    split
    · rename_i h
      simp at h
      simp only [dget, ih]
      split
      · rename_i e; subst e; rw [if_neg (fun x => h x.symm)]
      · rfl
    · rename_i h
      simp at h
      subst h
      rw [ih]
      simp only [dget]
      split <;> rfl

theorem dget_append (d e : Dict α β) (k : α) :
    dget (d ++ e) k = (dget d k).or (dget e k) := by
  induction d with
  | nil => simp [dget]
  | cons p r ih =>
    obtain ⟨a, b⟩ := p
    simp only [List.cons_append, dget]
    split
    · simp
    · exact ih

omit [DecidableEq α] in
theorem dkeys_append (d e : Dict α β) : dkeys (d ++ e) = dkeys d ++ dkeys e := by simp [dkeys]

theorem mem_of_mem_dset {d : Dict α β} {k : α} {v : β} {p : α × β} (h : p ∈ dset d k v) : p = (k, v) ∨ p ∈ d := by
  induction d with
  | nil => simp [dset] at h; exact Or.inl h
  | cons q r ih =>
    obtain ⟨a, b⟩ := q
    simp only [dset] at h
    split at h
    · rename_i e; subst e
      simp only [List.mem_cons] at h
      rcases h with h | h
      · exact Or.inl h
      · exact Or.inr (by simp [h])
    · simp only [List.mem_cons] at h
      rcases h with h | h
      · exact Or.inr (by simp [h])
      · rcases ih h with h | h
        · exact Or.inl h
        · exact Or.inr (by simp [h])

theorem mem_dset_iff {d : Dict α β} (hn : (dkeys d).Nodup) {k : α} {v : β} {p : α × β} :
    p ∈ dset d k v ↔ p = (k, v) ∨ (p ∈ d ∧ p.1 ≠ k) := by
  obtain ⟨a, b⟩ := p
  have hn' := nodup_dkeys_dset d k v hn
  constructor
  · intro h
    have h1 := dget_of_mem hn' h
    rw [dget_dset] at h1
    split at h1
    · rename_i e; simp at h1; left; rw [e, h1]
    · rename_i e; right; exact ⟨dget_mem h1, fun x => e x.symm⟩
  · rintro (h | ⟨h1, h2⟩)
    · simp only [Prod.mk.injEq] at h
      obtain ⟨rfl, rfl⟩ := h
      exact dget_mem (dget_dset_self d a b)
    · apply dget_mem
      rw [dget_dset_ne _ _ (fun x => h2 x.symm)]
      exact dget_of_mem hn h1

/-! ### lists -/

theorem mem_of_mem_pyErase {l : List α} {x y : α} (h : y ∈ pyErase l x) : y ∈ l := by
  induction l with
  | nil => exact h
  | cons a r ih =>
    unfold pyErase at h
    split at h
    · simp [h]
    · simp only [List.mem_cons] at h
      rcases h with rfl | h
      · simp
      · simp [ih h]

theorem pyErase_of_not_mem {l : List α} {x : α} (h : x ∉ l) : pyErase l x = l := by
  induction l with
  | nil => rfl
  | cons a r ih =>
    simp only [List.mem_cons, not_or] at h
    unfold pyErase
    rw [if_neg (fun e => h.1 e.symm), ih h.2]

theorem pyErase_eq_filter {l : List α} (hn : l.Nodup) (x : α) : pyErase l x = l.filter (fun y => decide (y ≠ x)) := by
  induction l with
  | nil => rfl
  | cons a r ih =>
    rw [List.nodup_cons] at hn
    unfold pyErase
    by_cases e : a = x
    · subst e
      simp only [if_true, List.filter_cons, ne_eq, not_true_eq_false, decide_false]
      rw [if_neg (by simp)]
      exact (List.filter_eq_self.mpr (fun y hy => by simp; rintro rfl; exact hn.1 hy)).symm
    · rw [if_neg e, ih hn.2]
      simp [e]

theorem mem_pyErase {l : List α} (hn : l.Nodup) {x y : α} : y ∈ pyErase l x ↔ y ≠ x ∧ y ∈ l := by
  rw [pyErase_eq_filter hn]; simp [and_comm]

theorem nodup_pyErase {l : List α} (hn : l.Nodup) (x : α) : (pyErase l x).Nodup := by
  rw [pyErase_eq_filter hn]; exact hn.filter _

theorem pyErase_perm {l : List α} {x : α} (h : x ∈ l) : l.Perm (x :: pyErase l x) := by
  induction l with
  | nil => simp at h
  | cons a r ih =>
    unfold pyErase
    by_cases e : a = x
    · subst e; simp
    · rw [if_neg e]
      simp only [List.mem_cons] at h
      rcases h with h | h
      · exact absurd h.symm e
      · exact ((ih h).cons a).trans (List.Perm.swap x a _)

theorem length_pyErase {l : List α} {x : α} (h : x ∈ l) : (pyErase l x).length + 1 = l.length := by
  simpa using (pyErase_perm h).length_eq.symm

theorem pyRemove_eq {l : List α} {x : α} (h : x ∈ l) : pyRemove l x = some (pyErase l x) := by
  simp [pyRemove, h]

theorem pyRemove_some {l l' : List α} {x : α} (h : pyRemove l x = some l') : x ∈ l ∧ l' = pyErase l x := by
  unfold pyRemove at h
  split at h
  · simp at h; exact ⟨by assumption, h.symm⟩
  · simp at h

theorem pyRemove_none {l : List α} {x : α} : pyRemove l x = none ↔ x ∉ l := by
  unfold pyRemove; split <;> simp_all

theorem pyInsert_perm {γ : Type} (l : List γ) (pos : Int) (x : γ) : (pyInsert l pos x).Perm (x :: l) := by
  unfold pyInsert
  simp only
  refine List.perm_middle.trans ?_
  rw [List.take_append_drop]

theorem mem_pyInsert {γ : Type} {l : List γ} {pos : Int} {x y : γ} : y ∈ pyInsert l pos x ↔ y = x ∨ y ∈ l := by
  rw [(pyInsert_perm l pos x).mem_iff]; simp

theorem nodup_pyInsert {γ : Type} {l : List γ} {pos : Int} {x : γ} (h : l.Nodup) (hx : x ∉ l) :
    (pyInsert l pos x).Nodup := by
  rw [(pyInsert_perm l pos x).nodup_iff]
  exact List.nodup_cons.mpr ⟨hx, h⟩

theorem foldl_erase_eq_filter (names l : List α) (h : l.Nodup) :
    names.foldl (fun l n => pyErase l n) l = l.filter (fun x => decide (x ∉ names)) := by
  induction names generalizing l with
  | nil => exact (List.filter_eq_self.mpr (by simp)).symm
  | cons n ns ih =>
    simp only [List.foldl_cons]
    rw [ih _ (nodup_pyErase h n), pyErase_eq_filter h, List.filter_filter]
    apply List.filter_congr
    intro x _
    simp [not_or, Bool.and_comm]

end Verif
