import Verif.Lemmas.CollectionOps
/-! Helper lemmas: queries about nesting. -/
set_option linter.unusedSectionVars false
namespace Verif.Coll
open List
variable [CaseFold]

theorem anyE_ok {f : Str → Except PyErr Bool} {g : Str → Bool} : ∀ {l : List Str}, (∀ x ∈ l, f x = .ok (g x)) →
    anyE f l = .ok (l.any g)
  | [], _ => rfl
  | x :: r, h => by
    unfold anyE
    rw [h x List.mem_cons_self]
    cases hg : g x with
    | true => simp [hg]
    | false =>
      simp only
      rw [anyE_ok fun y hy => h y (List.mem_cons_of_mem _ hy)]
      simp [hg]

theorem filterE_ok {α : Type} {f : α → Except PyErr Bool} {g : α → Bool} : ∀ {l : List α}, (∀ x ∈ l, f x = .ok (g x)) →
    filterE f l = .ok (l.filter g)
  | [], _ => rfl
  | x :: r, h => by
    unfold filterE
    rw [h x List.mem_cons_self]
    simp only
    rw [filterE_ok fun y hy => h y (List.mem_cons_of_mem _ hy)]
    simp only
    cases hg : g x <;> simp [hg]

open Classical in
theorem isChildFuel_eq {c : Coll} (h : Consistent c) (b : Str) : ∀ (n : Nat) (p : Str), size c (lower p) < n →
    isChildFuel c n p b = .ok (decide (Under c (lower p) (lower b)))
  | 0, p, hs => by omega
  | n + 1, p, hs => by
    unfold isChildFuel
    simp only
    have hch : ∀ j, j ∈ c.children (lower p) ↔ parentOf c j = some (lower p) := fun j => mem_children h.nd_table
    split
    · rename_i hb
      rw [decide_eq_true (Under.child ((hch _).mp hb))]
    · rename_i hb
      rw [anyE_ok (g := fun j => decide (Under c j (lower b)))]
      · refine congrArg _ ?_
        rw [Bool.eq_iff_iff, List.any_eq_true]
        simp only [decide_eq_true_eq]
        rw [under_iff_head]
        constructor
        · rintro ⟨j, hj, hu⟩
          exact ⟨j, (hch j).mp hj, Or.inr hu⟩
        · rintro ⟨j, hj, rfl | hu⟩
          · exact absurd ((hch _).mpr hj) hb
          · exact ⟨j, (hch j).mpr hj, hu⟩
      · intro j hj
        have hp := (hch j).mp hj
        have hjk := (h.mem_table j).mp (parentOf_mem hp)
        have hlt := size_lt h.keyed (h.parents _ _ hp) hp
        have hl := h.lower_keys j hjk
        rw [isChildFuel_eq h b n j (by rw [hl]; omega), hl]

open Classical in
theorem isChildOfParent_eq {c : Coll} (h : Consistent c) (p b : Str) :
    c.isChildOfParent p b = .ok (decide (Under c (lower p) (lower b))) :=
  isChildFuel_eq h b _ p (Nat.lt_succ_of_le (size_le c _))

/-! ## Sorting -/

theorem strLe_total : ∀ a b : Str, (strLe a b || strLe b a) = true
  | [], _ => rfl
  | _ :: _, [] => rfl
  | a :: r, b :: t => by
    have ih := strLe_total r t
    simp only [strLe, Bool.or_eq_true, Bool.and_eq_true, decide_eq_true_eq] at ih ⊢
    by_cases e : a = b
    · subst e
      rcases ih with ih | ih
      · exact Or.inl (Or.inr ⟨rfl, ih⟩)
      · exact Or.inr (Or.inr ⟨rfl, ih⟩)
    · have : a.toNat ≠ b.toNat := fun h => e (Char.ext (UInt32.toNat_inj.mp h))
      rcases Nat.lt_or_gt_of_ne this with h | h
      · exact Or.inl (Or.inl h)
      · exact Or.inr (Or.inl h)

theorem strLe_trans : ∀ a b c : Str, strLe a b = true → strLe b c = true → strLe a c = true
  | [], _, _, _, _ => rfl
  | _ :: _, [], _, h, _ => by cases h
  | _ :: _, _ :: _, [], _, h => by cases h
  | a :: r, b :: t, c :: u, h1, h2 => by
    simp only [strLe, Bool.or_eq_true, Bool.and_eq_true, decide_eq_true_eq] at h1 h2 ⊢
    rcases h1 with h1 | ⟨rfl, h1⟩
    · rcases h2 with h2 | ⟨rfl, h2⟩
      · exact Or.inl (Nat.lt_trans h1 h2)
      · exact Or.inl h1
    · rcases h2 with h2 | ⟨rfl, h2⟩
      · exact Or.inl h2
      · exact Or.inr ⟨rfl, strLe_trans r t u h1 h2⟩

theorem insertSorted_perm (x : Str) : ∀ l : List Str, (insertSorted x l).Perm (x :: l)
  | [] => .refl _
  | y :: r => by
    unfold insertSorted
    split
    · exact .refl _
    · exact ((insertSorted_perm x r).cons y).trans (.swap x y r)

theorem pySort_perm : ∀ l : List Str, (pySort l).Perm l
  | [] => .refl _
  | x :: r => (insertSorted_perm x _).trans ((pySort_perm r).cons x)

theorem insertSorted_sorted (x : Str) : ∀ l : List Str, l.Pairwise (fun a b => strLe a b = true) →
    (insertSorted x l).Pairwise (fun a b => strLe a b = true)
  | [], _ => by simp [insertSorted]
  | y :: r, h => by
    obtain ⟨h1, h2⟩ := List.pairwise_cons.mp h
    unfold insertSorted
    split
    · rename_i hx
      refine List.pairwise_cons.mpr ⟨?_, h⟩
      intro z hz
      rcases List.mem_cons.mp hz with rfl | hz
      · exact hx
      · exact strLe_trans _ _ _ hx (h1 z hz)
    · rename_i hx
      refine List.pairwise_cons.mpr ⟨?_, insertSorted_sorted x r h2⟩
      intro z hz
      rcases List.mem_cons.mp ((insertSorted_perm x r).mem_iff.mp hz) with rfl | hz
      · have := strLe_total z y
        simp only [hx, Bool.false_or] at this
        exact this
      · exact h1 z hz

theorem pySort_sorted : ∀ l : List Str, (pySort l).Pairwise (fun a b => strLe a b = true)
  | [] => .nil
  | x :: r => insertSorted_sorted x _ (pySort_sorted r)

theorem pick_eq {d : Dict Str Block} : ∀ {ks : List Str}, (∀ k ∈ ks, k ∈ dkeys d) →
    ∃ e, pick d ks = .ok e ∧ dkeys e = ks ∧ ∀ k, dget e k = if k ∈ ks then dget d k else none
  | [], _ => ⟨[], rfl, rfl, by simp [dget]⟩
  | k :: ks, h => by
    obtain ⟨b, hb⟩ := dget_isSome.mpr (h k List.mem_cons_self)
    obtain ⟨e, he, h1, h2⟩ := pick_eq (d := d) (ks := ks) fun x hx => h x (List.mem_cons_of_mem _ hx)
    refine ⟨(k, b) :: e, by simp only [pick, hb, he], ?_, ?_⟩
    · simp only [dkeys, List.map_cons] at h1 ⊢; rw [h1]
    · intro x
      simp only [dget, h2]
      by_cases hx : k = x
      · subst hx; simp [hb]
      · have : ¬ x = k := fun e => hx e.symm
        simp [hx, this]

theorem dget_map_vals {β γ : Type} (d : Dict Str β) (f : Str → β → γ) (k : Str) :
    dget (d.map fun a => (a.1, f a.1 a.2)) k = (dget d k).map (f k) := by
  induction d with
  | nil => rfl
  | cons p r ih =>
    obtain ⟨a, b⟩ := p
    simp only [List.map_cons, dget]
    by_cases h : a = k
    · subst h; simp
    · simp [h, ih]

theorem dkeys_map_vals {β γ : Type} (d : Dict Str β) (f : Str → β → γ) :
    dkeys (d.map fun a => (a.1, f a.1 a.2)) = dkeys d := by
  simp [dkeys, Function.comp_def]

end Verif.Coll
