import Verif.Spec.Shape
/-! # C52 and C53: shapes, and access with several indices -/
namespace Verif.Shape
open Spec.Shape

/-! ## Transposing -/

theorem column_cases {α : Type} (i : Nat) : ∀ (rows : List (List α)),
    (∃ c, column i rows = .ok c ∧ c.length = rows.length ∧ (∀ j : Nat, c[j]? = cell rows j i) ∧ ∀ row ∈ rows, i < row.length) ∨
    (column i rows = .error .index ∧ ∃ row ∈ rows, row.length ≤ i)
  | [] => .inl ⟨[], rfl, rfl, by simp [cell], by simp⟩
  | row :: r => by
    cases h : row[i]? with
    | none => exact .inr ⟨by simp only [column, h], row, List.mem_cons_self, List.getElem?_eq_none_iff.1 h⟩
    | some a =>
      rcases column_cases i r with ⟨c, h1, h2, h3, h4⟩ | ⟨h1, row', h2, h3⟩
      · refine .inl ⟨a :: c, by simp only [column, h, h1], by simp [h2], ?_, ?_⟩
        · intro j
          cases j with
          | zero => simp [cell, h]
          | succ j =>
            have := h3 j
            simp only [cell] at this
            simp [cell, this]
        · intro row' hm
          rcases List.mem_cons.1 hm with rfl | hm
          · exact (List.getElem?_eq_some_iff.1 h).1
          · exact h4 _ hm
      · exact .inr ⟨by simp only [column, h, h1], row', List.mem_cons_of_mem _ h2, h3⟩

theorem columns_cases {α : Type} (rows : List (List α)) : ∀ (n i : Nat),
    (∃ t, columns rows i n = .ok t ∧ t.length = n ∧ (∀ c ∈ t, c.length = rows.length) ∧
      (∀ k j : Nat, k < n → cell t k j = cell rows j (i + k)) ∧ ∀ row ∈ rows, n = 0 ∨ i + n ≤ row.length) ∨
    (columns rows i n = .error .index ∧ ∃ row ∈ rows, row.length < i + n)
  | 0, i => .inl ⟨[], rfl, rfl, by simp, by omega, fun _ _ => .inl rfl⟩
  | n + 1, i => by
    rcases column_cases i rows with ⟨c, h1, h2, h3, h4⟩ | ⟨h1, row, h2, h3⟩
    · rcases columns_cases rows n (i + 1) with ⟨t, e1, e2, e3, e4, e5⟩ | ⟨e1, row, e2, e3⟩
      · refine .inl ⟨c :: t, by simp only [columns, h1, e1], by simp [e2], ?_, ?_, ?_⟩
        · intro d hd
          rcases List.mem_cons.1 hd with rfl | hd
          · exact h2
          · exact e3 d hd
        · intro k j hk
          cases k with
          | zero => simpa [cell] using h3 j
          | succ k =>
            have := e4 k j (by omega)
            rw [show i + (k + 1) = i + 1 + k by omega, ← this]
            simp [cell]
        · intro row hm
          rcases e5 row hm with h | h
          · have := h4 row hm
            omega
          · omega
      · exact .inr ⟨by simp only [columns, h1, e1], row, e2, by omega⟩
    · exact .inr ⟨by simp only [columns, h1], row, h2, by omega⟩

/-- C52: of a table with at least one row, all of one length, `transpose` makes the table whose rows are its columns. -/
theorem C52_transpose {α : Type} (rows : List (List α)) (m : Nat) (hne : rows ≠ []) (hr : ∀ row ∈ rows, row.length = m) :
    ∃ t, transpose rows = .ok t ∧ t.length = m ∧ (∀ c ∈ t, c.length = rows.length) ∧ ∀ i j : Nat, cell t i j = cell rows j i := by
  cases rows with
  | nil => exact absurd rfl hne
  | cons row r =>
    have hm : row.length = m := hr row List.mem_cons_self
    rcases columns_cases (row :: r) row.length 0 with ⟨t, e1, e2, e3, e4, -⟩ | ⟨e1, row', e2, e3⟩
    · refine ⟨t, e1, e2.trans hm, e3, ?_⟩
      intro i j
      by_cases hi : i < row.length
      · have := e4 i j hi
        rwa [Nat.zero_add] at this
      · have h1 : cell t i j = none := by
          have : t[i]? = none := List.getElem?_eq_none_iff.2 (by omega)
          simp [cell, this]
        have h2 : cell (row :: r) j i = none := by
          simp only [cell]
          cases hj : (row :: r)[j]? with
          | none => rfl
          | some row' =>
            have := hr row' (List.mem_of_getElem? hj)
            exact List.getElem?_eq_none_iff.2 (by omega)
        rw [h1, h2]
    · have := hr row' e2
      omega

theorem ext_cells {α : Type} {a b : List (List α)} (hl : a.length = b.length)
    (h : ∀ i j : Nat, cell a i j = cell b i j) : a = b := by
  apply List.ext_getElem?
  intro i
  by_cases hi : i < a.length
  · have hi' : i < b.length := by omega
    rw [List.getElem?_eq_getElem hi, List.getElem?_eq_getElem hi']
    congr 1
    apply List.ext_getElem?
    intro j
    have := h i j
    simpa [cell, hi, hi'] using this
  · rw [List.getElem?_eq_none_iff.2 (by omega), List.getElem?_eq_none_iff.2 (by omega)]

/-- C52: transposing twice gives the table back, when it has rows and columns. -/
theorem C52_involution {α : Type} (rows : List (List α)) (m : Nat) (hne : rows ≠ []) (hm : m ≠ 0) (hr : ∀ row ∈ rows, row.length = m) :
    ∃ t, transpose rows = .ok t ∧ transpose t = .ok rows := by
  obtain ⟨t, h1, h2, h3, h4⟩ := C52_transpose rows m hne hr
  have htne : t ≠ [] := by
    rintro rfl
    exact hm h2.symm
  obtain ⟨u, e1, e2, -, e4⟩ := C52_transpose t rows.length htne h3
  refine ⟨t, h1, ?_⟩
  have : u = rows := by
    apply ext_cells e2
    intro i j
    rw [e4, h4]
  rw [e1, this]

/-- C52: `transpose` fails exactly when there is no row, or a row is shorter than the first; it raises an IndexError. -/
theorem C52_raises {α : Type} (rows : List (List α)) :
    (rows = [] ∨ (∃ first r row, rows = first :: r ∧ row ∈ r ∧ row.length < first.length) → transpose rows = .error .index) ∧
    (∀ e, transpose rows = .error e → rows = [] ∨ ∃ first r row, rows = first :: r ∧ row ∈ r ∧ row.length < first.length) := by
  cases rows with
  | nil => exact ⟨fun _ => rfl, fun _ _ => .inl rfl⟩
  | cons row r =>
    rcases columns_cases (row :: r) row.length 0 with ⟨t, e1, -, -, -, e5⟩ | ⟨e1, row', e2, e3⟩
    · constructor
      · rintro (h | ⟨f, r', row', h, h2, h3⟩)
        · cases h
        · injection h with h h'
          subst h h'
          rcases e5 row' (List.mem_cons_of_mem _ h2) with h | h <;> omega
      · intro e he
        rw [transpose, e1] at he
        cases he
    · refine ⟨fun _ => e1, fun _ _ => .inr ⟨row, r, row', rfl, ?_, by omega⟩⟩
      rcases List.mem_cons.1 e2 with rfl | h
      · omega
      · exact h

/-- C52: a table with rows but no columns is not given back. -/
theorem C52_no_columns_fails : transpose ([[], []] : List (List Nat)) = .ok [] ∧ transpose ([] : List (List Nat)) = .error .index := by
  decide

example : transpose [[1, 2, 3], [4, 5, 6]] = .ok [[1, 4], [2, 5], [3, 6]] ∧ transpose [[1, 2], [4]] = .error .index ∧
    transpose [[1], [4, 5]] = .ok [[1, 4]] := by decide

/-! ## Leaves -/

mutual
theorem notNone_leaves : ∀ (v : PyVal), notNone v = true ↔ ∀ u, Leaf u v → u ≠ .none
  | .none => by
    refine iff_of_false (by simp [notNone]) ?_
    intro h
    exact h _ (.self (by simp) (by simp)) rfl
  | .str s => by
    refine iff_of_true rfl ?_
    intro u hu
    cases hu
    simp
  | .num s => by
    refine iff_of_true rfl ?_
    intro u hu
    cases hu
    simp
  | .sdict s => by
    refine iff_of_true rfl ?_
    intro u hu
    cases hu
    simp
  | .list l => by
    rw [notNone, notNoneAll_leaves l]
    constructor
    · intro h u hu
      cases hu with
      | self h1 _ => exact absurd rfl (h1 l)
      | list hm hu => exact h _ hm _ hu
    · intro h v hm u hu
      exact h u (.list hm hu)
  | .slist l => by
    rw [notNone, notNoneAll_leaves l]
    constructor
    · intro h u hu
      cases hu with
      | self _ h1 => exact absurd rfl (h1 l)
      | slist hm hu => exact h _ hm _ hu
    · intro h v hm u hu
      exact h u (.slist hm hu)
theorem notNoneAll_leaves : ∀ (l : List PyVal), notNoneAll l = true ↔ ∀ v ∈ l, ∀ u, Leaf u v → u ≠ .none
  | [] => by simp [notNoneAll]
  | a :: r => by
    rw [notNoneAll, Bool.and_eq_true, notNone_leaves a, notNoneAll_leaves r]
    simp
end

mutual
theorem stringy_leaves : ∀ (v : PyVal), checkStringiness v = true ↔ ∀ u, Leaf u v → (∃ s, u = .str s) ∨ ∃ d, u = .sdict d
  | .none => by
    refine iff_of_false (by simp [checkStringiness]) ?_
    intro h
    rcases h _ (.self (by simp) (by simp)) with ⟨_, h⟩ | ⟨_, h⟩ <;> cases h
  | .str s => by
    refine iff_of_true rfl ?_
    intro u hu
    cases hu
    simp
  | .num s => by
    refine iff_of_false (by simp [checkStringiness]) ?_
    intro h
    rcases h _ (.self (by simp) (by simp)) with ⟨_, h⟩ | ⟨_, h⟩ <;> cases h
  | .sdict s => by
    refine iff_of_true rfl ?_
    intro u hu
    cases hu
    simp
  | .list l => by
    rw [checkStringiness, stringyAll_leaves l]
    constructor
    · intro h u hu
      cases hu with
      | self h1 _ => exact absurd rfl (h1 l)
      | list hm hu => exact h _ hm _ hu
    · intro h v hm u hu
      exact h u (.list hm hu)
  | .slist l => by
    rw [checkStringiness, stringyAll_leaves l]
    constructor
    · intro h u hu
      cases hu with
      | self _ h1 => exact absurd rfl (h1 l)
      | slist hm hu => exact h _ hm _ hu
    · intro h v hm u hu
      exact h u (.slist hm hu)
theorem stringyAll_leaves : ∀ (l : List PyVal), checkStringinessAll l = true ↔ ∀ v ∈ l, ∀ u, Leaf u v → (∃ s, u = .str s) ∨ ∃ d, u = .sdict d
  | [] => by simp [checkStringinessAll]
  | a :: r => by
    rw [checkStringinessAll, Bool.and_eq_true, stringy_leaves a, stringyAll_leaves r]
    simp
end

/-- C52: `not_none` is true exactly of the values without `None` at any depth of lists. -/
theorem C52_not_none (v : PyVal) : notNone v = true ↔ ¬ Leaf .none v := by
  rw [notNone_leaves]
  constructor
  · intro h hl
    exact h _ hl rfl
  · intro h u hu e
    exact h (e ▸ hu)

/-- C52: when there are no tables, `check_stringiness` is true exactly of the values all of whose leaves are strings. -/
theorem C52_stringiness (v : PyVal) (hd : ∀ d, ¬ Leaf (.sdict d) v) : checkStringiness v = true ↔ ∀ u, Leaf u v → ∃ s, u = .str s := by
  rw [stringy_leaves]
  constructor
  · intro h u hu
    rcases h u hu with h | ⟨d, rfl⟩
    · exact h
    · exact absurd hu (hd d)
  · intro h u hu
    exact .inl (h u hu)

/-- C52 fails for tables: numbers and `None` within them are not seen. -/
theorem C52_tables_fail : checkStringiness (.sdict [(['a'], .num ['1'])]) = true ∧ notNone (.sdict [(['a'], .none)]) = true := ⟨rfl, rfl⟩

example : checkStringiness (.list [.str ['a'], .slist [.str ['b'], .num ['1']]]) = false ∧
    notNone (.list [.str ['a'], .slist [.none]]) = false ∧ ∀ d, ¬ Leaf (.sdict d) (.list [.str ['a'], .slist [.str ['b'], .num ['1']]]) := by
  refine ⟨rfl, rfl, ?_⟩
  intro d h
  rcases h with - | ⟨hm, h⟩
  rcases hm with - | ⟨_, hm⟩
  · cases h
  · rcases hm with - | ⟨_, hm⟩
    · rcases h with - | - | ⟨hm, h⟩
      rcases hm with - | ⟨_, hm⟩
      · cases h
      · rcases hm with - | ⟨_, hm⟩
        · cases h
        · cases hm
    · cases hm

/-! ## Several indices -/

theorem pyIndex_some {l : List PyVal} {i : Int} {v : PyVal} : pyIndex l i = some v ↔ At l i v := by
  unfold pyIndex At
  constructor
  · intro h
    split at h
    · exact ⟨i.toNat, h, .inl (by omega)⟩
    · split at h
      · exact ⟨_, h, .inr (by omega)⟩
      · cases h
  · rintro ⟨k, hk, rfl | rfl⟩
    · rw [if_pos (by omega)]
      simpa using hk
    · have := (List.getElem?_eq_some_iff.1 hk).1
      rw [if_neg (by omega), if_pos (by omega)]
      rw [show (k : Int) - l.length + l.length = k by omega]
      simpa using hk

theorem pyIndex_none {l : List PyVal} {i : Int} : pyIndex l i = none ↔ Outside l.length i := by
  unfold pyIndex Outside
  split
  · rw [List.getElem?_eq_none_iff]
    omega
  · split
    · rw [List.getElem?_eq_none_iff]
      omega
    · refine iff_of_true rfl ?_
      omega

theorem listGet_ok {l : List PyVal} {i : Int} {v : PyVal} : listGet l (.at i) = .ok v ↔ At l i v := by
  rw [listGet, ← pyIndex_some]
  cases pyIndex l i <;> simp

theorem listGet_error {l : List PyVal} {i : Int} {e : PyErr} (h : listGet l (.at i) = .error e) : e = .index ∧ Outside l.length i := by
  rw [listGet] at h
  rw [← pyIndex_none]
  cases hp : pyIndex l i with
  | none =>
    rw [hp] at h
    injection h with h
    exact ⟨h.symm, rfl⟩
  | some v =>
    rw [hp] at h
    cases h

theorem listGet_outside {l : List PyVal} {i : Int} (h : Outside l.length i) : listGet l (.at i) = .error .index := by
  rw [listGet, pyIndex_none.2 h]

/-- C53: indexing with several numbers gives what indexing repeatedly gives. -/
theorem C53_reach (l : List PyVal) (is : List Int) (v : PyVal) : starGet l (.tuple (is.map .at)) = .ok v ↔ Reach l is v := by
  rw [starGet]
  induction is generalizing l with
  | nil =>
    refine iff_of_false (by simp [getTuple]) ?_
    intro h
    cases h
  | cons i r ih =>
    cases r with
    | nil =>
      rw [List.map_cons, List.map_nil, getTuple, listGet_ok]
      constructor
      · exact .last
      · rintro (h | -)
        exact h
    | cons j r =>
      simp only [List.map_cons, getTuple]
      constructor
      · intro h
        cases hg : listGet l (.at i) with
        | error e => rw [hg] at h; cases h
        | ok w =>
          rw [hg] at h
          simp only at h
          cases w with
          | slist l' => exact .step (listGet_ok.1 hg) ((ih l').1 h)
          | _ => cases h
      · rintro (- | ⟨ha, hr⟩)
        rw [listGet_ok.2 ha]
        exact (ih _).2 hr

/-- C53: and it fails with an IndexError exactly when indexing repeatedly does. -/
theorem C53_misses (l : List PyVal) (is : List Int) (hne : is ≠ []) : starGet l (.tuple (is.map .at)) = .error .index ↔ Misses l is := by
  rw [starGet]
  induction is generalizing l with
  | nil => exact absurd rfl hne
  | cons i r ih =>
    cases r with
    | nil =>
      rw [List.map_cons, List.map_nil, getTuple]
      constructor
      · intro h
        exact .here (listGet_error h).2
      · rintro (h | -)
        exact listGet_outside h
    | cons j r =>
      simp only [List.map_cons, getTuple]
      constructor
      · intro h
        cases hg : listGet l (.at i) with
        | error e => exact .here (listGet_error hg).2
        | ok w =>
          rw [hg] at h
          simp only at h
          cases w with
          | slist l' => exact .step (listGet_ok.1 hg) ((ih l' (by simp)).1 h)
          | _ => cases h
      · rintro (h | ⟨ha, hr⟩)
        · rw [listGet_outside h]
        · rw [listGet_ok.2 ha]
          exact (ih _ (by simp)).2 hr

/-- C53: one index in brackets of its own, `l[i,]`, is the same as `l[i]`. -/
theorem C53_single (l : List PyVal) (i : Index) : starGet l (.tuple [i]) = starGet l (.one i) := rfl

theorem clip_from {n k : Nat} (hk : k < n) (lo : Option Int) : clip n 0 lo ≤ k ↔ FromBound n lo k := by
  cases lo with
  | none => simp [clip, FromBound]
  | some i =>
    simp only [clip, FromBound]
    split <;> omega

theorem clip_until {n k : Nat} (hk : k < n) (hi : Option Int) : k < clip n n hi ↔ UntilBound n hi k := by
  cases hi with
  | none => simp [clip, UntilBound, hk]
  | some i =>
    simp only [clip, UntilBound]
    split <;> omega

/-- C53: a slice is the piece of the list between its bounds. -/
theorem C53_slice (l : List PyVal) (lo hi : Option Int) :
    ∃ p r q, starGet l (.one (.slice lo hi)) = .ok (.list r) ∧ l = p ++ r ++ q ∧
      ∀ k : Nat, k < l.length → (p.length ≤ k ∧ k < p.length + r.length ↔ FromBound l.length lo k ∧ UntilBound l.length hi k) := by
  have e : starGet l (.one (.slice lo hi)) = .ok (.list ((l.take (clip l.length l.length hi)).drop (clip l.length 0 lo))) := rfl
  have hL : ∀ k, k < l.length → (clip l.length 0 lo ≤ k ∧ k < clip l.length l.length hi ↔ FromBound l.length lo k ∧ UntilBound l.length hi k) :=
    fun k hk => and_congr (clip_from hk lo) (clip_until hk hi)
  generalize clip l.length 0 lo = L at e hL
  generalize clip l.length l.length hi = H at e hL
  by_cases h : L ≤ H
  · refine ⟨l.take L, (l.take H).drop L, l.drop H, e, ?_, ?_⟩
    · have h1 : l.take L = (l.take H).take L := by rw [List.take_take, Nat.min_eq_left h]
      rw [h1, List.take_append_drop, List.take_append_drop]
    · intro k hk
      rw [← hL k hk]
      simp only [List.length_take, List.length_drop]
      omega
  · refine ⟨l, (l.take H).drop L, [], e, ?_, ?_⟩
    · have : (l.take H).drop L = [] := List.drop_eq_nil_iff.2 (by simp only [List.length_take]; omega)
      simp [this]
    · intro k hk
      rw [← hL k hk]
      omega

example : starGet [.num ['1'], .num ['2'], .num ['3']] (.one (.slice (some (-2)) (some 2))) = .ok (.list [.num ['2']]) ∧
    starGet [.num ['1'], .num ['2'], .num ['3']] (.one (.slice (some 0) (some (-1)))) = .ok (.list [.num ['1'], .num ['2']]) ∧
    starGet [.num ['1'], .num ['2']] (.one (.slice (some (-9)) (some 9))) = .ok (.list [.num ['1'], .num ['2']]) := by decide +kernel

/-- C53 fails where indexing repeatedly leaves the `StarList`s: a string or a slice can be indexed with one number, but not
with what is left of several. -/
theorem C53_mixed_fails :
    starGet [.str ['a', 'b']] (.tuple [.at 0, .at 1]) = .error .type ∧
    starGet [.slist [.str ['a']], .slist [.str ['b']]] (.tuple [.slice none (some 1), .at 0]) = .error .type ∧
    starGet [.slist [.str ['a']], .slist [.str ['b']]] (.one (.slice none (some 1))) = .ok (.list [.slist [.str ['a']]]) := by decide +kernel

example : starGet [.slist [.num ['1'], .num ['2']], .slist [.num ['3'], .num ['4']]] (.tuple [.at (-1), .at 0]) = .ok (.num ['3']) ∧
    starGet [.slist [.num ['1'], .num ['2']], .slist [.num ['3'], .num ['4']]] (.tuple [.at 1, .at 2]) = .error .index := by decide +kernel

end Verif.Shape
