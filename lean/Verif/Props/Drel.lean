import Verif.Model.Drel
import Verif.Props.Shape
/-! # C62: operations of the dREL runtime on lists -/
namespace Verif.Drel

/-- C62: appending keeps the elements and adds one at the end, whether it is a list or not. -/
theorem C62_append (l : List PyVal) (x current : PyVal) (hc : current = .list l ∨ current = .slist l) :
    ∃ r, augAppend current x = .ok (.list r) ∧ r.length = l.length + 1 ∧ (∀ (i : Nat) (v : PyVal), l[i]? = some v → r[i]? = some v) ∧
      r[l.length]? = some x := by
  refine ⟨l ++ [x], by rcases hc with rfl | rfl <;> rfl, by simp, ?_, by simp⟩
  intro i v h
  rw [List.getElem?_append_left (List.getElem?_eq_some_iff.1 h).1]
  exact h

/-- C62: only lists can be appended to. -/
theorem C62_append_raises (x current : PyVal) (h1 : ∀ l, current ≠ .list l) (h2 : ∀ l, current ≠ .slist l) :
    augAppend current x = .error .value := by
  cases current with
  | list l => exact absurd rfl (h1 l)
  | slist l => exact absurd rfl (h2 l)
  | _ => rfl

example : augAppend (.slist [.num ['1']]) (.list [.num ['2'], .num ['3']]) = .ok (.list [.num ['1'], .list [.num ['2'], .num ['3']]]) := by
  decide +kernel

theorem zipWith_at {op : Rat → Rat → Rat} {a b : List Rat} (h : a.length = b.length) :
    (List.zipWith op a b).length = a.length ∧
    ∀ (i : Nat) (x y : Rat), a[i]? = some x → b[i]? = some y → (List.zipWith op a b)[i]? = some (op x y) := by
  refine ⟨by simp [h], ?_⟩
  intro i x y hx hy
  simp [List.getElem?_zipWith, hx, hy]

/-- C62: lists of the same length are added element by element. -/
theorem C62_add (a b : List Rat) (h : a.length = b.length) :
    ∃ r, augAdd (.vector a) (.vector b) = .ok (.vector r) ∧ r.length = a.length ∧
      ∀ (i : Nat) (x y : Rat), a[i]? = some x → b[i]? = some y → r[i]? = some (x + y) :=
  ⟨List.zipWith (· + ·) a b, by simp only [augAdd, broadcast, if_pos h], zipWith_at h⟩

/-- C62: and subtracted element by element. -/
theorem C62_sub (a b : List Rat) (h : a.length = b.length) :
    ∃ r, augSub (.vector a) (.vector b) = .ok (.vector r) ∧ r.length = a.length ∧
      ∀ (i : Nat) (x y : Rat), a[i]? = some x → b[i]? = some y → r[i]? = some (x - y) :=
  ⟨List.zipWith (· - ·) a b, by simp only [augSub, broadcast, if_pos h], zipWith_at h⟩

/-- C62: a number is added to, or subtracted from, every element. -/
theorem C62_scalar (a : List Rat) (q : Rat) :
    (∃ r, augAdd (.vector a) (.scalar q) = .ok (.vector r) ∧ r.length = a.length ∧ ∀ (i : Nat) (x : Rat), a[i]? = some x → r[i]? = some (x + q)) ∧
    (∃ r, augSub (.vector a) (.scalar q) = .ok (.vector r) ∧ r.length = a.length ∧ ∀ (i : Nat) (x : Rat), a[i]? = some x → r[i]? = some (x - q)) := by
  refine ⟨⟨_, rfl, by simp, ?_⟩, ⟨_, rfl, by simp, ?_⟩⟩ <;> intro i x h <;> simp [h]

/-- C62: lists of different lengths, neither of which has one element, are neither added nor subtracted. -/
theorem C62_lengths (a b : List Rat) (h : a.length ≠ b.length) (ha : a.length ≠ 1) (hb : b.length ≠ 1) :
    augAdd (.vector a) (.vector b) = .error .value ∧ augSub (.vector a) (.vector b) = .error .value := by
  have key : ∀ op, broadcast op a b = .error .value := by
    intro op
    unfold broadcast
    rw [if_neg h]
    split
    · exact absurd rfl ha
    · exact absurd rfl hb
    · rfl
  simp only [augAdd, augSub, key, and_self]

/-- C62: one element is combined with every element of a longer list, on its side of the operation. -/
theorem C62_one (x y : Rat) (a b : List Rat) (ha : a.length ≠ 1) (hb : b.length ≠ 1) :
    augAdd (.vector [x]) (.vector b) = .ok (.vector (b.map fun y => x + y)) ∧
    augAdd (.vector a) (.vector [y]) = .ok (.vector (a.map fun x => x + y)) ∧
    augSub (.vector [x]) (.vector b) = .ok (.vector (b.map fun y => x - y)) ∧
    augSub (.vector a) (.vector [y]) = .ok (.vector (a.map fun x => x - y)) := by
  have hb' : ¬ [x].length = b.length := fun h => hb h.symm
  have ha' : ¬ a.length = [y].length := fun h => ha h
  have h1 : ∀ op, broadcast op [x] b = .ok (b.map fun y => op x y) := by
    intro op
    unfold broadcast
    rw [if_neg hb']
  have h2 : ∀ op, broadcast op a [y] = .ok (a.map fun x => op x y) := by
    intro op
    unfold broadcast
    rw [if_neg ha']
    split
    · exact absurd rfl ha
    · rename_i h; injection h with h; subst h; rfl
    · rename_i h; exact absurd rfl (h _)
  simp only [augAdd, augSub, h1, h2, and_self]

/-- C62: two numbers are added and subtracted; a list is not added to, or subtracted from, a number. -/
theorem C62_numbers (p q : Rat) (l : List Rat) :
    augAdd (.scalar p) (.scalar q) = .ok (.scalar (p + q)) ∧ augSub (.scalar p) (.scalar q) = .ok (.scalar (p - q)) ∧
    augAdd (.scalar p) (.vector l) = .error .type ∧ augSub (.scalar p) (.vector l) = .error .type := ⟨rfl, rfl, rfl, rfl⟩

/-- C62: subtracting what was added gives the list back. -/
theorem C62_add_sub (a b : List Rat) (h : a.length = b.length) :
    ∃ r, augAdd (.vector a) (.vector b) = .ok (.vector r) ∧ augSub (.vector r) (.vector b) = .ok (.vector a) := by
  obtain ⟨r, h1, h2, h3⟩ := C62_add a b h
  obtain ⟨s, e1, e2, e3⟩ := C62_sub r b (h2.trans h)
  refine ⟨r, h1, ?_⟩
  rw [e1]
  congr 2
  apply List.ext_getElem?
  intro i
  by_cases hi : i < a.length
  · have hb : i < b.length := by omega
    have ha := List.getElem?_eq_getElem hi
    have hb' := List.getElem?_eq_getElem hb
    rw [e3 i _ _ (h3 i _ _ ha hb') hb', ha]
    congr 1
    grind
  · rw [List.getElem?_eq_none_iff.2 (by omega), List.getElem?_eq_none_iff.2 (by omega)]

example : augAdd (.vector [1, 2]) (.vector [3, 4]) = .ok (.vector [4, 6]) ∧ augSub (.vector [1, 2]) (.scalar 1) = .ok (.vector [0, 1]) ∧
    augAdd (.vector [1, 2]) (.vector [3]) = .ok (.vector [4, 5]) ∧ augAdd (.vector [1, 2]) (.vector [3, 4, 5]) = .error .value := by decide +kernel

theorem removeFirst_spec {x : PyVal} : ∀ {l : List PyVal}, x ∈ l → ∃ p q, l = p ++ x :: q ∧ x ∉ p ∧ removeFirst x l = p ++ q
  | a :: r, h => by
    by_cases e : a = x
    · subst e
      exact ⟨[], r, rfl, by simp, by simp [removeFirst]⟩
    · have hm : x ∈ r := by
        rcases List.mem_cons.1 h with h | h
        · exact absurd h.symm e
        · exact h
      obtain ⟨p, q, h1, h2, h3⟩ := removeFirst_spec hm
      refine ⟨a :: p, q, by rw [h1]; rfl, ?_, by rw [removeFirst, if_neg e, h3]; rfl⟩
      intro hx
      rcases List.mem_cons.1 hx with h | h
      · exact e h.symm
      · exact h2 h

/-- C62: removing takes the first of the equal elements out and leaves the order of the others; nothing happens when there is
none. -/
theorem C62_remove (l : List PyVal) (x : PyVal) :
    ∃ r, augRemove (.list l) x = .ok (.list r) ∧ augRemove (.slist l) x = .ok (.slist r) ∧
      ((x ∉ l ∧ r = l) ∨ ∃ p q, l = p ++ x :: q ∧ x ∉ p ∧ r = p ++ q) := by
  refine ⟨_, rfl, rfl, ?_⟩
  by_cases h : x ∈ l
  · rw [if_pos h]
    exact .inr (removeFirst_spec h)
  · rw [if_neg h]
    exact .inl ⟨h, rfl⟩

/-- C62: other values than lists are refused. -/
theorem C62_remove_raises (x current : PyVal) (h1 : ∀ l, current ≠ .list l) (h2 : ∀ l, current ≠ .slist l) :
    augRemove current x = .error .value := by
  cases current with
  | list l => exact absurd rfl (h1 l)
  | slist l => exact absurd rfl (h2 l)
  | _ => rfl

example : augRemove (.list [.num ['1'], .num ['2'], .num ['1']]) (.num ['1']) = .ok (.list [.num ['2'], .num ['1']]) := by decide +kernel

theorem stripEach_spec {i : Int} : ∀ {l : List PyVal},
    (∃ r, stripEach i l = .ok r ∧ r.length = l.length ∧ ∀ (k : Nat) (a : PyVal), l[k]? = some a → ∃ v, r[k]? = some v ∧ pyGet a i = .ok v) ∨
    (∃ (e : PyErr) (k : Nat) (a : PyVal), stripEach i l = .error e ∧ l[k]? = some a ∧ pyGet a i = .error e)
  | [] => .inl ⟨[], rfl, rfl, by simp⟩
  | a :: r => by
    cases h : pyGet a i with
    | error e => exact .inr ⟨e, 0, a, by simp only [stripEach, h], rfl, h⟩
    | ok v =>
      rcases stripEach_spec (i := i) (l := r) with ⟨s, h1, h2, h3⟩ | ⟨e, k, b, h1, h2, h3⟩
      · refine .inl ⟨v :: s, by simp only [stripEach, h, h1], by simp [h2], ?_⟩
        intro k b hb
        cases k with
        | zero =>
          simp only [List.getElem?_cons_zero, Option.some.injEq] at hb
          exact ⟨v, rfl, hb ▸ h⟩
        | succ k => exact h3 k b hb
      · exact .inr ⟨e, k + 1, b, by simp only [stripEach, h, h1], h2, h3⟩

/-- C62: `drel_strip` takes element `i` of every element, which are lists; it fails when one of them has no such element. -/
theorem C62_strip (rows : List (List PyVal)) (i : Int) :
    (∃ r : List PyVal, drelStrip (.list (rows.map .list)) i = .ok (.list r) ∧ r.length = rows.length ∧
      ∀ (k : Nat) (row : List PyVal), rows[k]? = some row → ∃ v, r[k]? = some v ∧ Spec.Shape.At row i v) ∨
    (drelStrip (.list (rows.map .list)) i = .error .index ∧ ∃ row ∈ rows, Spec.Shape.Outside row.length i) := by
  rw [drelStrip, Block.pyIter]
  rcases stripEach_spec (i := i) (l := rows.map .list) with ⟨r, h1, h2, h3⟩ | ⟨e, k, a, h1, h2, h3⟩
  · left
    refine ⟨r, by simp only [h1], by simpa using h2, ?_⟩
    intro k row hk
    obtain ⟨v, hv, hg⟩ := h3 k (.list row) (by simp [hk])
    exact ⟨v, hv, Shape.listGet_ok.1 hg⟩
  · right
    simp only [List.getElem?_map, Option.map_eq_some_iff] at h2
    obtain ⟨row, hr, rfl⟩ := h2
    obtain ⟨rfl, ho⟩ := Shape.listGet_error h3
    exact ⟨by simp only [h1], row, List.mem_of_getElem? hr, ho⟩

example : drelStrip (.list [.list [.num ['1'], .num ['2']], .list [.num ['3'], .num ['4']]]) 1 = .ok (.list [.num ['2'], .num ['4']]) := by
  decide +kernel

end Verif.Drel
