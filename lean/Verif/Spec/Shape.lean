import Verif.Model.Shape
/-! # Specification of shapes and of access to nested lists -/
namespace Verif.Spec.Shape
open Verif.Shape

/-- Row `j`, column `i` of a list of rows, if there is one. -/
def cell {α : Type} (rows : List (List α)) (j i : Nat) : Option α := (rows[j]?).bind fun row => row[i]?

/-- `u` is found in `v` by going into lists, and is itself no list. -/
inductive Leaf : PyVal → PyVal → Prop
  | self {v : PyVal} : (∀ l, v ≠ .list l) → (∀ l, v ≠ .slist l) → Leaf v v
  | list {u v : PyVal} {l : List PyVal} : v ∈ l → Leaf u v → Leaf u (.list l)
  | slist {u v : PyVal} {l : List PyVal} : v ∈ l → Leaf u v → Leaf u (.slist l)

/-- `v` stands at place `i` of `l`, counted from the end when `i` is negative. -/
def At (l : List PyVal) (i : Int) (v : PyVal) : Prop := ∃ k : Nat, l[k]? = some v ∧ (i = k ∨ i = (k : Int) - l.length)

/-- There is no place `i` in a list of this length. -/
def Outside (n : Nat) (i : Int) : Prop := i < -(n : Int) ∨ (n : Int) ≤ i

/-- `v` is reached from the elements `l` of a `StarList` by indexing once for each of the indices; all lists on the way are
`StarList`s. -/
inductive Reach : List PyVal → List Int → PyVal → Prop
  | last {l : List PyVal} {i : Int} {v : PyVal} : At l i v → Reach l [i] v
  | step {l l' : List PyVal} {i j : Int} {is : List Int} {v : PyVal} : At l i (.slist l') → Reach l' (j :: is) v → Reach l (i :: j :: is) v

/-- Indexing repeatedly leads to a place that does not exist. -/
inductive Misses : List PyVal → List Int → Prop
  | here {l : List PyVal} {i : Int} {is : List Int} : Outside l.length i → Misses l (i :: is)
  | step {l l' : List PyVal} {i j : Int} {is : List Int} : At l i (.slist l') → Misses l' (j :: is) → Misses l (i :: j :: is)

/-- Place `k` of a list of length `n` is not before the lower bound of a slice; a negative bound counts from the end. -/
def FromBound (n : Nat) : Option Int → Nat → Prop
  | none, _ => True
  | some i, k => if 0 ≤ i then i ≤ k else i + n ≤ k

/-- Place `k` of a list of length `n` is before the upper bound of a slice. -/
def UntilBound (n : Nat) : Option Int → Nat → Prop
  | none, _ => True
  | some i, k => if 0 ≤ i then k < i else k < i + n

end Verif.Spec.Shape
