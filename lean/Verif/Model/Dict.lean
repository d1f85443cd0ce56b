/-! # Python dictionaries as association lists in insertion order -/
namespace Verif

/-- Python `dict`: an association list in insertion order, at most one entry per key. -/
abbrev Dict (α β : Type) := List (α × β)

/-- `d[k]` / `d.get(k)`. -/
def dget {α β : Type} [DecidableEq α] : Dict α β → α → Option β
  | [], _ => none
  | (a, b) :: r, k => if a = k then some b else dget r k

/-- `d[k] = v`: an existing entry keeps its place, a new one goes to the end. -/
def dset {α β : Type} [DecidableEq α] : Dict α β → α → β → Dict α β
  | [], k, v => [(k, v)]
  | (a, b) :: r, k, v => if a = k then (a, v) :: r else (a, b) :: dset r k v

/-- `del d[k]`, the case of a missing key being handled by the caller. -/
def ddel {α β : Type} [DecidableEq α] (d : Dict α β) (k : α) : Dict α β :=
  d.filter fun p => p.1 ≠ k

/-- `d.keys()`. -/
def dkeys {α β : Type} (d : Dict α β) : List α := d.map (·.1)

/-- `d.update(e)`. -/
def dupdate {α β : Type} [DecidableEq α] (d e : Dict α β) : Dict α β :=
  e.foldl (fun d p => dset d p.1 p.2) d

/-- The list without the first occurrence of `x`, if any. -/
def pyErase {α : Type} [DecidableEq α] : List α → α → List α
  | [], _ => []
  | a :: r, x => if a = x then r else a :: pyErase r x

/-- `l.remove(x)`: the first occurrence; `none` is the ValueError. -/
def pyRemove {α : Type} [DecidableEq α] (l : List α) (x : α) : Option (List α) :=
  if x ∈ l then some (pyErase l x) else none

/-- `l.insert(pos, x)`: negative positions count from the end, out-of-range ones are clamped. -/
def pyInsert {α : Type} (l : List α) (pos : Int) (x : α) : List α :=
  let n := if pos < 0 then (pos + l.length).toNat else pos.toNat
  l.take n ++ x :: l.drop n

/-- `l[i]` with Python's negative indices; `none` is the IndexError. -/
def pyIndex {α : Type} (l : List α) (i : Int) : Option α :=
  if 0 ≤ i then l[i.toNat]?
  else if -(l.length : Int) ≤ i then l[(i + l.length).toNat]? else none

end Verif
