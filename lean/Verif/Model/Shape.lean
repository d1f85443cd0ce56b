import Verif.Model.Block
/-! # Shapes of lists

Models `transpose` (`/repo/src/StarFile.nw` 3266-3275, `/repo/src/CifFile_module.nw` 4272-4281) and
`StarList.__getitem__` (StarFile.nw 1195-1201). `not_none` and `check_stringiness` are in `Model/Value.lean`. -/
namespace Verif
namespace Shape

/-- `[base_list[j][i] for j in range(len(base_list))]`; an element that is missing raises an IndexError. -/
def column {α : Type} (i : Nat) : List (List α) → Except PyErr (List α)
  | [] => .ok []
  | row :: r =>
    match row[i]? with
    | none => .error .index
    | some a =>
      match column i r with
      | .error e => .error e
      | .ok c => .ok (a :: c)

/-- The loop over the columns: `n` columns starting with column `i`. -/
def columns {α : Type} (rows : List (List α)) : Nat → Nat → Except PyErr (List (List α))
  | _, 0 => .ok []
  | i, n + 1 =>
    match column i rows with
    | .error e => .error e
    | .ok c =>
      match columns rows (i + 1) n with
      | .error e => .error e
      | .ok cs => .ok (c :: cs)

/-- `transpose` (StarFile.nw 3266-3275). -/
def transpose {α : Type} : List (List α) → Except PyErr (List (List α))
  | [] => .error .index
  | row :: r => columns (row :: r) 0 row.length

/-- One index: a number, or a slice without a step. -/
inductive Index where
  | at (i : Int)
  | slice (lo hi : Option Int)
  deriving DecidableEq, Repr

/-- What is written between the square brackets: one index, or several separated by commas (a tuple). -/
inductive Key where
  | one (i : Index)
  | tuple (is : List Index)
  deriving DecidableEq, Repr

/-- The place in a list of length `n` that a bound of a slice stands for. -/
def clip (n : Nat) (dflt : Nat) : Option Int → Nat
  | none => dflt
  | some i => if 0 ≤ i then min i.toNat n else (i + n).toNat

/-- `list.__getitem__` for one index. A slice is a list, not a `StarList`. -/
def listGet (l : List PyVal) : Index → Except PyErr PyVal
  | .at i => match pyIndex l i with
    | none => .error .index
    | some v => .ok v
  | .slice lo hi => .ok (.list ((l.take (clip l.length l.length hi)).drop (clip l.length 0 lo)))

/-- `v.__getitem__(args)` with a tuple (StarFile.nw 1195-1201). Only `StarList` accepts a tuple: lists and strings raise a
TypeError, dictionaries a KeyError, other values have no such method. The empty tuple has no first element. -/
def getTuple : List Index → PyVal → Except PyErr PyVal
  | is, .slist l =>
    match is with
    | [] => .error .index
    | [i] => listGet l i
    | i :: j :: r =>
      match listGet l i with
      | .error e => .error e
      | .ok v => getTuple (j :: r) v
  | _, .list _ => .error .type
  | _, .str _ => .error .type
  | _, .sdict _ => .error .key
  | _, .num _ => .error .attribute
  | _, .none => .error .attribute

/-- `StarList.__getitem__` (StarFile.nw 1195-1201). -/
def starGet (l : List PyVal) : Key → Except PyErr PyVal
  | .one i => listGet l i
  | .tuple is => getTuple is (.slist l)

end Shape
end Verif
