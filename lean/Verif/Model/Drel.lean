import Verif.Model.Shape
/-! # Operations of the dREL runtime on lists

Models `aug_append`, `aug_add`, `aug_sub`, `aug_remove` and `drel_strip` of `/repo/src/drel/drel_runtime.nw` 26-83, 179-181
for lists. Arrays of Numpy are not modelled, except that sums and differences of lists of numbers are computed by Numpy, whose
rule for one-dimensional arrays is modelled: lengths have to agree, or one of them is one. -/
namespace Verif
namespace Drel

/-- `isinstance(v,list)`: also true of a `StarList`. -/
def isList : PyVal → Bool
  | .list _ => true
  | .slist _ => true
  | _ => false

/-- `aug_append` (drel_runtime.nw 26-46): adding two lists, and the slice of a `StarList`, give a list. -/
def augAppend (current extra : PyVal) : Except PyErr PyVal :=
  match current with
  | .list l => .ok (.list (l ++ [extra]))
  | .slist l => .ok (.list (l ++ [extra]))
  | _ => .error .value

/-- Elementwise operation on one-dimensional arrays (Numpy). -/
def broadcast (op : Rat → Rat → Rat) (a b : List Rat) : Except PyErr (List Rat) :=
  if a.length = b.length then .ok (List.zipWith op a b)
  else match a, b with
    | [x], b => .ok (b.map fun y => op x y)
    | a, [y] => .ok (a.map fun x => op x y)
    | _, _ => .error .value

/-- An operand: a number or a list of numbers. -/
inductive Operand where
  | scalar (q : Rat)
  | vector (l : List Rat)
  deriving DecidableEq

/-- `aug_add` (drel_runtime.nw 48-58). A list and a number, two lists, or two numbers; adding a list to a number is left to
Python, which refuses. -/
def augAdd : Operand → Operand → Except PyErr Operand
  | .vector l, .scalar q => .ok (.vector (l.map fun x => x + q))
  | .vector l, .vector m => match broadcast (· + ·) l m with
    | .error e => .error e
    | .ok r => .ok (.vector r)
  | .scalar p, .scalar q => .ok (.scalar (p + q))
  | .scalar _, .vector _ => .error .type

/-- `aug_sub` (drel_runtime.nw 60-69). -/
def augSub : Operand → Operand → Except PyErr Operand
  | .vector l, .scalar q => .ok (.vector (l.map fun x => x - q))
  | .vector l, .vector m => match broadcast (· - ·) l m with
    | .error e => .error e
    | .ok r => .ok (.vector r)
  | .scalar p, .scalar q => .ok (.scalar (p - q))
  | .scalar _, .vector _ => .error .type

/-- `list.remove`: the first element that is equal. -/
def removeFirst (x : PyVal) : List PyVal → List PyVal
  | [] => []
  | a :: r => if a = x then r else a :: removeFirst x r

/-- `aug_remove` (drel_runtime.nw 71-83): the list is changed in place, so the result is also its new value. -/
def augRemove (current extra : PyVal) : Except PyErr PyVal :=
  match current with
  | .list l => .ok (.list (if extra ∈ l then removeFirst extra l else l))
  | .slist l => .ok (.slist (if extra ∈ l then removeFirst extra l else l))
  | _ => .error .value

/-- `a[element]` for a number; strings give one character. -/
def pyGet (v : PyVal) (i : Int) : Except PyErr PyVal :=
  match v with
  | .list l => Shape.listGet l (.at i)
  | .slist l => Shape.listGet l (.at i)
  | .str s => Shape.listGet (s.map fun c => .str [c]) (.at i)
  | .sdict _ => .error .key
  | .num _ => .error .type
  | .none => .error .type

/-- The list comprehension of `drel_strip`. -/
def stripEach (i : Int) : List PyVal → Except PyErr (List PyVal)
  | [] => .ok []
  | a :: r =>
    match pyGet a i with
    | .error e => .error e
    | .ok v =>
      match stripEach i r with
      | .error e => .error e
      | .ok vs => .ok (v :: vs)

/-- `drel_strip` (drel_runtime.nw 179-181). -/
def drelStrip (inList : PyVal) (i : Int) : Except PyErr PyVal :=
  match Block.pyIter inList with
  | .error e => .error e
  | .ok vs =>
    match stripEach i vs with
    | .error e => .error e
    | .ok r => .ok (.list r)

end Drel
end Verif
