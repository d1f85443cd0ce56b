import Verif.Model.Block
/-! # Blocks and the objects they share

A `StarBlock` keeps each value in a list of two elements and the names of each loop in a list of its own. Both are objects that are
changed in place by some methods, and that are shared by a block and its copies. Here these objects live in a heap, and the methods of
`Model/Block.lean` are modelled once more, this time saying which object is written and which is new. Reading goes through `view`, the
block as it appears.

Objects inside values (lists that are kept for the caller with `precheck`, and `StarList`s) are not in the heap: `AddItem` makes new
lists of all values it checks (StarFile.nw 1851-1868). -/
namespace Verif.Alias
open Block

/-- The objects: the pairs of string and value for data names, and the lists of names for loops; `next` is the next free address. -/
structure Heap where
  cells : Nat → PyVal × PyVal
  lists : Nat → List Str
  next : Nat

/-- A block that refers to objects (StarFile.nw 1461-1482). -/
structure HBlock where
  block : Dict Str Nat := []
  loops : Dict Nat Nat := []
  order : List Ref := []
  trueCase : Dict Str Str := []
  overwrite : Bool := true
  maxName : Option Nat := none
  unicode : Bool := false

/-- A dictionary with its addresses replaced by what is there. -/
def follow {α β : Type} (f : Nat → β) (d : Dict α Nat) : Dict α β := d.map fun p => (p.1, f p.2)

/-- The block as it appears. -/
def view (h : Heap) (x : HBlock) : Block :=
  { block := follow h.cells x.block, loops := follow h.lists x.loops, order := x.order, trueCase := x.trueCase,
    overwrite := x.overwrite, maxName := x.maxName, unicode := x.unicode }

/-- Change an object in place. -/
def Heap.setCell (h : Heap) (a : Nat) (c : PyVal × PyVal) : Heap := { h with cells := fun n => if n = a then c else h.cells n }

/-- Change an object in place. -/
def Heap.setList (h : Heap) (a : Nat) (l : List Str) : Heap := { h with lists := fun n => if n = a then l else h.lists n }

/-- A new object, at the address `h.next`. -/
def Heap.newCell (h : Heap) (c : PyVal × PyVal) : Heap := { h.setCell h.next c with next := h.next + 1 }

/-- A new object, at the address `h.next`. -/
def Heap.newList (h : Heap) (l : List Str) : Heap := { h.setList h.next l with next := h.next + 1 }

/-- The heap, the block and the result after a call. -/
abbrev Res := Heap × HBlock × Except PyErr Unit

/-- `copy` of `StarBlock` (StarFile.nw 1644-1652), and `StarBlock(data=block)` (1484-1489) with the settings of a new block. The
dictionaries and the order are copied, the objects in them are not. (`copy` of `CifBlock`, CifFile_module.nw 257-259, raises `AttributeError`:
methods have no attribute `im_class` in Python 3.) -/
def copyOf (x : HBlock) : HBlock := { block := x.block, loops := x.loops, order := x.order, trueCase := x.trueCase }

section
variable [CaseFold]

/-- The storing half of `AddItem` (StarFile.nw 1742-1754): a new pair. -/
def hStore (h : Heap) (x : HBlock) (key : Str) (sv : PyVal × PyVal) : Heap × HBlock :=
  let k := lower key
  (h.newCell sv, { x with
    order := if !(view h x).contains k && ((view h x).findLoop k).isNone then x.order ++ [.name k] else x.order
    trueCase := ddel x.trueCase k ++ [(k, key)]
    block := dset x.block k h.next })

/-- `AddItem` (StarFile.nw 1719-1754). -/
def hAddItem (h : Heap) (x : HBlock) (key : Str) (value : PyVal) (precheck : Bool := false) : Res :=
  match (view h x).addItemCheck key value precheck with
  | .error e => (h, x, .error e)
  | .ok sv => match hStore h x key sv with
    | (h', x') => (h', x', .ok ())

/-- `__setitem__` (StarFile.nw 1526-1530). -/
def hSetItem (h : Heap) (x : HBlock) (key : Str) (value : PyVal) : Res :=
  if key = saves then (h, x, .error .star) else hAddItem h x key value

/-- `RemoveItem` (StarFile.nw 1932-1947): the list of names is changed in place. -/
def hRemoveItem (h : Heap) (x : HBlock) (itemname : Str) : Res :=
  let k := lower itemname
  if (view h x).contains k then
    let x1 := { x with block := ddel x.block k }
    if k ∉ dkeys x.trueCase then (h, x1, .error .key)
    else
      let x2 := { x1 with trueCase := ddel x.trueCase k }
      match (view h x).findLoop itemname with
      | some n =>
        match dget x.loops n with
        | none => (h, x2, .error .key)
        | some a =>
          match pyRemove (h.lists a) k with
          | none => (h, x2, .error .value)
          | some l' =>
            if l' = [] then
              let x3 := { x2 with loops := ddel x.loops n }
              match pyRemove x.order (.loop n) with
              | none => (h.setList a l', x3, .error .value)
              | some o => (h.setList a l', { x3 with order := o }, .ok ())
            else (h.setList a l', x2, .ok ())
      | none =>
        match pyRemove x.order (.name k) with
        | none => (h, x2, .error .value)
        | some o => (h, { x2 with order := o }, .ok ())
  else (h, x, .ok ())

/-- The loop `for d in datanames: self[d] = [self[d]]` of `CreateLoop` (StarFile.nw 2047-2048). -/
def hWrapAll (h : Heap) (x : HBlock) : List Str → Res
  | [] => (h, x, .ok ())
  | d :: ds =>
    match (view h x).getItem d with
    | .error e => (h, x, .error e)
    | .ok v =>
      match hSetItem h x d (.list [v]) with
      | (h', x', .error e) => (h', x', .error e)
      | (h', x', .ok ()) => hWrapAll h' x' ds

/-- The length check of `CreateLoop` (StarFile.nw 2037-2048). -/
def hCreateLoopCheck (h : Heap) (x : HBlock) (datanames : List Str) : Res :=
  match (view h x).getAll datanames with
  | .error e => (h, x, .error e)
  | .ok vs =>
    let listed := vs.filter PyVal.isColumn
    if listed.length = datanames.length then
      if (vs.map colLen).any (fun n => (vs.map colLen).any (fun m => m ≠ n)) then (h, x, .error .value)
      else (h, x, .ok ())
    else if listed.length ≠ 0 then (h, x, .error .value)
    else hWrapAll h x datanames

/-- Remove names from each of these lists, in place (StarFile.nw 2052, 2108). -/
def dropNames (h : Heap) (as : List Nat) (names : List Str) : Heap :=
  { h with lists := fun n => if n ∈ as then names.foldl (fun l n => pyErase l n) (h.lists n) else h.lists n }

/-- Delete the loops that have become empty (StarFile.nw 2054-2057). -/
def hDropEmpty (x : HBlock) : List Nat → HBlock × Except PyErr Unit
  | [] => (x, .ok ())
  | a :: r =>
    match pyRemove x.order (.loop a) with
    | none => (x, .error .value)
    | some o => hDropEmpty { x with order := o, loops := ddel x.loops a } r

/-- The part of `CreateLoop` after the length check (StarFile.nw 2050-2068): names are removed from the other loops in place, and a new
list is made. -/
def hMakeLoop (h : Heap) (x : HBlock) (datanames : List Str) (order : Int) : Res :=
  let lc := datanames.map lower
  let h1 := dropNames h (x.loops.map (·.2)) lc
  match hDropEmpty x (((view h1 x).loops.filter fun p => p.2.length = 0).map (·.1)) with
  | (x2, .error e) => (h1, x2, .error e)
  | (x2, .ok ()) =>
    let n := newLoopNo (view h1 x2).loops
    let o := if 0 ≤ order then pyInsert x2.order order (.loop n) else x2.order ++ [.loop n]
    (h1.newList lc, { x2 with
       loops := dset x2.loops n h1.next
       order := o.filter fun r => match r with | .name s => decide (s ∉ lc) | .loop _ => true }, .ok ())

/-- `CreateLoop` (StarFile.nw 2029-2068). -/
def hCreateLoop (h : Heap) (x : HBlock) (datanames : List Str) (order : Int := -1) (lengthCheck : Bool := true) : Res :=
  if lengthCheck then
    match hCreateLoopCheck h x datanames with
    | (h', x', .error e) => (h', x', .error e)
    | (h', x', .ok ()) => hMakeLoop h' x' datanames order
  else hMakeLoop h x datanames order

/-- `AddLoopName` (StarFile.nw 2089-2115): the lists are changed in place. -/
def hAddLoopName (h : Heap) (x : HBlock) (oldname newname : Str) : Res :=
  let k := lower newname
  match (view h x).findLoop oldname with
  | none => (h, x, .error .key)
  | some n =>
    match dget x.loops n with
    | none => (h, x, .error .key)
    | some a =>
      if k ∈ h.lists a then (h, x, .ok ())
      else
        match (view h x).getItem oldname with
        | .error e => (h, x, .error e)
        | .ok ov => match ov.pyLen with
          | .error e => (h, x, .error e)
          | .ok len =>
            match (view h x).getItem newname with
            | .error e => (h, x, .error e)
            | .ok nv => match nv.pyLen with
              | .error e => (h, x, .error e)
              | .ok len' =>
                if len' ≠ len then (h, x, .error .length)
                else
                  let h1 := dropNames h (x.loops.map (·.2)) [k]
                  (h1.setList a (h1.lists a ++ [k]), { x with order := pyErase x.order (.name k) }, .ok ())

/-- `ChangeItemOrder` (StarFile.nw 1684-1697): the list of names of a loop is changed in place. -/
def hChangeItemOrder (h : Heap) (x : HBlock) (item : Ref) (newpos : Int) : Res :=
  match item with
  | .loop n =>
    if x.loops ≠ [] then (h, x, .error .attribute)
    else match pyRemove x.order (.loop n) with
      | none => (h, x, .error .value)
      | some o => (h, { x with order := pyInsert o newpos (.loop n) }, .ok ())
  | .name s =>
    let k := lower s
    match (view h x).findLoop k with
    | none =>
      match pyRemove x.order (.name k) with
      | none => (h, x, .error .value)
      | some o => (h, { x with order := pyInsert o newpos (.name k) }, .ok ())
    | some n =>
      match dget x.loops n with
      | none => (h, x, .error .key)
      | some a =>
        match pyRemove (h.lists a) k with
        | none => (h, x, .error .value)
        | some l' => (h.setList a (pyInsert l' newpos k), x, .ok ())

/-- `clear` (StarFile.nw 1637-1641): new dictionaries. -/
def hClear (x : HBlock) : HBlock := { x with block := [], loops := [], order := [], trueCase := [] }

/-- The loop over the data names in `RemoveKeyedPacket` (StarFile.nw 2375-2379): the pairs are changed in place. -/
def hRemoveRow (h : Heap) (x : HBlock) (i : Nat) : List Str → Res
  | [] => (h, x, .ok ())
  | d :: ds =>
    match dget x.block d with
    | none => (h, x, .error .key)
    | some a =>
      match delAt (h.cells a).1 i with
      | .error e => (h.setCell a (listed (h.cells a).1, (h.cells a).2), x, .error e)
      | .ok s' =>
        match delAt (h.cells a).2 i with
        | .error e => (h.setCell a (s', listed (h.cells a).2), x, .error e)
        | .ok v' => hRemoveRow (h.setCell a (s', v')) x i ds

/-- `RemoveKeyedPacket` (StarFile.nw 2369-2379). -/
def hRemoveKeyedPacket (h : Heap) (x : HBlock) (keyname : Str) (keyvalue : PyVal) : Res :=
  match (view h x).getItem keyname with
  | .error e => (h, x, .error e)
  | .ok col =>
    match pyIter col with
    | .error e => (h, x, .error e)
    | .ok l =>
      if keyvalue ∈ l then
        match (view h x).findLoop keyname with
        | none => (h, x, .error .key)
        | some n =>
          match dget (view h x).loops n with
          | none => (h, x, .error .key)
          | some names => hRemoveRow h x (l.idxOf keyvalue) names
      else (h, x, .error .value)

/-- `old_values.append(...)` (StarFile.nw 1347-1348): the list that is stored is changed in place. -/
def hAppend (h : Heap) (x : HBlock) (name : Str) (v : PyVal) : Heap × Except PyErr PyVal :=
  match dget x.block (lower name) with
  | none => (h, .error .key)
  | some a =>
    let c := h.cells a
    match (view h x).getItem name with
    | .error e => (h, .error e)
    | .ok (.list l) =>
      let l' := PyVal.list (l ++ [v])
      if c.1.isColumn && notNone c.1 then (h.setCell a (l', c.2), .ok l') else (h.setCell a (c.1, l'), .ok l')
    | .ok (.slist l) =>
      let l' := PyVal.slist (l ++ [v])
      if notNone c.1 then (h.setCell a (l', c.2), .ok l') else (h.setCell a (c.1, l'), .ok l')
    | .ok _ => (h, .error .attribute)

/-- The loop of `LoopBlock.AddPacket` (StarFile.nw 1346-1350): the old list is changed in place, then a new pair is stored. -/
def hAddPacketFrom (h : Heap) (x : HBlock) (p : Packet) : List Str → Res
  | [] => (h, x, .ok ())
  | d :: ds =>
    match (view h x).getItem d with
    | .error e => (h, x, .error e)
    | .ok _ =>
    match dget p.attrs d with
    | none => (h, x, .error .attribute)
    | some v =>
      match hAppend h x d v with
      | (h1, .error e) => (h1, x, .error e)
      | (h1, .ok l') =>
        match hSetItem h1 x d l' with
        | (h2, x2, .error e) => (h2, x2, .error e)
        | (h2, x2, .ok ()) => hAddPacketFrom h2 x2 p ds

/-- `LoopBlock.AddPacket` (StarFile.nw 1346-1350). -/
def hAddPacket (h : Heap) (x : HBlock) (n : Nat) (p : Packet) : Res :=
  match dget (view h x).loops n with
  | none => (h, x, .error .key)
  | some names => hAddPacketFrom h x p names

end
end Verif.Alias
