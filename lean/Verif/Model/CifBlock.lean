import Verif.Model.Block
/-! # The older ways to fill a block

Models `AddLoopItem` of `StarBlock` (StarFile.nw 1760-1777), the part of its constructor that uses it, and `AddCifItem` and
`__setitem__` of `CifBlock` (CifFile_module.nw 249-311). -/
namespace Verif.Block
variable [CaseFold]

/-- What the constructor and `AddLoopItem` take: a name and its value, or the names of a loop and its columns. -/
inductive Entry where
  | item (name : Str) (value : PyVal)
  | loop (names : List Str) (columns : List PyVal)

/-- `AddLoopItem` (StarFile.nw 1760-1777). `zip` stops at the end of the shorter list. -/
def addLoopItem (b : Block) : Entry → Block × Except PyErr Unit
  | .item name value => b.addItem name value
  | .loop names columns =>
    match b.update (names.zip columns) with
    | (b', .error e) => (b', .error e)
    | (b', .ok ()) => b'.createLoop names

/-- `for item in data: self.AddLoopItem(item)` in the constructor (StarFile.nw 1481-1483). -/
def addEntries (b : Block) : List Entry → Block × Except PyErr Unit
  | [] => (b, .ok ())
  | x :: r =>
    match b.addLoopItem x with
    | (b', .error e) => (b', .error e)
    | (b', .ok ()) => addEntries b' r

/-- `CifBlock(data=[...])` and `StarBlock(data=[...])` (CifFile_module.nw 232-238, StarFile.nw 1461-1483): no block if an entry
is refused. -/
def ofEntries (strict : Bool) (data : List Entry) : Except PyErr Block :=
  match addEntries { maxName := if strict then some 75 else none } data with
  | (_, .error e) => .error e
  | (b, .ok ()) => .ok b

/-- `__setitem__` of `CifBlock` (CifFile_module.nw 249-255). The key `"saves"` is not refused here. -/
def cifSetItem (b : Block) (compat : Bool) (key : Str) (value : PyVal) : Block × Except PyErr Unit :=
  match b.addItem key value with
  | (b', .error e) => (b', .error e)
  | (b', .ok ()) => if compat && value.isColumn then b'.createLoop [key] else (b', .ok ())

/-- What `AddCifItem` takes: a name and its value; `((names,),(columns,))`; or `(names,columns)`. -/
inductive CifData where
  | item (name : Str) (value : PyVal)
  | nested (names : List Str) (columns : List PyVal)
  | flat (names : List Str) (columns : List PyVal)

/-- `[list(a) for a in columns]` (CifFile_module.nw 303). -/
def lists : List PyVal → Except PyErr (List PyVal)
  | [] => .ok []
  | v :: r =>
    match pyIter v with
    | .error e => .error e
    | .ok l => match lists r with
      | .error e => .error e
      | .ok ls => .ok (.list l :: ls)

/-- Lines 303-306 of CifFile_module.nw: the names and columns found are added, then the loop is made. -/
def addCifLoop (b : Block) (names : List Str) (columns : List PyVal) : Block × Except PyErr Unit :=
  match lists columns with
  | .error e => (b, .error e)
  | .ok ls => b.addLoopItem (.loop names ls)

/-- `AddCifItem` of `CifBlock` (CifFile_module.nw 291-306). A single value is passed through `list()` (297). For several names
`data[0][0]` and `data[1][0]` are used (303), so with `(names,columns)` the first name is taken for the list of names. -/
def addCifItem (b : Block) : CifData → Block × Except PyErr Unit
  | .item name value =>
    match pyIter value with
    | .error e => (b, .error e)
    | .ok l =>
      match b.addItem name (.list l) with
      | (b', .error e) => (b', .error e)
      | (b', .ok ()) => if value.isColumn then b'.createLoop [name] else (b', .ok ())
  | .nested names columns => b.addCifLoop names columns
  | .flat [] _ => (b, .error .index)
  | .flat (_ :: _) [] => (b, .error .index)
  | .flat (name :: _) (column :: _) =>
    match pyIter column with
    | .error e => (b, .error e)
    | .ok l => b.addCifLoop (name.map fun c => [c]) l

end Verif.Block
