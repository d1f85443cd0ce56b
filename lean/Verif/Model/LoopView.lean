import Verif.Model.Block
/-! # Views of loops

`GetLoop` returns a `LoopBlock`, which holds the block and the number of the loop; everything else is looked up in the block when it is
asked for. Packets are in `Model/Block`. -/
namespace Verif.Block
variable [CaseFold]

/-- `LoopBlock.keys` (StarFile.nw 1244-1245) and `GetItemOrder` (1356-1359), which copies the list. -/
def viewKeys (b : Block) (n : Nat) : Except PyErr (List Str) :=
  match dget b.loops n with
  | none => .error .key
  | some l => .ok l

/-- `LoopBlock.values` (StarFile.nw 1247-1248). -/
def viewValues (b : Block) (n : Nat) : Except PyErr (List PyVal) :=
  match b.viewKeys n with
  | .error e => .error e
  | .ok l => b.getAll l

/-- `LoopBlock.items` (StarFile.nw 1251-1252). -/
def viewItems (b : Block) (n : Nat) : Except PyErr (List (Str × PyVal)) :=
  match b.viewKeys n with
  | .error e => .error e
  | .ok l => match b.viewValues n with
    | .error e => .error e
    | .ok vs => .ok (l.zip vs)

/-- `LoopBlock.__contains__` (StarFile.nw 1266-1267), `has_key` (1269-1270). -/
def viewContains (b : Block) (n : Nat) (key : Str) : Except PyErr Bool :=
  match b.viewKeys n with
  | .error e => .error e
  | .ok l => .ok (decide (key ∈ l))

/-- `LoopBlock.__getitem__` with a name (StarFile.nw 1254-1260). -/
def viewGet (b : Block) (n : Nat) (name : Str) : Except PyErr PyVal :=
  match b.viewContains n name with
  | .error e => .error e
  | .ok true => b.getItem name
  | .ok false => .error .key

/-- `LoopBlock.__setitem__` (StarFile.nw 1262-1264). -/
def viewSet (b : Block) (n : Nat) (name : Str) (value : PyVal) : Block × Except PyErr Unit :=
  match b.setItem name value with
  | (b', .error e) => (b', .error e)
  | (b', .ok ()) =>
    match b'.viewKeys n with
    | .error e => (b', .error e)
    | .ok [] => (b', .error .index)
    | .ok (k :: _) => b'.addLoopName k name

/-- `LoopBlock.ChangeItemOrder` (StarFile.nw 1367-1370). -/
def viewChangeOrder (b : Block) (n : Nat) (name : Str) (newpos : Int) : Block × Except PyErr Unit :=
  match dget b.loops n with
  | none => (b, .error .key)
  | some l =>
    match pyRemove l (lower name) with
    | none => (b, .error .value)
    | some l' => ({ b with loops := dset b.loops n (pyInsert l' newpos (lower name)) }, .ok ())

/-- `LoopBlock.GetLoopNames` (StarFile.nw 1376-1384). `self.loops` is the table of loops of the block, so that the loop in line 1379 runs over
numbers, which have no `GetLoopNames`. -/
def viewLoopNames (b : Block) (n : Nat) (name : Str) : Except PyErr (List Str) :=
  match b.viewContains n name with
  | .error e => .error e
  | .ok true => b.viewKeys n
  | .ok false => if b.loops = [] then .error .key else .error .attribute

/-- The loop of `LoopBlock.AddToLoop` (StarFile.nw 1397-1398). -/
def viewSetAll (b : Block) (n : Nat) : List (Str × PyVal) → Block × Except PyErr Unit
  | [] => (b, .ok ())
  | (k, v) :: r =>
    match b.viewSet n k v with
    | (b', .error e) => (b', .error e)
    | (b', .ok ()) => viewSetAll b' n r

/-- `LoopBlock.AddToLoop` (StarFile.nw 1395-1398); the view it is called on has no influence. -/
def viewAddToLoop (b : Block) (dataname : Str) (loopdata : List (Str × PyVal)) : Block × Except PyErr Unit :=
  match b.getLoop dataname with
  | .error e => (b, .error e)
  | .ok n => b.viewSetAll n loopdata

end Verif.Block
