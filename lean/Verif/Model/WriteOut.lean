import Verif.Model.Collection
/-! # Output of a block collection

Models `BlockCollection.WriteOut` and `block_to_string_nested` (StarFile.nw 837-911) down to the level of whole blocks: the
output is a list of pieces, and the text of a block's contents is one piece. Header comments, grammar settings and the
text of the pieces are not modelled here. -/
namespace Verif.Coll
variable [CaseFold]

/-- Parts of the output: `data_` and `save_` headings with the printed name, the bare `save_`, and the contents of the
block with a given key: whole, or in two halves (`printsection` with `finish_at` and `start_from`, StarFile.nw 869, 891). -/
inductive Piece where
  | data (name : Str)
  | save (name : Str)
  | endSave
  | body (key : Str)
  | front (key : Str)
  | back (key : Str)
  deriving DecidableEq, Repr

/-- Join the results of a computation that may raise. -/
def flatE {α β : Type} (f : α → Except PyErr (List β)) : List α → Except PyErr (List β)
  | [] => .ok []
  | x :: r =>
    match f x with
    | .error e => .error e
    | .ok l =>
      match flatE f r with
      | .error e => .error e
      | .ok m => .ok (l ++ m)

/-- `block_to_string_nested` (StarFile.nw 898-911), with a bound on nested calls as in `delFuel`. -/
def nestedFuel (c : Coll) (dic : Bool) : Nat → Str → Except PyErr (List Piece)
  | 0, _ => .error .depth
  | n + 1, k =>
    match c.getItem k with
    | .error e => .error e
    | .ok _ =>
      match flatE (fun a : Str × PC => (nestedFuel c dic n a.1).map fun l => Piece.save a.2.blockId :: l ++ [.endSave])
          (c.getImmediateChildren k) with
      | .error e => .error e
      | .ok kids => .ok (if dic then .body k :: kids else kids ++ [.body k])

/-- The save frames of one top-level block, nested (StarFile.nw 870-876). -/
def nestedKids (c : Coll) (dic : Bool) (t : Str) : Except PyErr (List Piece) :=
  flatE (fun a : Str × PC => (nestedFuel c dic (c.childTable.length + 1) a.1).map
    fun l => Piece.save a.2.blockId :: l ++ [.endSave]) (c.getImmediateChildren t)

/-- The save frames of one top-level block, not nested (StarFile.nw 877-884); `left` is `all_names`. -/
def flatKids (c : Coll) (left : List Str) : List Str → Except PyErr (List Piece × List Str)
  | [] => .ok ([], left)
  | k :: ks =>
    match dget c.childTable k, c.getItem k with
    | some pc, .ok _ =>
      match pyRemove left (lower k) with
      | none => .error .value
      | some left' =>
        match flatKids c left' ks with
        | .error e => .error e
        | .ok (l, left'') => .ok (.save pc.blockId :: .body k :: .endSave :: l, left'')
    | _, _ => .error .key

/-- One top-level block (StarFile.nw 864-891). -/
def writeTop (c : Coll) (nested : Bool) (blockorder : List Str) (t name : Str) (left : List Str) :
    Except PyErr (List Piece × List Str) :=
  let dic := decide (c.standard = some "Dic".toList)
  match pyRemove left t with
  | none => .error .value
  | some left1 =>
    match c.getItem t with
    | .error e => .error e
    | .ok _ =>
      match (if nested then (c.nestedKids dic t).map fun l => (l, left1)
        else match filterE (fun a => c.isChildOfParent t a) blockorder with
          | .error e => .error e
          | .ok kids => c.flatKids left1 kids) with
      | .error e => .error e
      | .ok (kids, left2) =>
        .ok (if dic then .data name :: .front t :: kids ++ [.back t] else .data name :: kids ++ [.body t], left2)

/-- The loop over the top-level blocks (StarFile.nw 862-891). -/
def writeTops (c : Coll) (nested : Bool) (blockorder : List Str) : List (Str × Str) → List Str → Except PyErr (List Piece)
  | [], _ => .ok []
  | (t, name) :: r, left =>
    match c.writeTop nested blockorder t name left with
    | .error e => .error e
    | .ok (l, left') =>
      match writeTops c nested blockorder r left' with
      | .error e => .error e
      | .ok m => .ok (l ++ m)

/-- `top_block_names` (StarFile.nw 861). -/
def topNames (c : Coll) : List Str → Except PyErr (List (Str × Str))
  | [] => .ok []
  | a :: r =>
    match dget c.childTable a with
    | none => .error .key
    | some pc =>
      match topNames c r with
      | .error e => .error e
      | .ok l => .ok (if pc.parent = none then (a, pc.blockId) :: l else l)

/-- `WriteOut` (StarFile.nw 837-896) for a given order of blocks. `nested` is the grammar `STAR2`, otherwise `1.0`, `1.1` or
`2.0`; other grammars raise. -/
def writeOutIn (c : Coll) (nested : Bool) (blockorder : List Str) : Except PyErr (List Piece) :=
  match c.topNames blockorder with
  | .error e => .error e
  | .ok tops => c.writeTops nested blockorder tops (dkeys c.childTable)

/-- `WriteOut` in the default order (StarFile.nw 859-860). -/
def writeOut (c : Coll) (nested : Bool) : Except PyErr (List Piece) := c.writeOutIn nested c.inputOrder

end Verif.Coll
