import Verif.Model.Block
/-! # Block collections

Models `BlockCollection` (StarFile.nw 217-911). Blocks are values: that two names may be bound to the same
object is not modelled. `lower_keys` is a Python `set`; the model keeps its elements in insertion order, and no
theorem depends on that order. Formatting templates, header comments and output lengths are not modelled. -/
namespace Verif

/-- Entries of `child_table` (StarFile.nw 225): printed name and key of the enclosing block. -/
structure PC where
  blockId : Str
  parent : Option Str
  deriving DecidableEq, Repr

/-- `scoping` (StarFile.nw 287-296). -/
inductive Scoping where
  | dictionary | instance
  deriving DecidableEq, Repr

/-- `BlockCollection` (StarFile.nw 217-239). `unicode` is the character set. -/
structure Coll where
  dict : Dict Str Block := []
  lowerKeys : List Str := []
  childTable : Dict Str PC := []
  visible : List Str := []
  inputOrder : List Str := []
  scoping : Scoping := .instance
  standard : Option Str := some "CIF".toList
  unicode : Bool := false
  deriving DecidableEq, Repr

namespace Coll
variable [CaseFold]

/-- Keys of the top-level blocks (StarFile.nw 295, 544). -/
def topLevel (c : Coll) : List Str := (c.childTable.filter fun a => decide (a.2.parent = none)).map (·.1)

/-- Keys of the blocks directly inside block `k` (StarFile.nw 326, 453). -/
def children (c : Coll) (k : Str) : List Str :=
  (c.childTable.filter fun a => decide (a.2.parent = some k)).map (·.1)

/-- Setting the `scoping` attribute (StarFile.nw 287-296). -/
def setScoping (c : Coll) (s : Scoping) : Coll :=
  { c with
    visible := match s with | .dictionary => c.lowerKeys | .instance => c.topLevel
    scoping := s }

/-- `__getitem__` (StarFile.nw 308-316). -/
def getItem (c : Coll) (key : Str) : Except PyErr Block :=
  if lower key ∈ c.lowerKeys then
    match dget c.dict (lower key) with
    | some b => .ok b
    | none => .error .key
  else .error .key

/-- `__contains__` (StarFile.nw 341-346). -/
def contains (c : Coll) (key : Str) : Bool := decide (lower key ∈ c.visible)

/-- `keys` (StarFile.nw 354). -/
def keys (c : Coll) : List Str := c.visible

/-- `get` (StarFile.nw 361-365); `none` is the default. -/
def get (c : Coll) (key : Str) : Except PyErr (Option Block) :=
  if c.contains key then (c.getItem key).map some else .ok none

/-- `clear` (StarFile.nw 367-372). -/
def clear (c : Coll) : Coll :=
  { c with dict := [], lowerKeys := [], childTable := [], visible := [], inputOrder := [] }

/-- The part of `__delitem__` after the children have gone (StarFile.nw 329-336). Only `KeyError` is
caught around `visible_keys.remove`, but a list raises `ValueError`. -/
def removeKey (c : Coll) (k : Str) : Coll × Except PyErr Unit :=
  if k ∉ dkeys c.dict then (c, .error .key)
  else
    let c1 := { c with dict := ddel c.dict k }
    if k ∉ dkeys c.childTable then (c1, .error .key)
    else
      let c2 := { c1 with childTable := ddel c.childTable k }
      match pyRemove c.visible k with
      | none => (c2, .error .value)
      | some v =>
        let c3 := { c2 with visible := v }
        match pyRemove c.lowerKeys k with
        | none => (c3, .error .key)
        | some lk =>
          let c4 := { c3 with lowerKeys := lk }
          match pyRemove c.inputOrder k with
          | none => (c4, .error .value)
          | some o => ({ c4 with inputOrder := o }, .ok ())

/-- A `for` loop that stops at the first exception. -/
def forEach (f : Coll → Str → Coll × Except PyErr Unit) (c : Coll) : List Str → Coll × Except PyErr Unit
  | [] => (c, .ok ())
  | k :: ks =>
    match f c k with
    | (c', .error e) => (c', .error e)
    | (c', .ok ()) => forEach f c' ks

/-- `__delitem__` (StarFile.nw 322-336) with a bound on the depth of nested calls; running out of it is
Python's `RecursionError`. -/
def delFuel : Nat → Coll → Str → Coll × Except PyErr Unit
  | 0, c, _ => (c, .error .depth)
  | n + 1, c, key =>
    match c.getItem key with
    | .error e => (c, .error e)
    | .ok _ =>
      match forEach (delFuel n) c (c.children (lower key)) with
      | (c', .error e) => (c', .error e)
      | (c', .ok ()) => c'.removeKey (lower key)

/-- `__delitem__` (StarFile.nw 322-336). The depth of nesting is at most the number of blocks, unless the
parent table has a cycle, when the recursion never ends. -/
def delItem (c : Coll) (key : Str) : Coll × Except PyErr Unit := delFuel (c.childTable.length + 1) c key

/-- `while k in keys: k = k + '+'` (StarFile.nw 546, 549, 708, 716). At most one step for each key is
possible. -/
def freshKey (keys : List Str) : Nat → Str → Str
  | 0, k => k
  | n + 1, k => if k ∈ keys then freshKey keys n (k ++ ['+']) else k

/-- `_rekey` (StarFile.nw 586-605). -/
def rekey (c : Coll) (old new blockId : Str) : Coll × Except PyErr Unit :=
  match c.getItem old with
  | .error e => (c, .error e)
  | .ok moveBlock =>
    match dget c.childTable old with
    | none => (c, .error .key)
    | some info =>
      let moved := (c.childTable.filter fun a => decide (a.2.parent = some old)).map
        fun a => (a.1, { a.2 with parent := some new })
      let c1 := { c with childTable := dupdate c.childTable moved }
      if old ∉ c.inputOrder then (c1, .error .value)
      else
        let pos := c.inputOrder.idxOf old
        match c1.delItem old with
        | (c2, .error e) => (c2, .error e)
        | (c2, .ok ()) =>
          ({ c2 with
             dict := dset c2.dict new moveBlock
             lowerKeys := if new ∈ c2.lowerKeys then c2.lowerKeys else c2.lowerKeys ++ [new]
             inputOrder := c2.inputOrder.take pos ++ new :: c2.inputOrder.drop pos
             childTable := dset c2.childTable new (if blockId = [] then info else ⟨blockId, info.parent⟩)
             visible := if old ∈ c.visible then c2.visible ++ [new] else c2.visible }, .ok ())

/-- `rename` (StarFile.nw 607-616). -/
def rename (c : Coll) (oldname newname : Str) : Coll × Except PyErr Unit :=
  if lower newname ∈ c.lowerKeys then (c, .error .star)
  else if lower oldname ∉ c.lowerKeys then (c, .error .key)
  else c.rekey (lower oldname) (lower newname) newname

/-- `re.sub('[  \t]','_',blockname)` (StarFile.nw 539). -/
def fixName (s : Str) : Str := s.map fun ch => if ch = ' ' ∨ ch = '\t' then '_' else ch

/-- What `NewBlock` does to the block it is given (StarFile.nw 534-535, 573-574): the limit on names for
CIF, and the character set. -/
def prepare (c : Coll) (b : Block) : Block × Except PyErr Unit :=
  if c.standard = some "CIF".toList then b.setMaxNameLength (some 75) else (b, .ok ())

/-- The last part of `NewBlock`, which stores the block (StarFile.nw 557-576). When the parent does not
exist, only a warning is printed. -/
def addBlock (c : Coll) (key name : Str) (b : Block) (parent : Option Str) : Coll :=
  let c1 := { c with
    dict := dset c.dict key { b with unicode := c.unicode }
    lowerKeys := if key ∈ c.lowerKeys then c.lowerKeys else c.lowerKeys ++ [key]
    inputOrder := c.inputOrder ++ [key] }
  match parent with
  | none => { c1 with childTable := dset c1.childTable key ⟨name, none⟩, visible := c1.visible ++ [key] }
  | some p =>
    if lower p ∈ c1.lowerKeys then
      match c.scoping with
      | .instance => { c1 with childTable := dset c1.childTable key ⟨name, some (lower p)⟩ }
      | .dictionary =>
        { c1 with childTable := dset c1.childTable key ⟨name, some (lower p)⟩, visible := c1.visible ++ [key] }
    else c1

/-- `NewBlock` (StarFile.nw 526-576), returning the key. -/
def newBlock (c : Coll) (blockname : Str) (contents : Block := {}) (fix : Bool := true) (parent : Option Str := none) :
    Coll × Except PyErr Str :=
  match c.prepare contents with
  | (_, .error e) => (c, .error e)
  | (b, .ok ()) =>
    if blockname.length > 75 then (c, .error .star)
    else
      let name := if fix then fixName blockname else blockname
      let k := lower name
      if k ∈ c.lowerKeys then
        match c.standard with
        | some _ =>
          match parent with
          | none =>
            if k ∉ c.topLevel then
              let k' := freshKey c.lowerKeys (c.lowerKeys.length + 1) k
              (c.addBlock k' name b none, .ok k')
            else (c, .error .star)
          | some p =>
            if k ∈ c.topLevel then
              let r := freshKey c.lowerKeys (c.lowerKeys.length + 1) k
              match c.rekey k r [] with
              | (c', .error e) => (c', .error e)
              | (c', .ok ()) => (c'.addBlock k name b (if lower p = k then some r else some p), .ok k)
            else (c, .error .star)
        | none =>
          match c.delItem k with
          | (c', .error e) => (c', .error e)
          | (c', .ok ()) => (c'.addBlock k name b parent, .ok k)
      else (c.addBlock k name b parent, .ok k)

/-- `set_parent` (StarFile.nw 461-471). -/
def setParent (c : Coll) (parentname childname : Str) : Coll × Except PyErr Unit :=
  if lower parentname ∉ c.lowerKeys then (c, .error .key)
  else if lower childname ∉ c.lowerKeys then (c, .error .key)
  else match dget c.childTable (lower childname) with
    | none => (c, .error .key)
    | some old =>
      (({ c with childTable := dset c.childTable (lower childname) ⟨old.blockId, some (lower parentname)⟩ } : Coll).setScoping
        c.scoping, .ok ())

/-- `get_parent` (StarFile.nw 403-414): a dictionary has at most one entry for a key. -/
def getParent (c : Coll) (name : Str) : Except PyErr (Option Str) :=
  match dget c.childTable (lower name) with
  | none => .error .star
  | some pc => .ok pc.parent

/-- `get_immediate_children` (StarFile.nw 438-441). -/
def getImmediateChildren (c : Coll) (parentname : Str) : Dict Str PC :=
  c.childTable.filter fun a => decide (a.2.parent = some (lower parentname))

/-- The `for` loop of `is_child_of_parent` (StarFile.nw 456-458), stopping at the first success. -/
def anyE (f : Str → Except PyErr Bool) : List Str → Except PyErr Bool
  | [] => .ok false
  | x :: r =>
    match f x with
    | .error e => .error e
    | .ok true => .ok true
    | .ok false => anyE f r

/-- `is_child_of_parent` (StarFile.nw 450-459) with a bound on nested calls, see `delFuel`. -/
def isChildFuel (c : Coll) : Nat → Str → Str → Except PyErr Bool
  | 0, _, _ => .error .depth
  | n + 1, parentname, blockname =>
    let more := c.children (lower parentname)
    if lower blockname ∈ more then .ok true
    else anyE (fun k => isChildFuel c n k blockname) more

/-- `is_child_of_parent` (StarFile.nw 450-459). -/
def isChildOfParent (c : Coll) (parentname blockname : Str) : Except PyErr Bool :=
  isChildFuel c (c.childTable.length + 1) parentname blockname

/-- A filter whose test may raise. -/
def filterE {α : Type} (f : α → Except PyErr Bool) : List α → Except PyErr (List α)
  | [] => .ok []
  | x :: r =>
    match f x with
    | .error e => .error e
    | .ok t =>
      match filterE f r with
      | .error e => .error e
      | .ok r' => .ok (if t then x :: r' else r')

/-- Code point order of strings, as used by `sort`. -/
def strLe : Str → Str → Bool
  | [], _ => true
  | _ :: _, [] => false
  | a :: r, b :: t => decide (a.toNat < b.toNat) || (decide (a = b) && strLe r t)

/-- Insert into a sorted list. -/
def insertSorted (x : Str) : List Str → List Str
  | [] => [x]
  | y :: r => if strLe x y then x :: y :: r else y :: insertSorted x r

/-- `list.sort` on strings. -/
def pySort : List Str → List Str
  | [] => []
  | x :: r => insertSorted x (pySort r)

/-- `get_child_list` (StarFile.nw 444-448). -/
def getChildList (c : Coll) (parentname : Str) : Except PyErr (List Str) :=
  match filterE (fun a => c.isChildOfParent (lower parentname) a) (dkeys c.childTable) with
  | .error e => .error e
  | .ok l => .ok (pySort l)

/-- Entries of a dictionary for the given keys, `KeyError` if one is missing. -/
def pick (d : Dict Str Block) : List Str → Except PyErr (Dict Str Block)
  | [] => .ok []
  | k :: ks =>
    match dget d k with
    | none => .error .key
    | some b => match pick d ks with
      | .error e => .error e
      | .ok r => .ok ((k, b) :: r)

/-- `get_children` (StarFile.nw 420-436). The new collection has no `block_input_order`. The test is applied to
the printed name of a block, not to its key. -/
def getChildren (c : Coll) (blockname : Str) (includeParent : Bool := false) (s : Scoping := .dictionary) :
    Except PyErr Coll :=
  let bl := lower blockname
  match filterE (fun a => c.isChildOfParent bl a.2.blockId) c.childTable with
  | .error e => .error e
  | .ok proto =>
    let t := if includeParent then proto
      else proto.map fun a => if a.2.parent = some bl then (a.1, ⟨a.2.blockId, none⟩) else a
    match pick c.dict (dkeys proto) with
    | .error e => .error e
    | .ok d =>
      let newbc : Coll := { dict := d, childTable := t, lowerKeys := dkeys proto }
      if includeParent then
        match dget c.childTable bl, dget c.dict bl with
        | some pc, some b =>
          .ok (({ newbc with
            childTable := dset t bl ⟨pc.blockId, none⟩
            lowerKeys := if bl ∈ newbc.lowerKeys then newbc.lowerKeys else newbc.lowerKeys ++ [bl]
            dict := dset d bl b } : Coll).setScoping s)
        | _, _ => .error .key
      else .ok (newbc.setScoping s)

/-- An entry whose parent is not requested becomes top-level (StarFile.nw 486-487). -/
def keepParent (bl : List Str) (a : Str × PC) : Str × PC :=
  match a.2.parent with
  | some p => if p ∈ bl then a else (a.1, ⟨a.2.blockId, none⟩)
  | none => (a.1, ⟨a.2.blockId, none⟩)

/-- `makebc` (StarFile.nw 480-492). -/
def makebc (c : Coll) (namelist : List Str) (s : Scoping := .dictionary) : Except PyErr Coll :=
  let bl := namelist.map lower
  let proto := c.childTable.filter fun a => decide (a.1 ∈ bl)
  let t := proto.map (keepParent bl)
  match pick c.dict (dkeys proto) with
  | .error e => .error e
  | .ok d => .ok { (({ dict := d, childTable := t, lowerKeys := dkeys proto } : Coll).setScoping s) with inputOrder := bl }

/-- One duplicate key in `merge_fast` (StarFile.nw 703-719): our collection, the other one, the parent name. -/
def mergeDup (c nb : Coll) (parent : Option Str) (dup : Str) : Coll × Coll × Except PyErr (Option Str) :=
  match dget c.childTable dup, dget nb.childTable dup with
  | some ours, some theirs =>
    if (ours.parent = none ∧ theirs.parent ≠ none ∧ parent = none) ∨ parent ≠ none then
      match c.rekey dup (freshKey c.lowerKeys (c.lowerKeys.length + 1) dup) [] with
      | (c', .error e) => (c', nb, .error e)
      | (c', .ok ()) =>
        match parent with
        | none => (c', nb, .error .attribute)   -- `None.lower()`
        | some p => (c', nb, .ok (some (if lower p = dup then freshKey c.lowerKeys (c.lowerKeys.length + 1) dup else p)))
    else if ours.parent ≠ none ∧ theirs.parent = none ∧ parent = none then
      match nb.rekey dup (freshKey nb.lowerKeys (nb.lowerKeys.length + 1) dup) [] with
      | (nb', .error e) => (c, nb', .error e)
      | (nb', .ok ()) => (c, nb', .ok parent)
    else (c, nb, .error .star)
  | _, _ => (c, nb, .error .key)

/-- The loop over duplicate keys (StarFile.nw 701-719). -/
def mergeDups (c nb : Coll) (parent : Option Str) : List Str → Coll × Coll × Except PyErr (Option Str)
  | [] => (c, nb, .ok parent)
  | d :: ds =>
    match mergeDup c nb parent d with
    | (c', nb', .error e) => (c', nb', .error e)
    | (c', nb', .ok p) => mergeDups c' nb' p ds

/-- The final part of `merge_fast` (StarFile.nw 720-729). -/
def mergeJoin (c nb : Coll) (parent : Option Str) : Coll :=
  let t := dupdate c.childTable nb.childTable
  { c with
    dict := dupdate c.dict nb.dict
    lowerKeys := c.lowerKeys ++ nb.lowerKeys.filter (fun k => decide (k ∉ c.lowerKeys))
    visible := c.visible ++ nb.lowerKeys
    inputOrder := c.inputOrder ++ nb.inputOrder
    childTable := match parent with
      | none => t
      | some p => dupdate t ((nb.childTable.filter fun a => decide (a.2.parent = none)).map fun a => (a.1, ⟨a.2.blockId, some (lower p)⟩)) }

/-- `merge_fast` (StarFile.nw 686-729): our collection and the other one afterwards. The parent is given by its key;
finding the key of a block object is not modelled. -/
def mergeFast (c nb : Coll) (parent : Option Str := none) : Coll × Coll × Except PyErr Unit :=
  let dups := c.lowerKeys.filter fun k => decide (k ∈ nb.lowerKeys)
  if dups ≠ [] ∧ c.standard ≠ none then
    match mergeDups c nb parent dups with
    | (c', nb', .error e) => (c', nb', .error e)
    | (c', nb', .ok p) => (mergeJoin c' nb' p, nb', .ok ())
  else (mergeJoin c nb parent, nb, .ok ())

/-- `rv not in ret_vals` and append (StarFile.nw 818-821). -/
def addNew (acc : List PyVal) (v : PyVal) : List PyVal := if v ∈ acc then acc else acc ++ [v]

/-- The values of a name in the visible blocks, without `None` (StarFile.nw 813-814). -/
def rawValues (c : Coll) (item : Str) : List Str → Except PyErr (List PyVal)
  | [] => .ok []
  | a :: r =>
    match c.getItem a with
    | .error e => .error e
    | .ok b =>
      match (if b.contains item then (b.getItem item).map some else .ok none) with
      | .error e => .error e
      | .ok v =>
        match rawValues c item r with
        | .error e => .error e
        | .ok vs => .ok (match v with | none => vs | some .none => vs | some v => v :: vs)

/-- One step of the loop in `get_all` (StarFile.nw 816-821). `isinstance(rv,list)` also holds for `StarList`. -/
def addValues (acc : List PyVal) : PyVal → List PyVal
  | .list l => l.foldl addNew acc
  | .slist l => l.foldl addNew acc
  | v => addNew acc v

/-- `get_all` (StarFile.nw 812-822). -/
def getAll (c : Coll) (item : Str) : Except PyErr (List PyVal) :=
  match c.rawValues item c.keys with
  | .error e => .error e
  | .ok vs => .ok (vs.foldl addValues [])

end Coll
end Verif
