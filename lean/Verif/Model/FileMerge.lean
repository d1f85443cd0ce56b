import Verif.Model.Collection
/-! # Merging files and dictionaries

`BlockCollection.merge` (StarFile.nw 731-779), `merge_dic` (CifFile_module.nw 4352-4372) and `find_parent` (4381-4393). A block that is
merged becomes part of both files; blocks are values here, so that this sharing is not visible. -/
namespace Verif.Coll
variable [CaseFold]

/-- The merge mode, given as a text; `other` is any other text. -/
inductive Mode where
  | strict | replace | overlay | other
  deriving DecidableEq, Repr

/-- The further arguments of `merge` (StarFile.nw 731-732). `matchFn` is called for the blocks of this file only. -/
structure MergeArgs where
  mode : Option Mode := none
  parent : Option Str := none
  single : Option (Str × Str) := none
  idblock : Str := []
  matchAtt : List Str := []
  matchFn : Option (Block → Except PyErr PyVal) := none

/-- The mode that is used (StarFile.nw 733-737). -/
def MergeArgs.modeFor (a : MergeArgs) (c : Coll) : Mode :=
  match a.mode with
  | some m => m
  | none => if c.standard = none then .replace else .strict

/-- `get` of a block, with `none` for the default. -/
def attrOf (b : Block) (att : Str) : Except PyErr (Option PyVal) :=
  if b.contains att then (b.getItem att).map some else .ok none

/-- What a block of this file is recognised by: `None` without the attribute (StarFile.nw 749-752). -/
def itemOf (a : MergeArgs) (att : Str) (b : Block) : Except PyErr PyVal :=
  match a.matchFn with
  | some f => f b
  | none => (attrOf b att).map fun v => v.getD .none

/-- `block_to_item` (StarFile.nw 749-752), for the visible blocks in their order. -/
def blockToItem (c : Coll) (a : MergeArgs) (att : Str) : List Str → Except PyErr (List PyVal)
  | [] => .ok []
  | k :: ks =>
    match c.getItem k with
    | .error e => .error e
    | .ok b => match itemOf a att b with
      | .error e => .error e
      | .ok v => match blockToItem c a att ks with
        | .error e => .error e
        | .ok vs => .ok (v :: vs)

/-- The test on line 763-764; an incoming block without the attribute has the value 0, which equals nothing. -/
def isMatch (attval : Option PyVal) (this : PyVal) : Bool :=
  match attval with
  | none => false
  | some v => decide (v = this) || match this with
    | .list l => decide (v ∈ l)
    | .slist l => decide (v ∈ l)
    | _ => false

/-- The file while blocks are merged, with the lists `base_keys` and `block_to_item`. Without an attribute to match, the second list is
the first, and nothing is taken from it. -/
structure Merging where
  coll : Coll
  baseKeys : List Str
  items : List PyVal

/-- The search for the block to merge with (StarFile.nw 756-767): its name, and the lists without it. -/
def findBase (s : Merging) (attval : Option PyVal) (key : Str) : Except PyErr (Str × List Str × List PyVal) :=
  match s.items.findIdx? (isMatch attval) with
  | none => .ok (key, s.baseKeys, s.items)
  | some i =>
    match s.baseKeys[i]? with
    | none => .error .index
    | some b => .ok (b, s.baseKeys.eraseIdx i, s.items.eraseIdx i)

/-- The value of the attribute to match of an incoming block (StarFile.nw 757-758). -/
def blockAttr (a : MergeArgs) (nb : Coll) (key : Str) : Except PyErr (Option PyVal) :=
  match a.matchAtt with
  | [] => .ok none
  | att :: _ => match nb.getItem key with
    | .error e => .error e
    | .ok b => attrOf b att

/-- One incoming block (StarFile.nw 754-779). -/
def mergeBlock (a : MergeArgs) (m : Mode) (nb : Coll) (s : Merging) (key : Str) : Merging × Except PyErr Unit :=
  if key = a.idblock then (s, .ok ())
  else
    match blockAttr a nb key with
    | .error e => (s, .error e)
    | .ok attval =>
      match findBase s attval key with
      | .error e => (s, .error e)
      | .ok (basekey, bk, it) =>
        if s.coll.contains basekey = false ∨ m = .replace then
          match nb.getParent key with
          | .error e => (⟨s.coll, bk, it⟩, .error e)
          | .ok np =>
            match nb.getItem key with
            | .error e => (⟨s.coll, bk, it⟩, .error e)
            | .ok b =>
              match s.coll.newBlock basekey b true (match np with | some p => some p | none => a.parent) with
              | (c', .error e) => (⟨c', bk, it⟩, .error e)
              | (c', .ok _) => (⟨c', bk, it⟩, .ok ())
        else
          match m with
          | .overlay =>
            match s.coll.getItem basekey, nb.getItem key with
            | .ok b, .ok b' => (⟨s.coll, bk, it⟩, (b.merge b' .overlay a.matchAtt).2)
            | .error e, _ => (⟨s.coll, bk, it⟩, .error e)
            | _, .error e => (⟨s.coll, bk, it⟩, .error e)
          | _ => (⟨s.coll, bk, it⟩, .error .star)

/-- The loop over incoming blocks (StarFile.nw 754). -/
def mergeBlocks (a : MergeArgs) (m : Mode) (nb : Coll) (s : Merging) : List Str → Merging × Except PyErr Unit
  | [] => (s, .ok ())
  | k :: ks =>
    match mergeBlock a m nb s k with
    | (s', .error e) => (s', .error e)
    | (s', .ok ()) => mergeBlocks a m nb s' ks

/-- The names of all blocks (StarFile.nw 743, 745). -/
def blockIds (c : Coll) : List Str := c.childTable.map fun a => a.2.blockId

/-- Merging single blocks (StarFile.nw 738-742); `StarBlock.merge` does nothing in an unknown mode. -/
def mergeSingle (c nb : Coll) (a : MergeArgs) (m : Mode) (ours theirs : Str) : Coll × Except PyErr Unit :=
  match c.getItem ours with
  | .error e => (c, .error e)
  | .ok b =>
    match nb.getItem theirs with
    | .error e => (c, .error e)
    | .ok b' =>
      match (match m with
        | .strict => b.merge b' .strict a.matchAtt
        | .replace => b.merge b' .replace a.matchAtt
        | .overlay => b.merge b' .overlay a.matchAtt
        | .other => (b, .ok ()) : Block × Except PyErr Unit) with
      | (b2, r) => ({ c with dict := dset c.dict (lower ours) b2 }, r)

/-- `block_to_item` (StarFile.nw 743-751). -/
def baseItems (c : Coll) (a : MergeArgs) : Except PyErr (List PyVal) :=
  match a.matchAtt with
  | [] => .ok []
  | att :: _ => blockToItem c a att c.keys

/-- `BlockCollection.merge` (StarFile.nw 731-779). -/
def merge (c nb : Coll) (a : MergeArgs := {}) : Coll × Except PyErr Unit :=
  match a.single with
  | some (ours, theirs) => mergeSingle c nb a (a.modeFor c) ours theirs
  | none =>
    match baseItems c a with
    | .error e => (c, .error e)
    | .ok items =>
      match mergeBlocks a (a.modeFor c) nb ⟨c, c.blockIds, items⟩ nb.blockIds with
      | (s, r) => (s.coll, r)

/-- `a not in names`, where the names may be a list or one text, of which it may be a part (CifFile_module.nw 4390). -/
def notAmong (v : PyVal) : PyVal → Except PyErr Bool
  | .list l => .ok (decide (v ∉ l))
  | .slist l => .ok (decide (v ∉ l))
  | .str t => match v with
    | .str s => .ok (decide (¬ s <:+: t))
    | _ => .error .type
  | _ => .error .type

/-- A list comprehension with a condition that may raise. -/
def selectNot (children : PyVal) : List PyVal → Except PyErr (List PyVal)
  | [] => .ok []
  | v :: vs =>
    match notAmong v children with
    | .error e => .error e
    | .ok t => match selectNot children vs with
      | .error e => .error e
      | .ok r => .ok (if t then v :: r else r)

/-- `find_parent` (CifFile_module.nw 4381-4393). -/
def findParent (b : Block) : Except PyErr PyVal :=
  if b.contains "_item.name".toList = false then .ok .none
  else match b.getItem "_item.name".toList with
    | .error e => .error e
    | .ok (.str s) => .ok (.str s)
    | .ok v =>
      if b.contains "_item_linked.child_name".toList = false then .error .cif
      else if b.contains "_item_linked.parent_name".toList = false then .error .cif
      else match (match v with | .list l => .ok l | .slist l => .ok l | _ => .error .type : Except PyErr (List PyVal)) with
        | .error e => .error e
        | .ok names => match b.getItem "_item_linked.child_name".toList with
          | .error e => .error e
          | .ok children => match selectNot children names with
            | .error e => .error e
            | .ok [r] => .ok r
            | .ok _ => .error .cif

/-- The loop over the further dictionaries in `merge_dic` (CifFile_module.nw 4363-4371). -/
def mergeDics (f : Coll → Coll → Coll × Except PyErr Unit) (c : Coll) : List Coll → Coll × Except PyErr Unit
  | [] => (c, .ok ())
  | d :: ds =>
    match f c d with
    | (c', .error e) => (c', .error e)
    | (c', .ok ()) => mergeDics f c' ds

/-- Merging the outer blocks of two dictionaries (CifFile_module.nw 4366-4371). -/
def mergeOuter (m : Mode) (k : Str) (c d : Coll) : Coll × Except PyErr Unit :=
  match d.keys with
  | [] => (c, .error .index)
  | k' :: _ => match d.getItem k' with
    | .error e => (c, .error e)
    | .ok _ => c.merge d { mode := some m, single := some (k, k'), matchAtt := ["_item.name".toList], matchFn := some findParent }

/-- `merge_dic` (CifFile_module.nw 4352-4372) for dictionaries that have been read: the file from which the result is made. The first
argument is changed in place. -/
def mergeDic (dics : List Coll) (m : Mode := .replace) : Except PyErr Coll :=
  match dics with
  | [] => .error .index
  | base :: rest =>
    if base.contains "on_this_dictionary".toList then
      match mergeDics (fun c d => c.merge d { mode := some m, matchAtt := ["_name".toList] }) base rest with
      | (_, .error e) => .error e
      | (c, .ok ()) => .ok c
    else match base.keys with
      | [k] =>
        match mergeDics (mergeOuter m k) base rest with
        | (_, .error e) => .error e
        | (c, .ok ()) => .ok c
      | _ => .ok base

end Verif.Coll
