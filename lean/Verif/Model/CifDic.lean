import Verif.Model.Collection
import Verif.Model.Validate
/-! # Dictionaries: definitions, categories and their order

The parts of `CifDic` (CifFile_module.nw 1035-1325, 3446-3501) that find definitions, follow the tree of categories and
put definitions in order for output. Imports have been merged into the dictionary, or stand in `imports`; attributes of a
definition are read from the block itself (`DicBlock` with an empty cache; see `Model/Import.lean` for the rest). -/
namespace Verif
open Validate

/-- The dictionary language (CifFile_module.nw 599-659). -/
inductive Lang where
  | ddl1 | ddl2 | ddlm
  deriving DecidableEq, Repr

/-- What `lookup_imports` uses of an imported dictionary (CifFile_module.nw 1782-1789): the names below the imported
category, and its own lookup. -/
structure Imported where
  reach : Except PyErr (List Str)
  find : Str → Except PyErr Block

/-- A `CifDic` once `block_id_table` has been built. -/
structure CifDic where
  coll : Coll
  table : Dict Str Str := []
  lang : Lang := .ddlm
  imports : List Imported := []

namespace CifDic

/-- `cat_id_spec` (CifFile_module.nw 604, 635, 639). -/
def catIdSpec : Lang → Str
  | .ddl1 => "_category.id".toList
  | .ddl2 => "_category.id".toList
  | .ddlm => "_definition.id".toList

/-- `def_id_spec` (CifFile_module.nw 603, 636, 640). -/
def defIdSpec : Lang → Str
  | .ddl1 => "_name".toList
  | .ddl2 => "_item.name".toList
  | .ddlm => "_definition.id".toList

/-- The attribute naming the category of a definition. -/
def catAttr : Str := "_name.category_id".toList

/-- The attribute telling categories from items. -/
def scopeAttr : Str := "_definition.scope".toList

/-- The attribute that singles out the `Head` category and looped categories. -/
def classAttr : Str := "_definition.class".toList

/-- The attribute naming the object of a definition. -/
def objAttr : Str := "_name.object_id".toList

/-- Whether a value can be put in a Python set. -/
def hashable : PyVal → Bool
  | .list _ => false
  | .slist _ => false
  | .sdict _ => false
  | _ => true

variable [CaseFold]

/-- `definition.get(a,default)` (StarFile.nw 1629-1634). -/
def getD (b : Block) (a : Str) (d : PyVal) : Except PyErr PyVal :=
  if b.contains a then b.getItem a else .ok d

/-- `v.lower()`. -/
def lowered : PyVal → Except PyErr Str
  | .str s => .ok (lower s)
  | _ => .error .attribute

/-- The identifier of a definition kept in block `k` (CifFile_module.nw 1143). -/
def defId (L : Lang) (b : Block) (k : Str) : Except PyErr PyVal :=
  match getD b (defIdSpec L) (.str k) with
  | .error e => .error e
  | .ok v => getD b (catIdSpec L) v

/-- The pairs of identifier and block key (CifFile_module.nw 1141-1143). -/
def protoTable (c : Coll) (L : Lang) : Except PyErr (List (PyVal × Str)) :=
  mapE (fun a =>
    match c.getItem a with
    | .error e => .error e
    | .ok b =>
      match defId L b a with
      | .error e => .error e
      | .ok v => .ok (v, a)) c.keys

/-- The blocks that are no definitions (CifFile_module.nw 1145-1148). -/
def topBlocks (c : Coll) : Lang → List Str
  | .ddl1 => ["on_this_dictionary".toList]
  | _ => c.topLevel.map lower

/-- The entries of the table (CifFile_module.nw 1155). -/
def tableEntries (tops : List Str) (proto : List (PyVal × Str)) : Except PyErr (List (Str × Str)) :=
  mapE (fun a => match lowered a.1 with
    | .error e => .error e
    | .ok i => .ok (i, lower a.2)) (proto.filter fun a => decide (lower a.2 ∉ tops))

/-- `create_def_block_table` (CifFile_module.nw 1139-1155). `set(...)` raises a TypeError for values that are lists;
it has fewer elements than the list when an identifier occurs twice. -/
def defTable (c : Coll) (L : Lang) : Except PyErr (Dict Str Str) :=
  match protoTable c L with
  | .error e => .error e
  | .ok proto =>
    if proto.any fun a => !hashable a.1 then .error .type
    else if ¬ (proto.map (·.1)).Nodup then .error .cif
    else match tableEntries (topBlocks c L) proto with
      | .error e => .error e
      | .ok es => .ok (dupdate [] es)

/-- `lookup_imports` (CifFile_module.nw 1782-1789). -/
def lookupImports (key : Str) : List Imported → Except PyErr Block
  | [] => .error .key
  | i :: r =>
    match i.reach with
    | .error e => .error e
    | .ok names => if key ∈ names then i.find key else lookupImports key r

/-- `super().__getitem__(self.block_id_table[key.lower()])` (CifFile_module.nw 1160). -/
def byId (d : CifDic) (key : Str) : Except PyErr Block :=
  match dget d.table (lower key) with
  | none => .error .key
  | some k => d.coll.getItem k

/-- `__getitem__` (CifFile_module.nw 1157-1167): by identifier, then by the name of the block, then in imported
dictionaries. -/
def getItem (d : CifDic) (key : Str) : Except PyErr Block :=
  match byId d key with
  | .ok b => .ok b
  | .error _ =>
    match d.coll.getItem key with
    | .ok b => .ok b
    | .error _ => lookupImports key d.imports

/-- `keys` (CifFile_module.nw 1195-1200). -/
def keys (d : CifDic) : List Str := dkeys d.table

/-- `__contains__` (CifFile_module.nw 1205-1209). -/
def contains (d : CifDic) (key : Str) : Bool := decide (lower key ∈ d.keys)

/-- `self[a].get(attr,default)` -/
def attrD (d : CifDic) (a attr : Str) (dflt : PyVal) : Except PyErr PyVal :=
  match d.getItem a with
  | .error e => .error e
  | .ok b => getD b attr dflt

/-- `self[a][attr]` -/
def attrI (d : CifDic) (a attr : Str) : Except PyErr PyVal :=
  match d.getItem a with
  | .error e => .error e
  | .ok b => b.getItem attr

/-- `self[a].get('_name.category_id','').lower() == catname.lower()` -/
def inCat (d : CifDic) (catname a : Str) : Except PyErr Bool :=
  match attrD d a catAttr (.str []) with
  | .error e => .error e
  | .ok v =>
    match lowered v with
    | .error e => .error e
    | .ok s => .ok (decide (s = lower catname))

/-- `self[a].get('_definition.scope','Item') == s` -/
def isScope (d : CifDic) (s : Str) (a : Str) : Except PyErr Bool :=
  match attrD d a scopeAttr (.str "Item".toList) with
  | .error e => .error e
  | .ok v => .ok (decide (v = .str s))

/-- `self[a].get('_definition.class',dflt)==s` -/
def isClass (d : CifDic) (dflt s : Str) (a : Str) : Except PyErr Bool :=
  match attrD d a classAttr (.str dflt) with
  | .error e => .error e
  | .ok v => .ok (decide (v = .str s))

/-- `create_alias_table` (CifFile_module.nw 1035-1038). -/
def aliasTable (d : CifDic) : Except PyErr (Dict Str PyVal) :=
  match select (fun a => match d.getItem a with
    | .error e => .error e
    | .ok b => .ok (b.contains "_alias.definition_id".toList)) d.keys with
  | .error e => .error e
  | .ok all =>
    match mapE (fun a => match attrI d a "_alias.definition_id".toList with
      | .error e => .error e
      | .ok v => .ok (a, v)) all with
    | .error e => .error e
    | .ok es => .ok (dupdate [] es)

/-- The definitions of class `Head` (CifFile_module.nw 1264, 3455). -/
def heads (d : CifDic) : Except PyErr (List Str) := select (isClass d "Datum".toList "Head".toList) d.keys

/-- `get_root_category` (CifFile_module.nw 1262-1267). The message of the error cannot be formatted, which gives a
TypeError instead of a CifError. -/
def rootCategory (d : CifDic) : Except PyErr Str :=
  match heads d with
  | .error e => .error e
  | .ok [r] => .ok r
  | .ok _ => .error .type

/-- `ddlm_immediate_children` (CifFile_module.nw 1269-1275). -/
def immediateChildren (d : CifDic) (catname : Str) : Except PyErr (List Str) := select (inCat d catname) d.keys

/-- The loop of `ddlm_all_children` (CifFile_module.nw 1281-1283): the categories among the children are replaced by what is
below them. -/
def expandChildren (f : Str → Except PyErr (List Str)) (acc : List Str) : List Str → Except PyErr (List Str)
  | [] => .ok acc
  | c :: cs =>
    match f c with
    | .error e => .error e
    | .ok l => expandChildren f (acc.erase c ++ l) cs

/-- `ddlm_all_children` (CifFile_module.nw 1277-1284) with a bound on nested calls; running out of it is Python's
`RecursionError`. -/
def allChildrenFuel (d : CifDic) : Nat → Str → Except PyErr (List Str)
  | 0, _ => .error .depth
  | n + 1, catname =>
    match immediateChildren d catname with
    | .error e => .error e
    | .ok all =>
      match select (isScope d "Category".toList) all with
      | .error e => .error e
      | .ok cats =>
        match expandChildren (allChildrenFuel d n) all cats with
        | .error e => .error e
        | .ok l => .ok (l ++ [catname])

/-- `ddlm_all_children` (CifFile_module.nw 1277-1284). A chain of categories without repetition is no longer than the number
of definitions. -/
def allChildren (d : CifDic) (catname : Str) : Except PyErr (List Str) := allChildrenFuel d (d.table.length + 1) catname

/-- `is_semantic_child` (CifFile_module.nw 1286-1289). -/
def isSemanticChild (d : CifDic) (parent child : Str) : Except PyErr Bool :=
  match allChildren d parent with
  | .error e => .error e
  | .ok l => .ok (decide (child ∈ l))

/-- `ddlm_danglers` (CifFile_module.nw 1291-1298). The elements of the set in the order of the table; Python leaves their order
open. -/
def danglers (d : CifDic) : Except PyErr (List Str) :=
  match rootCategory d with
  | .error e => .error e
  | .ok top =>
    match allChildren d top with
    | .error e => .error e
    | .ok l => .ok (d.keys.filter fun k => decide (k ∉ l))

/-- `get_ddlm_parent` (CifFile_module.nw 1300-1305). -/
def ddlmParent (d : CifDic) (item : Str) : Except PyErr PyVal :=
  match attrD d item catAttr (.str []) with
  | .error e => .error e
  | .ok v => if v = .str [] then .error .cif else .ok v

/-- `expand_category_opt` (CifFile_module.nw 1310-1320) with a bound on nested calls. A name that is not in the dictionary
is kept. -/
def expandCategoryFuel (d : CifDic) : Nat → List Str → Except PyErr (List Str)
  | 0, _ => .error .depth
  | n + 1, names =>
    match mapE (fun name =>
      match (if d.contains name then isScope d "Category".toList name else .ok false) with
      | .error e => .error e
      | .ok true =>
        match immediateChildren d name with
        | .error e => .error e
        | .ok ch => expandCategoryFuel d n ch
      | .ok false => .ok [name]) names with
    | .error e => .error e
    | .ok ls => .ok ls.flatten

/-- `expand_category_opt` (CifFile_module.nw 1310-1320). -/
def expandCategory (d : CifDic) (names : List Str) : Except PyErr (List Str) :=
  expandCategoryFuel d (d.table.length + 2) names

/-- `names_in_cat` (CifFile_module.nw 1333-1338) without `names_only`. -/
def namesInCat (d : CifDic) (cat : Str) : Except PyErr (List Str) :=
  match immediateChildren d cat with
  | .error e => .error e
  | .ok l => select (isScope d "Item".toList) l

/-- `get_categories` (CifFile_module.nw 1322-1324). -/
def categories (d : CifDic) : Except PyErr (List Str) :=
  select (fun a => match attrD d a scopeAttr .none with
    | .error e => .error e
    | .ok v => .ok (decide (v = .str "Category".toList))) d.keys

/-! ## Order of definitions for output -/

/-- The children of a category for output, by block name (CifFile_module.nw 3494-3495). -/
def childBlocks (d : CifDic) (parent : Str) : Except PyErr (List Str) :=
  match select (inCat d parent) (dkeys d.coll.childTable) with
  | .error e => .error e
  | .ok l => .ok (Coll.pySort l)

/-- The `for` loop of `recurse_child_list` (CifFile_module.nw 3499-3500). -/
def collect (f : Str → Except PyErr (List Str)) : List Str → Except PyErr (List Str)
  | [] => .ok []
  | c :: cs =>
    match f c with
    | .error e => .error e
    | .ok l =>
      match collect f cs with
      | .error e => .error e
      | .ok r => .ok (l ++ r)

/-- `recurse_child_list` (CifFile_module.nw 3491-3501) with a bound on nested calls. -/
def recurseFuel (d : CifDic) : Nat → Str → Except PyErr (List Str)
  | 0, _ => .error .depth
  | n + 1, parent =>
    match childBlocks d parent with
    | .error e => .error e
    | .ok blocks =>
      match select (isScope d "Item".toList) blocks with
      | .error e => .error e
      | .ok items =>
        match select (isScope d "Category".toList) blocks with
        | .error e => .error e
        | .ok cats =>
          match collect (recurseFuel d n) cats with
          | .error e => .error e
          | .ok below => .ok (parent :: items ++ below)

/-- `recurse_child_list` (CifFile_module.nw 3491-3501). -/
def recurseChildList (d : CifDic) (parent : Str) : Except PyErr (List Str) :=
  recurseFuel d (d.coll.childTable.length + 2) parent

/-- `[remaining.remove(n) for n in names]`: a ValueError if one is not there. -/
def removeEach (remaining : List Str) : List Str → Except PyErr (List Str)
  | [] => .ok remaining
  | n :: ns => if n ∈ remaining then removeEach (remaining.erase n) ns else .error .value

/-- `self[n]['_name.category_id'].lower()==no_root.lower()` (CifFile_module.nw 3468). -/
def inCatI (d : CifDic) (cat n : Str) : Except PyErr Bool :=
  match attrI d n catAttr with
  | .error e => .error e
  | .ok v =>
    match lowered v with
    | .error e => .error e
    | .ok s => .ok (decide (s = lower cat))

/-- The loop over unattached definitions (CifFile_module.nw 3464-3470): names so far and those not yet placed. -/
def placeUnrooted (d : CifDic) (unrooted : List Str) : List Str → List Str × List Str →
    Except PyErr (List Str × List Str)
  | [], st => .ok st
  | x :: xs, (names, remaining) =>
    match isScope d "Category".toList x with
    | .error e => .error e
    | .ok false => placeUnrooted d unrooted xs (names, remaining)
    | .ok true =>
      match removeEach remaining [x] with
      | .error e => .error e
      | .ok rem1 =>
        match select (inCatI d x) unrooted with
        | .error e => .error e
        | .ok ch =>
          match removeEach rem1 ch with
          | .error e => .error e
          | .ok rem2 => placeUnrooted d unrooted xs (names ++ [x] ++ ch, rem2)

/-- `name.split(".")` for the assignment to a pair (CifFile_module.nw 3484-3489): anything but one point is a ValueError, and
an empty category an IndexError. -/
def catFromName (name : Str) : Except PyErr Str :=
  let cat := name.takeWhile (· ≠ '.')
  match name.dropWhile (· ≠ '.') with
  | [] => .error .value
  | _ :: obj =>
    if '.' ∈ obj then .error .value
    else match cat with
      | [] => .error .index
      | c :: r => .ok (if c = '_' then r else cat)

/-- `self[r].get('_name.category_id',self.cat_from_name(r)).lower()` (CifFile_module.nw 3472): the default is computed
first. -/
def extCat (d : CifDic) (r : Str) : Except PyErr Str :=
  match d.getItem r with
  | .error e => .error e
  | .ok b =>
    match catFromName r with
    | .error e => .error e
    | .ok dflt =>
      match getD b catAttr (.str dflt) with
      | .error e => .error e
      | .ok v => lowered v

/-- `self[r].get('_name.category_id',self.cat_from_name(r)).lower() == e` (CifFile_module.nw 3474). -/
def extIs (d : CifDic) (e r : Str) : Except PyErr Bool :=
  match extCat d r with
  | .error x => .error x
  | .ok c => .ok (decide (c = e))

/-- The loop over the categories that are not in the dictionary (CifFile_module.nw 3473-3476). -/
def placeExternal (d : CifDic) : List Str → List Str × List Str → Except PyErr (List Str × List Str)
  | [], st => .ok st
  | e :: es, (names, remaining) =>
    match select (extIs d e) remaining with
    | .error x => .error x
    | .ok items =>
      match removeEach remaining items with
      | .error x => .error x
      | .ok rem => placeExternal d es (names ++ items, rem)

/-- `get_full_child_list` (CifFile_module.nw 3452-3482). `pick` is the order in which Python goes through a set. Two
definitions of class `Head` or none give a ValueError. -/
def fullChildList (d : CifDic) (pick : List Str → List Str) : Except PyErr (List Str) :=
  match d.coll.topLevel with
  | [] => .error .index
  | top :: _ =>
    match heads d with
    | .error e => .error e
    | .ok [root] =>
      match recurseChildList d root with
      | .error e => .error e
      | .ok below =>
        match danglers d with
        | .error e => .error e
        | .ok dang =>
          let unrooted := pick dang
          let names := top :: below
          if unrooted.any fun n => decide (n ∈ names) then .error .cif
          else match placeUnrooted d unrooted unrooted (names, unrooted) with
            | .error e => .error e
            | .ok (names1, rem1) =>
              match mapE (extCat d) rem1 with
              | .error e => .error e
              | .ok cats =>
                match placeExternal d (pick cats.eraseDups) (names1, rem1) with
                | .error e => .error e
                | .ok (names2, rem2) => .ok (names2 ++ rem2)
    | .ok _ => .error .value

end CifDic
end Verif
