import Verif.Model.CifDic
import Verif.Model.EditDic
/-! # Opening a DDL1 dictionary

Which language a dictionary is written in (CifFile_module.nw 599-659), and how the blocks of a DDL1 dictionary become definitions
(CifFile_module.nw 698-776, 1000-1028). The constructor has no result when it raises, so the functions below return the state only
on success. What is printed is left out, and so are the texts of the attributes that later checks use (`self.type_spec` and so on),
which `Model/Validate.lean` has. Blocks are values: a block entered under a new name and deleted under the old one is the same object
in the code as well, and copies are not shared; the lists of names in the loops of copies are shared in the code, but nothing here
changes one in place unless `_item_range.maximum` or `_item_range.minimum` is looped already. -/
namespace Verif.Ddl1
open Validate CifDic

/-- The block that tells a DDL1 dictionary. -/
def dicBlock : Str := "on_this_dictionary".toList
def nameAttr : Str := "_name".toList
def listAttr : Str := "_list".toList
def condAttr : Str := "_type_conditions".toList
def rangeAttr : Str := "_enumeration_range".toList
def maxAttr : Str := "_item_range.maximum".toList
def minAttr : Str := "_item_range.minimum".toList
def constructAttr : Str := "_type_construct".toList
def typeAttr : Str := "_type".toList
def categoryAttr : Str := "_category".toList
def catIdAttr : Str := "_category.id".toList
def overview : Str := "category_overview".toList
def codeAttr : Str := "_item_type_list.code".toList
def codeConstructAttr : Str := "_item_type_list.construct".toList
def primitiveAttr : Str := "_item_type_list.primitive_code".toList
def mandatoryAttr : Str := "_list_mandatory".toList
def uniqueAttr : Str := "_list_uniqueness".toList
def catMandatoryAttr : Str := "_category_mandatory.name".toList
def catKeyAttr : Str := "_category_key.name".toList

/-- A loop that stops at the first exception. -/
def foldE {σ α : Type} (f : σ → α → Except PyErr σ) : σ → List α → Except PyErr σ
  | s, [] => .ok s
  | s, a :: r =>
    match f s a with
    | .error e => .error e
    | .ok s' => foldE f s' r

variable [CaseFold]

/-- `name+version` (CifFile_module.nw 622, 639, 659). -/
def joined (b : Block) (n v : Str) : Except PyErr Str :=
  match b.getItem n with
  | .error e => .error e
  | .ok x =>
    match b.getItem v with
    | .error e => .error e
    | .ok y =>
      match x, y with
      | .str x, .str y => .ok (x ++ y)
      | _, _ => .error .type

/-- `dic_determine` (CifFile_module.nw 599-661): the name of the dictionary and its language. -/
def determine (c : Coll) : Except PyErr (Str × Lang) :=
  if c.contains dicBlock then
    match c.getItem dicBlock with
    | .error e => .error e
    | .ok b =>
      match joined b "_dictionary_name".toList "_dictionary_version".toList with
      | .error e => .error e
      | .ok n => .ok (n, .ddl1)
  else
    match c.topLevel with
    | [k] =>
      match c.getItem k with
      | .error e => .error e
      | .ok b =>
        match joined b "_dictionary.title".toList "_dictionary.version".toList with
        | .error e => .error e
        | .ok n => .ok (n, if b.contains "_dictionary.class".toList then .ddlm else .ddl2)
    | _ => .error .cif

/-- `block[a] = v`. -/
def setE (b : Block) (a : Str) (v : PyVal) : Except PyErr Block :=
  match b.setItem a v with
  | (_, .error e) => .error e
  | (b', .ok ()) => .ok b'

/-- `self[name] = block` before the table of definitions exists (CifFile_module.nw 1169-1175, StarFile.nw 305). -/
def putE (c : Coll) (name : PyVal) (b : Block) : Except PyErr Coll :=
  match name with
  | .str s =>
    match c.newBlock s b true none with
    | (_, .error e) => .error e
    | (c', .ok _) => .ok c'
  | _ => .error .type

/-- `del self[key]` (CifFile_module.nw 1184-1191). -/
def delE (c : Coll) (key : Str) : Except PyErr Coll :=
  match c.delItem key with
  | (_, .error e) => .error e
  | (c', .ok ()) => .ok c'

/-- `self.items()` (CifFile_module.nw 1211-1213). -/
def items (c : Coll) : Except PyErr (List (Str × Block)) :=
  mapE (fun k => match c.getItem k with
    | .error e => .error e
    | .ok b => .ok (k, b)) c.keys

/-- `StarBlock.copy` (StarFile.nw 1644-1652): the contents, with the settings of a new block. -/
def copied (b : Block) : Block := { b with overwrite := true, maxName := none, unicode := false }

/-- One name of a loop (CifFile_module.nw 713-716). -/
def copyOne (b : Block) (c : Coll) (name : PyVal) : Except PyErr Coll :=
  match setE (copied b) nameAttr name with
  | .error e => .error e
  | .ok b' => putE c name b'

/-- `if key not in newnames: del self[key]` (CifFile_module.nw 721-723). -/
def dropOld (c : Coll) (key : Str) (newnames : List PyVal) : Except PyErr Coll :=
  if .str key ∈ newnames then .ok c else delE c key

/-- One round of the first loop (CifFile_module.nw 708-723). -/
def expandOne (c : Coll) (kv : Str × Block) : Except PyErr Coll :=
  if kv.2.contains nameAttr then
    match kv.2.getItem nameAttr with
    | .error e => .error e
    | .ok (.list l) =>
      match foldE (copyOne kv.2) c l with
      | .error e => .error e
      | .ok c' => dropOld c' kv.1 l
    | .ok (.slist l) =>
      match foldE (copyOne kv.2) c l with
      | .error e => .error e
      | .ok c' => dropOld c' kv.1 l
    | .ok v =>
      match putE c v kv.2 with
      | .error e => .error e
      | .ok c' => dropOld c' kv.1 [v]
  else dropOld c kv.1 [.str kv.1]

/-- The first loop (CifFile_module.nw 708-723): a definition for each name. -/
def expand (c : Coll) : Except PyErr Coll :=
  match items c with
  | .error e => .error e
  | .ok l => foldE expandOne c l

/-- `if a not in value: value[a] = v` (CifFile_module.nw 730-731). -/
def defaultTo (a : Str) (v : Str) (b : Block) : Except PyErr Block :=
  if b.contains a then .ok b else setE b a (.str v)

/-- `AddLoopItem` with names and columns (StarFile.nw 1767-1772). -/
def addLoop (b : Block) (names : List Str) (cols : List (List PyVal)) : Except PyErr Block :=
  match b.update (names.zip (cols.map .list)) with
  | (_, .error e) => .error e
  | (b', .ok ()) =>
    match b'.createLoop names with
    | (_, .error e) => .error e
    | (b'', .ok ()) => .ok b''

/-- The range of values as a loop (CifFile_module.nw 733-740). -/
def addRange (b : Block) : Except PyErr Block :=
  if b.contains rangeAttr then
    match b.getItem rangeAttr with
    | .error e => .error e
    | .ok (.str s) =>
      match getMaxMin s with
      | .error e => .error e
      | .ok (mx, mn) => addLoop b [maxAttr, minAttr] [(rangeColumns mx mn).1, (rangeColumns mx mn).2]
    | .ok _ => .error .type
  else .ok b

/-- What is collected from the definitions: types with their constructs and primitive types, and categories. -/
structure Found where
  types : List (PyVal × PyVal × PyVal) := []
  cats : List Str := []

/-- A new type for a construct (CifFile_module.nw 742-746). -/
def addType (b : Block) (f : Found) : Except PyErr (Block × Found) :=
  if b.contains constructAttr then
    match b.getItem nameAttr with
    | .error e => .error e
    | .ok (.str n) =>
      match b.getItem constructAttr with
      | .error e => .error e
      | .ok (.str s) =>
        match b.getItem typeAttr with
        | .error e => .error e
        | .ok t =>
          match setE b typeAttr (.str (n ++ "_type".toList)) with
          | .error e => .error e
          | .ok b' => .ok (b', { f with types := f.types ++ [(.str (n ++ "_type".toList), .str (s ++ ['$']), t)] })
      | .ok _ => .error .type
    | .ok _ => .error .type
  else .ok (b, f)

/-- `name[1:name.rindex("_")]` (CifFile_module.nw 751-752). -/
def middle (n : Str) : Except PyErr Str :=
  if '_' ∈ n then .ok (((n.reverse.dropWhile fun ch => decide (ch ≠ '_')).drop 1).reverse.drop 1)
  else .error .value

/-- `if catid not in self.cat_list: self.cat_list.append(catid)`. -/
def addCat (f : Found) (cat : Str) : Found := if cat ∈ f.cats then f else { f with cats := f.cats ++ [cat] }

/-- The identifier of a category (CifFile_module.nw 748-754). A list has no `rindex`. -/
def addCatId (b : Block) (f : Found) : Except PyErr (Block × Found) :=
  match getD b categoryAttr .none with
  | .error e => .error e
  | .ok cat =>
    if cat = .str overview then
      match b.getItem nameAttr with
      | .error e => .error e
      | .ok (.str n) =>
        match middle n with
        | .error e => .error e
        | .ok cat =>
          match setE b catIdAttr (.str cat) with
          | .error e => .error e
          | .ok b' => .ok (b', addCat f cat)
      | .ok _ => .error .attribute
    else .ok (b, f)

/-- The changes to one definition (CifFile_module.nw 726-755). -/
def normalise (b : Block) (f : Found) : Except PyErr (Block × Found) :=
  match defaultTo listAttr "no".toList { b with overwrite := true } with
  | .error e => .error e
  | .ok b1 =>
    match defaultTo condAttr "none".toList b1 with
    | .error e => .error e
    | .ok b2 =>
      match addRange b2 with
      | .error e => .error e
      | .ok b3 =>
        match addType b3 f with
        | .error e => .error e
        | .ok (b4, f1) =>
          match addCatId b4 f1 with
          | .error e => .error e
          | .ok (b5, f2) => .ok ({ b5 with overwrite := b.overwrite }, f2)

/-- One round of the second loop (CifFile_module.nw 725-755). -/
def normaliseOne (s : Coll × Found) (kv : Str × Block) : Except PyErr (Coll × Found) :=
  match normalise kv.2 s.2 with
  | .error e => .error e
  | .ok (b, f) => .ok ({ s.1 with dict := dset s.1.dict kv.1 b }, f)

/-- The second loop (CifFile_module.nw 725-755). -/
def normaliseAll (c : Coll) : Except PyErr (Coll × Found) :=
  match items c with
  | .error e => .error e
  | .ok l => foldE normaliseOne (c, {}) l

/-- `block[a] = v` for each pair. -/
def setAllE (b : Block) : List (Str × PyVal) → Except PyErr Block
  | [] => .ok b
  | (a, v) :: r =>
    match setE b a v with
    | .error e => .error e
    | .ok b' => setAllE b' r

/-- The block made for a category that has no definition (CifFile_module.nw 765-768); `CifBlock()` limits names to 75 characters. -/
def newCategory (cat : Str) : Except PyErr Block :=
  setAllE { maxName := some 75 } [(categoryAttr, .str overview), (catIdAttr, .str cat), (typeAttr, .str "null".toList)]

/-- One round of the third loop (CifFile_module.nw 758-770). -/
def addCategory (s : Coll × Found) (key : Str) : Except PyErr (Coll × Found) :=
  match s.1.getItem key with
  | .error e => .error e
  | .ok b =>
    if b.contains categoryAttr then
      match b.getItem categoryAttr with
      | .error e => .error e
      | .ok (.str cat) =>
        if cat ∈ s.2.cats then .ok s
        else
          match newCategory cat with
          | .error e => .error e
          | .ok nb =>
            match putE s.1 (.str ('_' :: (cat ++ "_[]".toList))) nb with
            | .error e => .error e
            | .ok c' => .ok (c', { s.2 with cats := s.2.cats ++ [cat] })
      | .ok _ => .error .type
    else .ok s

/-- The types every DDL1 dictionary has (CifFile_module.nw 703-707). -/
def baseTypes : List (PyVal × PyVal × PyVal) :=
  [(.str "char".toList, .str ".*".toList, .str "char".toList),
   (.str "numb".toList, .str "(-?(([0-9]*[.][0-9]+)|([0-9]+)[.]?)([(][0-9]+[)])?([eEdD][+-]?[0-9]+)?)|\\?|\\.".toList, .str "numb".toList),
   (.str "null".toList, .str "\"\" ".toList, .str "null".toList)]

/-- The types are written to the block of the dictionary (CifFile_module.nw 772-776). That block has no `_name`, so it is still there
under its own name; the model does not cover one that has. -/
def writeTypes (c : Coll) (types : List (PyVal × PyVal × PyVal)) : Except PyErr Coll :=
  match c.getItem dicBlock with
  | .error e => .error e
  | .ok b =>
    match addLoop b [codeAttr, codeConstructAttr, primitiveAttr] [types.map (·.1), types.map (·.2.1), types.map (·.2.2)] with
    | .error e => .error e
    | .ok b' => .ok { c with dict := dset c.dict dicBlock b' }

/-- `DDL1_normalise` (CifFile_module.nw 698-776). -/
def normaliseDic (c : Coll) : Except PyErr (Coll × Found) :=
  match expand { c with standard := none } with
  | .error e => .error e
  | .ok c1 =>
    match normaliseAll c1 with
    | .error e => .error e
    | .ok s =>
      match items s.1 with
      | .error e => .error e
      | .ok l =>
        match foldE addCategory s (l.map (·.1)) with
        | .error e => .error e
        | .ok s' =>
          match writeTypes s'.1 (baseTypes ++ s'.2.types) with
          | .error e => .error e
          | .ok c2 => .ok (c2, s'.2)

/-! ## Categories -/

/-- The category of a definition, as a key of a Python dictionary. -/
def catOf (d : CifDic) (single : Str) : Except PyErr Str :=
  match attrI d single categoryAttr with
  | .error e => .error e
  | .ok (.str cat) => .ok cat
  | .ok _ => .error .type

/-- `curval.append(...)` for an entry of a dictionary of lists. -/
def appendTo (m : Dict Str (List PyVal)) (cat : Str) (f : List PyVal → List PyVal) : Dict Str (List PyVal) :=
  dset m cat (f (match dget m cat with | some l => l | none => []))

/-- `if x not in uis: uis.append(x)`. -/
def appendNew (x : PyVal) (l : List PyVal) : List PyVal := if x ∈ l then l else l ++ [x]

/-- The mandatory items of categories (CifFile_module.nw 1006-1010). -/
def mandInfo (d : CifDic) (m : Dict Str (List PyVal)) (single : Str) : Except PyErr (Dict Str (List PyVal)) :=
  match attrD d single mandatoryAttr .none with
  | .error e => .error e
  | .ok v =>
    if v = .str "yes".toList then
      match catOf d single with
      | .error e => .error e
      | .ok cat => .ok (appendTo m cat (· ++ [.str single]))
    else .ok m

/-- The unique items of categories (CifFile_module.nw 1016-1022). -/
def uniqueInfo (d : CifDic) (m : Dict Str (List PyVal)) (single : Str) : Except PyErr (Dict Str (List PyVal)) :=
  match attrD d single uniqueAttr .none with
  | .error e => .error e
  | .ok .none => .ok m
  | .ok v =>
    match catOf d single with
    | .error e => .error e
    | .ok cat => .ok (appendTo m cat fun l => appendNew v (appendNew (.str single) l))

/-- `get_cat_info` (CifFile_module.nw 1005-1022). -/
def catInfo (d : CifDic) (m : Dict Str (List PyVal) × Dict Str (List PyVal)) (single : Str) :
    Except PyErr (Dict Str (List PyVal) × Dict Str (List PyVal)) :=
  match mandInfo d m.1 single with
  | .error e => .error e
  | .ok m1 =>
    match uniqueInfo d m.2 single with
    | .error e => .error e
    | .ok m2 => .ok (m1, m2)

/-- `self[cat][attr] = names` (CifFile_module.nw 1025-1028). -/
def writeCat (attr : Str) (d : CifDic) (e : Str × List PyVal) : Except PyErr CifDic :=
  match setAttr d e.1 attr (.list e.2) with
  | (_, .error x) => .error x
  | (d', .ok ()) => .ok d'

/-- `ddl1_cat_load` (CifFile_module.nw 1000-1028). -/
def catLoad (d : CifDic) : Except PyErr CifDic :=
  match foldE (catInfo d) ([], []) d.keys with
  | .error e => .error e
  | .ok m =>
    match foldE (writeCat catMandatoryAttr) d m.1 with
    | .error e => .error e
    | .ok d' => foldE (writeCat catKeyAttr) d' m.2

/-- The constructor for a DDL1 dictionary (CifFile_module.nw 547-561), up to the tables made for all languages. -/
def load (c : Coll) : Except PyErr CifDic :=
  match normaliseDic c with
  | .error e => .error e
  | .ok s =>
    match defTable s.1 .ddl1 with
    | .error e => .error e
    | .ok t => catLoad { coll := s.1, table := t, lang := .ddl1 }

end Verif.Ddl1
