import Verif.Model.CifDic
/-! # Tables made when a DDLm dictionary is read: names by category and object, keys, and parents of looped categories

CifFile_module.nw 1059-1125, 1518-1534, 1568-1617. In a list comprehension Python tests and computes element by element; here all tests are made
first, which makes a difference only for the kind of the exception when several definitions are faulty. Definition identifiers are texts, as
`create_def_block_table` has found. -/
namespace Verif
open Validate
namespace CifDic

/-- The attribute telling what an item is for. -/
def purposeAttr : Str := "_type.purpose".toList

/-- The attribute with the identifier. -/
def defIdAttr : Str := "_definition.id".toList

/-- The attribute with the keys of a category. -/
def keysAttr : Str := "_category_key.name".toList

/-- The attribute with the single key of a category. -/
def keyAttr : Str := "_category.key_id".toList

/-- The attribute that links a key to the key of the parent category. -/
def linkAttr : Str := "_name.linked_item_id".toList

variable [CaseFold]

/-- Names by category and object (`cat_obj_lookup_table`). -/
abbrev NameTable := Dict (Str × Str) (List Str)

/-- `self[a].get(attr,'')` for a text. -/
def textD (d : CifDic) (a attr : Str) : Except PyErr Str :=
  match attrD d a attr (.str []) with
  | .error e => .error e
  | .ok (.str s) => .ok s
  | .ok _ => .error .attribute

/-- `self[a][attr]` for a text. -/
def textI (d : CifDic) (a attr : Str) : Except PyErr Str :=
  match attrI d a attr with
  | .error e => .error e
  | .ok (.str s) => .ok s
  | .ok _ => .error .attribute

/-- `get_loopable_cats` (CifFile_module.nw 1103-1107). -/
def loopable (d : CifDic) : Except PyErr (List Str) :=
  match select (isClass d [] "Loop".toList) d.keys with
  | .error e => .error e
  | .ok l => .ok (l.map lower)

/-- One entry of the table of the items themselves (CifFile_module.nw 1061). -/
def baseEntry (d : CifDic) (a : Str) : Except PyErr ((Str × Str) × List Str) :=
  match textD d a catAttr with
  | .error e => .error e
  | .ok c =>
    match textD d a objAttr with
    | .error e => .error e
    | .ok o =>
      match textD d a defIdAttr with
      | .error e => .error e
      | .ok i => .ok ((lower c, lower o), [i])

/-- The table of the items themselves (CifFile_module.nw 1061-1062). -/
def baseTable (d : CifDic) : Except PyErr NameTable :=
  match select (isScope d "Item".toList) d.keys with
  | .error e => .error e
  | .ok l =>
    match mapE (baseEntry d) l with
    | .error e => .error e
    | .ok es => .ok (dupdate [] es)

/-- Looped categories and the looped categories in them (CifFile_module.nw 1063-1067). -/
def expandList (d : CifDic) : Except PyErr (Dict Str (List Str)) :=
  match loopable d with
  | .error e => .error e
  | .ok loops =>
    match mapE (immediateChildren d) loops with
    | .error e => .error e
    | .ok chs => .ok (dupdate [] ((loops.zip (chs.map fun l => l.filter fun b => decide (lower b ∈ loops))).filter fun p => decide (p.2 ≠ [])))

/-- An object and the name of its item (CifFile_module.nw 1080-1081). -/
def objName (d : CifDic) (n : Str) : Except PyErr (Str × Str) :=
  match textI d n objAttr with
  | .error e => .error e
  | .ok o =>
    match textI d n defIdAttr with
    | .error e => .error e
    | .ok i => .ok (lower o, i)

/-- `self[n].get('_type.purpose','') != 'Key'` -/
def notKey (d : CifDic) (n : Str) : Except PyErr Bool :=
  match attrD d n purposeAttr (.str []) with
  | .error e => .error e
  | .ok v => .ok (decide (v ≠ .str "Key".toList))

/-- The objects of the items of a category other than keys (CifFile_module.nw 1080-1081, 1089-1090). -/
def objNames (d : CifDic) (c : Str) : Except PyErr (List (Str × Str)) :=
  match namesInCat d c with
  | .error e => .error e
  | .ok l =>
    match select (notKey d) l with
    | .error e => .error e
    | .ok l => mapE (objName d) l

/-- New entries for the table of the parent category (CifFile_module.nw 1083). The test looks for the name where the table has objects. -/
def newEntries (t : NameTable) (parent : Str) (names : List (Str × Str)) : List ((Str × Str) × List Str) :=
  (names.filter fun a => decide ((parent, a.2) ∉ dkeys t)).map fun a => ((parent, a.1), [a.2])

/-- The names of the categories in a child category (CifFile_module.nw 1074-1076). -/
def nested (ex : Dict Str (List Str)) (f : Str → List Str → NameTable → Except PyErr (List (Str × Str) × NameTable)) (c : Str) (t : NameTable) :
    Except PyErr (List (Str × Str) × NameTable) :=
  match dget ex c with
  | none => .ok ([], t)
  | some ch => f c ch t

/-- The loop over the child categories (CifFile_module.nw 1073-1083): the names collected from deeper categories, the names of the last
child, `none` before the first one, and the table. `f` is the recursive call. -/
def childLoop (d : CifDic) (ex : Dict Str (List Str)) (f : Str → List Str → NameTable → Except PyErr (List (Str × Str) × NameTable))
    (parent : Str) : List Str → List (Str × Str) → Option (List (Str × Str)) → NameTable → Except PyErr (Option (List (Str × Str)) × NameTable)
  | [], _, last, t => .ok (last, t)
  | c :: cs, extra, _, t =>
    match nested ex f c t with
    | .error e => .error e
    | .ok (nn, t1) =>
      match objNames d c with
      | .error e => .error e
      | .ok own => childLoop d ex f parent cs (extra ++ nn) (some (own ++ (extra ++ nn))) (dupdate t1 (newEntries t1 parent (own ++ (extra ++ nn))))

/-- `extra_table[(parent_cat,obj)] += [name]` for each of the names (CifFile_module.nw 1086-1087). -/
def addRepeats (parent : Str) : List (Str × Str) → NameTable → Except PyErr NameTable
  | [], t => .ok t
  | a :: r, t =>
    match dget t (parent, a.1) with
    | none => .error .key
    | some l => addRepeats parent r (dset t (parent, a.1) (l ++ [a.2]))

/-- `expand_base_table` (CifFile_module.nw 1070-1091) with a bound on nested calls: the names and the table. The test for repeated names
compares pairs of object and name with pairs of category and object. -/
def expandFuel (d : CifDic) (ex : Dict Str (List Str)) : Nat → Str → List Str → NameTable → Except PyErr (List (Str × Str) × NameTable)
  | 0, _, _, _ => .error .depth
  | n + 1, parent, children, t =>
    match childLoop d ex (expandFuel d ex n) parent children [] none t with
    | .error e => .error e
    | .ok (none, _) => .error .unbound
    | .ok (some names, t1) =>
      match addRepeats parent (names.filter fun a => decide (a ∈ dkeys t1)) t1 with
      | .error e => .error e
      | .ok t2 =>
        match objNames d parent with
        | .error e => .error e
        | .ok own => .ok (names ++ own, t2)

/-- The expansion of all looped categories (CifFile_module.nw 1092). -/
def expandAll (d : CifDic) (ex : Dict Str (List Str)) (n : Nat) : Dict Str (List Str) → NameTable → Except PyErr NameTable
  | [], t => .ok t
  | p :: r, t =>
    match expandFuel d ex n p.1 p.2 t with
    | .error e => .error e
    | .ok (_, t1) => expandAll d ex n r t1

/-- The two tables put together (CifFile_module.nw 1095-1099): names found in other categories come after those of the category itself. -/
def joinTables (base extra : NameTable) : NameTable :=
  (extra.filter fun p => decide (p.1 ∈ dkeys base)).foldl (fun t p => dset t p.1 ((dget base p.1).elim p.2 (· ++ p.2)))
    (dupdate base (extra.filter fun p => decide (p.1 ∉ dkeys base)))

/-- `create_cat_obj_table` (CifFile_module.nw 1059-1101). -/
def catObjTable (d : CifDic) : Except PyErr NameTable :=
  match baseTable d with
  | .error e => .error e
  | .ok base =>
    match expandList d with
    | .error e => .error e
    | .ok ex =>
      match expandAll d ex (d.table.length + 2) ex [] with
      | .error e => .error e
      | .ok extra => .ok (joinTables base extra)

/-- `get_cat_obj` (CifFile_module.nw 1518-1521): a ValueError unless there is exactly one point. -/
def getCatObj (name : Str) : Except PyErr (Str × Str) :=
  match name.dropWhile (· ≠ '.') with
  | [] => .error .value
  | _ :: obj =>
    if '.' ∈ obj then .error .value
    else .ok ((((name.takeWhile (· ≠ '.')).dropWhile (· = '_')).reverse.dropWhile (· = '_')).reverse, obj)

/-- `get_name_by_cat_obj` (CifFile_module.nw 1523-1534). -/
def nameByCatObj (t : NameTable) (category object : Str) (giveDefault : Bool := false) : Except PyErr Str :=
  match category with
  | [] => .error .index
  | c :: r =>
    match dget t (lower (if c = '_' then r else c :: r), lower object) with
    | some (n :: _) => .ok n
    | some [] => .error .index
    | none => if giveDefault then .ok ('_' :: lower (if c = '_' then r else c :: r) ++ '.' :: object) else .error .key

/-! ## Keys of categories -/

/-- `listify(self[c].get("_category_key.name",[self[c].get("_category.key_id")]))` (CifFile_module.nw 1112, 1119). -/
def compoundKey (d : CifDic) (c : Str) : Except PyErr (List PyVal) :=
  match attrD d c keyAttr .none with
  | .error e => .error e
  | .ok one =>
    match attrD d c keysAttr (.list [one]) with
    | .error e => .error e
    | .ok v => listify v

/-- One entry of the table of keys (CifFile_module.nw 1112). -/
def keyEntry (d : CifDic) (c : Str) : Except PyErr (Str × List (List PyVal)) :=
  match compoundKey d c with
  | .error e => .error e
  | .ok k => .ok (c, [k])

/-- `collect_keys` (CifFile_module.nw 1114-1122): a category that has looped categories in it makes a call without the second argument. -/
def collectKeys (d : CifDic) (ex : Dict Str (List Str)) : List Str → Except PyErr (List (List PyVal))
  | [] => .ok []
  | c :: cs =>
    if c ∈ dkeys ex then .error .type
    else match compoundKey d c with
      | .error e => .error e
      | .ok k =>
        match collectKeys d ex cs with
        | .error e => .error e
        | .ok ks => .ok (k :: ks)

/-- The loop over the categories with looped categories in them (CifFile_module.nw 1123-1124). -/
def addKeys (d : CifDic) (ex : Dict Str (List Str)) : Dict Str (List Str) → Dict Str (List (List PyVal)) →
    Except PyErr (Dict Str (List (List PyVal)))
  | [], t => .ok t
  | p :: r, t =>
    match collectKeys d ex p.2 with
    | .error e => .error e
    | .ok kk =>
      match dget t p.1 with
      | none => .error .key
      | some old => addKeys d ex r (dset t p.1 (old ++ kk))

/-- `create_cat_key_table` (CifFile_module.nw 1109-1125). -/
def catKeyTable (d : CifDic) : Except PyErr (Dict Str (List (List PyVal))) :=
  match loopable d with
  | .error e => .error e
  | .ok loops =>
    match mapE (keyEntry d) loops with
    | .error e => .error e
    | .ok es =>
      match expandList d with
      | .error e => .error e
      | .ok ex => addKeys d ex ex (dupdate [] es)

/-! ## Parents of looped categories -/

/-- The looped categories (CifFile_module.nw 1568-1569). -/
def loopedCats (d : CifDic) : Except PyErr (List Str) :=
  match categories d with
  | .error e => .error e
  | .ok l => select (isClass d "Set".toList "Loop".toList) l

/-- The loop that follows the parents (CifFile_module.nw 1575-1578), with a bound on its rounds. -/
def climb (d : CifDic) : Nat → Str → Str → Except PyErr Str
  | 0, _, _ => .error .depth
  | n + 1, cat, next =>
    if d.contains next then
      match isClass d "Set".toList "Loop".toList next with
      | .error e => .error e
      | .ok false => .ok cat
      | .ok true =>
        match textI d next catAttr with
        | .error e => .error e
        | .ok up => climb d n next (lower up)
    else .ok cat

/-- The ultimate parent of a category (CifFile_module.nw 1572-1579). -/
def topLoop (d : CifDic) (c : Str) : Except PyErr (Str × Str) :=
  match textI d c catAttr with
  | .error e => .error e
  | .ok up =>
    match climb d (d.table.length + 2) c (lower up) with
    | .error e => .error e
    | .ok p => .ok (c, p)

/-- `parent_lookup` (CifFile_module.nw 1568-1579). -/
def parentLookup (d : CifDic) : Except PyErr (Dict Str Str) :=
  match loopedCats d with
  | .error e => .error e
  | .ok l =>
    match mapE (topLoop d) l with
    | .error e => .error e
    | .ok es => .ok (dupdate [] es)

/-! ## Equivalent keys -/

/-- `listify` of an attribute that holds names; names that are not texts raise an AttributeError when they are looked up. -/
def nameList (v : PyVal) : Except PyErr (List Str) :=
  match listify v with
  | .error e => .error e
  | .ok l => mapE (fun
    | .str s => .ok s
    | _ => .error .attribute) l

/-- `self[c]['_category_key.name']` as a list. -/
def keysOf (d : CifDic) (c : Str) : Except PyErr (List Str) :=
  match attrI d c keysAttr with
  | .error e => .error e
  | .ok v => nameList v

/-- The looped category in which a category is (CifFile_module.nw 1602-1607). -/
def loopParent (d : CifDic) (looped : List Str) (c : Str) : Except PyErr (Option Str) :=
  match textI d c catAttr with
  | .error e => .error e
  | .ok p =>
    match looped.filter fun a => decide (lower p = a) with
    | [] => .ok none
    | [a] => .ok (some a)
    | _ => .error .cif

/-- `key_equivs[child] = key_equivs.get(child,[])+[parent]` for pairs of names (CifFile_module.nw 1615-1616). -/
def addEquivs (t : Dict Str (List Str)) : List (Str × Str) → Dict Str (List Str)
  | [] => t
  | (parent, child) :: r => addEquivs (dset t child ((dget t child).elim [] id ++ [parent])) r

/-- The loop that follows the keys of a category up (CifFile_module.nw 1601-1617), with a bound on its rounds. -/
def followKeys (d : CifDic) (looped start : List Str) : Nat → List Str → Dict Str (List Str) → Except PyErr (Dict Str (List Str))
  | 0, _, _ => .error .depth
  | _ + 1, [], t => .ok t
  | n + 1, k :: ks, t =>
    match textI d k catAttr with
    | .error e => .error e
    | .ok thisCat =>
      match loopParent d looped thisCat with
      | .error e => .error e
      | .ok none => .ok t
      | .ok (some parent) =>
        match keysOf d parent with
        | .error e => .error e
        | .ok parentKeys =>
          match mapE (fun l => textI d l linkAttr) (k :: ks) with
          | .error e => .error e
          | .ok linked =>
            if (∀ x ∈ parentKeys, x ∈ linked) ∧ (∀ x ∈ linked, x ∈ parentKeys) then
              followKeys d looped start n linked (addEquivs t (linked.zip start))
            else .error .cif

/-- The loop over the looped categories (CifFile_module.nw 1598-1600). -/
def followAll (d : CifDic) (looped : List Str) : List Str → Dict Str (List Str) → Except PyErr (Dict Str (List Str))
  | [], t => .ok t
  | c :: cs, t =>
    match keysOf d c with
    | .error e => .error e
    | .ok ks =>
      match followKeys d looped ks (d.table.length + 2) ks t with
      | .error e => .error e
      | .ok t1 => followAll d looped cs t1

/-- `key_equivs` (CifFile_module.nw 1597-1617). -/
def keyEquivs (d : CifDic) : Except PyErr (Dict Str (List Str)) :=
  match loopedCats d with
  | .error e => .error e
  | .ok l => followAll d l l []

end CifDic
end Verif
