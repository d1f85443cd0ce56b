import Verif.Model.CifDic
import Verif.Model.Print
/-! # Deriving missing values from a dictionary

Models `derive_item` and the functions it calls (CifFile_module.nw 2903-3351), its guard against recursion `track_recursion`
(CifFile_module.nw 4310-4338) and reading an item of a block that has a dictionary (StarFile.nw 1532-1590).

The body of `derive_item` is written as a program (`Prog`) whose steps are: reading an item of the block (which may derive it
in turn), deriving a category, looking at the block and changing it. A dREL method, once translated to Python, is such a
program as well; the translation itself is not modelled. Programs are run by `run`; `derive` ties the knot, with a bound on
nested calls whose exhaustion is the outer `none`. Numpy arrays are not modelled, nor are printed messages. -/
namespace Verif
open Validate
namespace Derive

/-- A computation on a block with a dictionary. -/
inductive Prog where
  /-- Return a value. -/
  | ret (v : PyVal)
  /-- Raise an exception. -/
  | fail (e : PyErr)
  /-- `cifdata[name]`, going on with its value or exception. -/
  | ask (name : Str) (k : Except PyErr PyVal → Prog)
  /-- `self.derive_item(name,cifdata,store_value=True)`. -/
  | derive (name : Str) (k : Except PyErr PyVal → Prog)
  /-- Look at the block. -/
  | look (k : Block → Prog)
  /-- Change the block. -/
  | edit (f : Block → Block × Except PyErr PyVal) (k : Except PyErr PyVal → Prog)
  /-- Run a program, with `provide_value` set while it runs if `prov`, and go on with its value or exception. -/
  | sub (prov : Bool) (p : Prog) (k : Except PyErr PyVal → Prog)

/-- The state: the block, its `provide_value`, and `called_list` and `stored_use_defaults` of the guard. -/
structure St where
  block : Block
  provide : Bool := false
  called : List Str := []
  useDefaults : Bool := false

/-- State and outcome of a call; `none` when the bound on nested calls is exhausted. -/
abbrev Res := Option (St × Except PyErr PyVal)

/-- Running a program, given what reading an item and deriving a category do. -/
def run (ask der : Str → St → Res) : Prog → St → Res
  | .ret v, s => some (s, .ok v)
  | .fail e, s => some (s, .error e)
  | .ask n k, s =>
    match ask n s with
    | none => none
    | some (s1, r) => run ask der (k r) s1
  | .derive n k, s =>
    match der n s with
    | none => none
    | some (s1, r) => run ask der (k r) s1
  | .look k, s => run ask der (k s.block) s
  | .edit f k, s => run ask der (k (f s.block).2) { s with block := (f s.block).1 }
  | .sub prov p k, s =>
    match run ask der p { s with provide := prov || s.provide } with
    | none => none
    | some (s1, r) => run ask der (k r) { s1 with provide := s.provide }

/-- What `derive_item` uses of the dictionary: its definitions, `alias_table` and `cat_obj_lookup_table`; the conversion of one
value according to a definition (`convert_type`, see `Model/Convert.lean`); `int`; the translated methods; and the order in
which Python goes through a set of names. `cache` is `cache_vals` of the block. -/
structure Engine where
  dic : CifDic
  aliases : Dict Str PyVal := []
  catObj : Dict (Str × Str) (List PyVal) := []
  conv : Block → PyVal → Except PyErr PyVal
  toInt : PyVal → Except PyErr PyVal
  exec : PyVal → Prog
  pick : List PyVal → List PyVal
  cache : Bool := true

/-! ## Names of attributes -/

def defaultAttr : Str := "_enumeration.default".toList
def defIndexAttr : Str := "_enumeration.def_index_id".toList
def indexAttr : Str := "_enumeration_default.index".toList
def indexValueAttr : Str := "_enumeration_default.value".toList
def contentsAttr : Str := "_type.contents".toList
def purposeAttr : Str := "_type.purpose".toList
def methodAttr : Str := "_method.py_expression".toList
def componentsAttr : Str := "_category_construct_local.components".toList
def constructAttr : Str := "_category_construct_local.type".toList
def newIdsAttr : Str := "_category_construct_local.new_ids".toList
def intFilterAttr : Str := "_category_construct_local.integer_filter".toList
def textFilterAttr : Str := "_category_construct_local.text_filter".toList
def keyIdAttr : Str := "_category.key_id".toList

/-- The contents compared ignoring case (CifFile_module.nw 3335). -/
def caseless : List PyVal := ["Code", "Name", "Tag"].map fun s => .str s.toList

/-- The value `Loop` of `_definition.class`. -/
def loopClass : PyVal := .str "Loop".toList

/-- The value `Item` of `_definition.scope`. -/
def itemScope : PyVal := .str "Item".toList

/-- The values of `_category_construct_local.type`. -/
def pullbackType : PyVal := .str "Pullback".toList
def filterType : PyVal := .str "Filter".toList

/-- The value `Key` of `_type.purpose`. -/
def keyPurpose : PyVal := .str "Key".toList

/-! ## Helpers -/

/-- Go on with the value of a computation that does not touch the block, or raise its exception. -/
def lift {α : Type} (e : Except PyErr α) (k : α → Prog) : Prog :=
  match e with
  | .ok a => k a
  | .error x => .fail x

/-- Go on with a value, or raise the exception. -/
def andThen (k : PyVal → Prog) : Except PyErr PyVal → Prog
  | .ok v => k v
  | .error e => .fail e

/-- `cifdata[n]`; a name that is no text has no `lower`: `AttributeError`. -/
def get (n : PyVal) (k : PyVal → Prog) : Prog :=
  match n with
  | .str s => .ask s (andThen k)
  | _ => .fail .attribute

/-- `[cifdata[a] for a in names]` -/
def getAll : List PyVal → (List PyVal → Prog) → Prog
  | [], k => k []
  | n :: ns, k => get n fun v => getAll ns fun vs => k (v :: vs)

/-- Whether a value counts as true. -/
def truthy : PyVal → Bool
  | .none => false
  | .str s => !s.isEmpty
  | .num s => decide (s ≠ ['0'])
  | .slist l => !l.isEmpty
  | .list l => !l.isEmpty
  | .sdict d => !d.isEmpty

/-- `k in v` for a text `k`. -/
def pyIn (k : Str) : PyVal → Except PyErr Bool
  | .str s => .ok (Print.isIn k s)
  | .slist l => .ok (decide (PyVal.str k ∈ l))
  | .list l => .ok (decide (PyVal.str k ∈ l))
  | .sdict d => .ok (decide (k ∈ dkeys d))
  | _ => .error .type

/-- A value used as a key of a Python dictionary of names. -/
def asName : PyVal → Except PyErr Str
  | .str s => .ok s
  | _ => .error .type

/-- `l[i]` -/
def nth {α : Type} (l : List α) (i : Nat) : Except PyErr α :=
  match l[i]? with
  | some v => .ok v
  | none => .error .index

/-- `l.index(v)`: a `ValueError` if it is not there. -/
def indexOf (l : List PyVal) (v : PyVal) : Except PyErr Nat :=
  if v ∈ l then .ok (l.idxOf v) else .error .value

mutual
/-- `conv_from_numpy` without Numpy (CifFile_module.nw 2967-2979): lists inside become StarLists. -/
def fromNumpy : PyVal → PyVal
  | .list l => .slist (fromNumpyAll l)
  | .slist l => .slist (fromNumpyAll l)
  | v => v
def fromNumpyAll : List PyVal → List PyVal
  | [] => []
  | a :: r => fromNumpy a :: fromNumpyAll r
end

variable [CaseFold]

/-- `k in cifdata` for a value that need not be a text (StarFile.nw 1612-1615). -/
def inBlock (b : Block) : PyVal → Bool
  | .str s => b.contains s
  | _ => false

/-- `self[v]` -/
def defn (E : Engine) : PyVal → Except PyErr Block
  | .str s => E.dic.getItem s
  | _ => .error .attribute

/-- `self[v][a]` -/
def attrOf (E : Engine) (v : PyVal) (a : Str) : Except PyErr PyVal :=
  match defn E v with
  | .error e => .error e
  | .ok b => b.getItem a

/-- `change_type` (CifFile_module.nw 3397-3404). -/
def changeType (E : Engine) (item : Str) (v : PyVal) : Except PyErr PyVal :=
  if v = query then .ok v
  else match E.dic.getItem item with
    | .error e => .error e
    | .ok b =>
      match v with
      | .list l =>
        match mapE (E.conv b) l with
        | .error e => .error e
        | .ok l => .ok (.list l)
      | v => E.conv b v

/-! ## Aliases -/

/-- The attribute listing the aliases of a definition. -/
def aliasAttr : Str := "_alias.definition_id".toList

/-- `'_alias.definition_id' in self[a]` -/
def hasAliases (d : CifDic) (a : Str) : Except PyErr Bool :=
  match d.getItem a with
  | .error e => .error e
  | .ok b => .ok (b.contains aliasAttr)

/-- An entry of the table of aliases. -/
def aliasEntry (d : CifDic) (a : Str) : Except PyErr (Str × PyVal) :=
  match d.attrI a aliasAttr with
  | .error e => .error e
  | .ok v => .ok (a, v)

/-- `create_alias_table` (CifFile_module.nw 1035-1038). -/
def aliasTable (d : CifDic) : Except PyErr (Dict Str PyVal) :=
  match select (hasAliases d) d.keys with
  | .error e => .error e
  | .ok l =>
    match mapE (aliasEntry d) l with
    | .error e => .error e
    | .ok es => .ok (dupdate [] es)

/-- `self.alias_table.get(key,[])` as a list. -/
def aliasesOf (E : Engine) (key : Str) : Except PyErr (List PyVal) :=
  match dget E.aliases key with
  | none => .ok []
  | some v => Block.pyIter v

/-- `[a for a in self.alias_table.items() if key in a[1]]` (CifFile_module.nw 3305). -/
def aliasOf (E : Engine) (key : Str) : Except PyErr (List (Str × PyVal)) :=
  select (fun a => pyIn key a.2) E.aliases

/-- `has_key_or_alias` (StarFile.nw 1620-1628). -/
def hasKeyOrAlias (E : Engine) (b : Block) (key : Str) : Except PyErr Bool :=
  if b.contains key then .ok true
  else match aliasesOf E key with
    | .error e => .error e
    | .ok l => .ok (l.any (inBlock b))

/-! ## Storing values -/

/-- `self[a].get("_name.category_id",None)==the_category` -/
def sameCat (E : Engine) (cat : PyVal) (a : Str) : Except PyErr Bool :=
  match E.dic.attrD a CifDic.catAttr .none with
  | .error e => .error e
  | .ok v => .ok (decide (v = cat))

/-- `[a for a in self.keys() if self[a].get("_name.category_id",None)==the_category]` (CifFile_module.nw 2910, 2983). -/
def catNames (E : Engine) (cat : PyVal) : Except PyErr (List Str) :=
  select (sameCat E cat) E.dic.keys

/-- One change of the block after another. -/
def chain (f g : Block → Block × Except PyErr Unit) (b : Block) : Block × Except PyErr Unit :=
  match f b with
  | (b1, .error e) => (b1, .error e)
  | (b1, .ok ()) => g b1

/-- The values to be stored (CifFile_module.nw 2965-2980). -/
def outResult (result : PyVal) (dflt : Bool) : Except PyErr PyVal :=
  if dflt then .ok result
  else match Block.pyIter result with
    | .error e => .error e
    | .ok l => .ok (.list (l.map fromNumpy))

/-- `store_new_looped_value` (CifFile_module.nw 2960-2994). The lengths that `AddLoopName` and `CreateLoop` compare are those of
the stored values. -/
def storeLooped (E : Engine) (key : Str) (result : PyVal) (dflt : Bool) (b : Block) : Block × Except PyErr PyVal :=
  match E.dic.attrI key CifDic.catAttr with
  | .error e => (b, .error e)
  | .ok cat =>
    match outResult result dflt with
    | .error e => (b, .error e)
    | .ok out =>
      match catNames E cat with
      | .error e => (b, .error e)
      | .ok names =>
        match names.filter b.contains with
        | h :: _ =>
          match chain (fun b => b.setItem key out) (fun b => b.addLoopName h key) b with
          | (b1, .error e) => (b1, .error e)
          | (b1, .ok ()) => (b1, .ok out)
        | [] =>
          match chain (fun b => b.setItem key out) (fun b => b.createLoop [key]) b with
          | (b1, .error e) => (b1, .error e)
          | (b1, .ok ()) => (b1, .ok out)

/-- `store_new_unlooped_value` (CifFile_module.nw 2996-3006). -/
def storeUnlooped (key : Str) (result : PyVal) (b : Block) : Block × Except PyErr PyVal :=
  match b.setItem key result with
  | (b1, .error e) => (b1, .error e)
  | (b1, .ok ()) => (b1, .ok result)

/-- The loop that stores the columns (CifFile_module.nw 3040-3044). A `StarError` is only reported; the report reads the old
value, which is left out. -/
def storeColumns (E : Engine) : List (Str × PyVal) → Block → Block × Except PyErr Unit
  | [], b => (b, .ok ())
  | (n, v) :: r, b =>
    match storeLooped E n v false b with
    | (b1, .ok _) => storeColumns E r b1
    | (b1, .error .star) => storeColumns E r b1
    | (b1, .error e) => (b1, .error e)

/-- `for one_key in the_key: cifdata.ChangeItemOrder(one_key,0)` (CifFile_module.nw 3047-3048). -/
def keysFirst : List Str → Block → Block × Except PyErr Unit
  | [], b => (b, .ok ())
  | k :: r, b => chain (fun b => b.changeItemOrder (.name k) 0) (keysFirst r) b

/-- `self[a].get('_type.purpose','')=='Key'` -/
def isKeyItem (E : Engine) (a : Str) : Except PyErr Bool :=
  match E.dic.attrD a purposeAttr (.str []) with
  | .error e => .error e
  | .ok v => .ok (decide (v = keyPurpose))

/-- The test whether the category is left alone because some of its names are present (CifFile_module.nw 3023-3039). `the_key`
is a list, so `cifdata[the_key]` is an `AttributeError`. -/
def leftAlone (E : Engine) (names : List Str) (cat : PyVal) (b : Block) : Except PyErr Bool :=
  if names.any b.contains then
    match cat with
    | .str c =>
      match CifDic.namesInCat E.dic c with
      | .error e => .error e
      | .ok inCat =>
        let present := inCat.filter b.contains
        if present.all (fun a => decide (a ∈ names)) && names.all (fun a => decide (a ∈ present)) then .error .attribute
        else .ok true
    | _ => .error .attribute
  else .ok false

/-- `store_new_cat_values` (CifFile_module.nw 3020-3048). -/
def storeCat (E : Engine) (result cat : PyVal) (b : Block) : Block × Except PyErr PyVal :=
  match result with
  | .sdict d =>
    match select (isKeyItem E) (dkeys d) with
    | .error e => (b, .error e)
    | .ok keys =>
      match leftAlone E (dkeys d) cat b with
      | .error e => (b, .error e)
      | .ok true => (b, .ok .none)
      | .ok false =>
        match chain (storeColumns E d) (keysFirst keys) b with
        | (b1, .error e) => (b1, .error e)
        | (b1, .ok ()) => (b1, .ok .none)
  | _ => (b, .error .attribute)

/-! ## Constructing categories -/

/-- `m1[k1.index(x)]==m2[k2.index(y)]` -/
def linked (k1 m1 k2 m2 : List PyVal) (p : PyVal × PyVal) : Except PyErr Bool :=
  match nth m1 (k1.idxOf p.1) with
  | .error e => .error e
  | .ok a =>
    match nth m2 (k2.idxOf p.2) with
    | .error e => .error e
    | .ok b => .ok (decide (a = b))

/-- `[(x,y) for x in k1 for y in k2 if m1[k1.index(x)]==m2[k2.index(y)]]` (CifFile_module.nw 3155-3156). -/
def pullback (k1 m1 k2 m2 : List PyVal) : Except PyErr (List (PyVal × PyVal)) :=
  select (linked k1 m1 k2 m2) (k1.flatMap fun x => k2.map fun y => (x, y))

/-- The pairs found in the lists of key values and of linking values. -/
def pullbackOf (keys links : List (List PyVal)) : Except PyErr (List (PyVal × PyVal)) :=
  match keys with
  | [] => .error .index
  | [] :: _ => .ok []
  | [_] => .error .index
  | k1 :: k2 :: _ =>
    match links with
    | m1 :: m2 :: _ => pullback k1 m1 k2 m2
    | _ => if k2 = [] then .ok [] else .error .index

/-- `l[-1]` -/
def lastOf (l : List (List PyVal)) : Except PyErr (List PyVal) :=
  match l.getLast? with
  | some x => .ok x
  | none => .error .index

/-- `range(n)` -/
def rangeVals (n : Nat) : List PyVal := (List.range n).map fun i => .num (toString i).toList

/-- `[int(a) for a in int_filter]`, if there is one (CifFile_module.nw 3146-3148). -/
def intFilter (E : Engine) (v : PyVal) : Except PyErr (List (List PyVal)) :=
  if v = .none then .ok []
  else match Block.pyIter v with
    | .error e => .error e
    | .ok l =>
      match mapE E.toInt l with
      | .error e => .error e
      | .ok zs => .ok [zs]

/-- The text filter, if there is one (CifFile_module.nw 3149-3150). -/
def textFilter (v : PyVal) : Except PyErr (List (List PyVal)) :=
  if v = .none then .ok []
  else match Block.pyIter v with
    | .error e => .error e
    | .ok l => .ok [l]

/-- `names_in_cat(cat,names_only=True)` (CifFile_module.nw 1333-1338). -/
def objectsIn (E : Engine) (cat : PyVal) : Except PyErr (List PyVal) :=
  match CifDic.lowered cat with
  | .error e => .error e
  | .ok c =>
    match CifDic.immediateChildren E.dic c with
    | .error e => .error e
    | .ok l => mapE (fun a => E.dic.attrI a CifDic.objAttr) l

/-- `self.cat_obj_lookup_table[(cat,obj)][0]`; a key that is not in the table, or no pair of texts, is a `KeyError` (or a
`TypeError` for lists, which is not distinguished). -/
def catObjName (E : Engine) (cat obj : PyVal) : Except PyErr PyVal :=
  match cat, obj with
  | .str c, .str o =>
    match dget E.catObj (c, o) with
    | none => .error .key
    | some l => nth l 0
  | _, _ => .error .key

/-- The same with both names in lower case (CifFile_module.nw 3262-3263). -/
def catObjLower (E : Engine) (cat obj : PyVal) : Except PyErr PyVal :=
  match CifDic.lowered cat with
  | .error e => .error e
  | .ok c =>
    match CifDic.lowered obj with
    | .error e => .error e
    | .ok o => catObjName E (.str c) (.str o)

/-- The loop of `duplicate_datanames` without key values (CifFile_module.nw 3261-3269). -/
def projectAll (E : Engine) (fromCat toCat : PyVal) :
    List PyVal → List (Str × PyVal) → (List (Str × PyVal) → Prog) → Prog
  | [], acc, k => k acc
  | n :: ns, acc, k =>
    lift (catObjLower E fromCat n) fun src =>
    lift (catObjLower E toCat n) fun dst =>
    lift (asName dst) fun dst =>
    .sub false (get src .ret) fun r =>
      match r with
      | .ok v => projectAll E fromCat toCat ns (dset acc dst v) k
      | .error .derivation => projectAll E fromCat toCat ns acc k
      | .error e => .fail e

/-- The column read, or else the one read before (CifFile_module.nw 3273-3277). -/
def columnOr (last : Option PyVal) : Except PyErr PyVal → Except PyErr PyVal
  | .ok v => .ok v
  | .error .derivation =>
    match last with
    | some v => .ok v
    | none => .error .unbound
  | .error e => .error e

/-- The loop of `duplicate_datanames` for given key values (CifFile_module.nw 3270-3277). A column that cannot be derived is
replaced by the one read before, and is an `UnboundLocalError` if there is none. -/
def projectSome (E : Engine) (fromCat toCat key : PyVal) (keyVals : List PyVal) :
    List PyVal → Option PyVal → List (Str × PyVal) → (List (Str × PyVal) → Prog) → Prog
  | [], _, acc, k => k acc
  | n :: ns, last, acc, k =>
    lift (catObjLower E fromCat n) fun src =>
    lift (catObjLower E toCat n) fun dst =>
    lift (asName dst) fun dst =>
    get key fun all =>
    lift (Block.pyIter all) fun all =>
    lift (mapE (indexOf all) keyVals) fun pos =>
    .sub false (get src .ret) fun r =>
      lift (columnOr last r) fun v =>
      lift (Block.pyIter v) fun col =>
      lift (mapE (nth col) pos) fun vals =>
      projectSome E fromCat toCat key keyVals ns (some v) (dset acc dst (.list vals)) k

/-- `duplicate_datanames` (CifFile_module.nw 3250-3278). -/
def duplicate (E : Engine) (fromCat toCat : PyVal) (keyVals : Option (List PyVal)) (skip : List PyVal)
    (k : List (Str × PyVal) → Prog) : Prog :=
  lift (objectsIn E fromCat) fun s =>
  lift (objectsIn E toCat) fun t =>
  let names := E.pick ((s.filter fun a => decide (a ∈ t)).filter fun a => decide (a ∉ skip)).eraseDups
  lift (attrOf E fromCat keyIdAttr) fun key =>
  match keyVals with
  | none => projectAll E fromCat toCat names [] k
  | some kv => projectSome E fromCat toCat key kv names none [] k

/-- The value of `construct_category` from the pairs found (CifFile_module.nw 3158-3170). -/
def constructFrom (E : Engine) (category : PyVal) (b : Block) (isPullback : Bool) (cats : List PyVal)
    (ids : List (PyVal × PyVal)) : Prog :=
  if ids = [] then .ret (.sdict [])
  else
    lift (b.getItem newIdsAttr) fun nv =>
    lift (Block.pyIter nv) fun newids =>
    lift (mapE (catObjName E category) newids) fun full =>
    lift (nth full 0) fun f0 =>
    lift (asName f0) fun n0 =>
    let finish (res : List (Str × PyVal)) : Prog :=
      .edit (storeCat E (.sdict res) category) (andThen fun _ => .ret (.sdict res))
    if isPullback then
      lift (nth full 1) fun f1 =>
      lift (asName f1) fun n1 =>
      lift (nth cats 0) fun c0 =>
      lift (nth cats 1) fun c1 =>
      let res0 := dset [(n0, PyVal.list (ids.map (·.1)))] n1 (.list (ids.map (·.2)))
      duplicate E c0 category (some (ids.map (·.1))) newids fun d0 =>
      duplicate E c1 category (some (ids.map (·.2))) newids fun d1 =>
      finish (dupdate (dupdate res0 d0) d1)
    else
      lift (nth cats 0) fun c0 =>
      let res0 := [(n0, PyVal.list (ids.map (·.1)))]
      duplicate E c0 category (some (ids.map (·.1))) newids fun d0 =>
      finish (dupdate res0 d0)

/-- `construct_category` (CifFile_module.nw 3135-3171), called with `store_value=True`. Any other type of construction returns
`None`. -/
def construct (E : Engine) (category : PyVal) : Prog :=
  lift (defn E category) fun b =>
  lift (CifDic.getD b constructAttr .none) fun ct =>
  if ct = .none then .ret (.sdict [])
  else if ct = pullbackType ∨ ct = filterType then
    lift (b.getItem componentsAttr) fun ms =>
    lift (Block.pyIter ms) fun morphisms =>
    getAll morphisms fun linkVals =>
    lift (mapE (fun a => attrOf E a CifDic.catAttr) morphisms) fun cats =>
    lift (mapE (fun a => attrOf E a keyIdAttr) cats) fun keyNames =>
    getAll keyNames fun keyVals =>
    lift (mapE Block.pyIter keyVals) fun keys =>
    lift (mapE Block.pyIter linkVals) fun links =>
    if ct = filterType then
      lift (CifDic.getD b intFilterAttr .none) fun i =>
      lift (CifDic.getD b textFilterAttr .none) fun t =>
      lift (intFilter E i) fun l1 =>
      lift (textFilter t) fun l2 =>
      lift (lastOf (links ++ l1 ++ l2)) fun lastLink =>
      lift (pullbackOf (keys ++ [rangeVals lastLink.length]) (links ++ l1 ++ l2)) fun ids =>
      constructFrom E category b false cats ids
    else
      lift (pullbackOf keys links) fun ids =>
      constructFrom E category b true cats ids
  else .ret .none

/-- `result[k].extend(v)` for every entry of `extra` whose key is in `result`; the others are added if `addNew`
(CifFile_module.nw 3213-3217, 3222-3227). -/
def extendAll (addNew : Bool) : List (Str × PyVal) → List (Str × PyVal) → Except PyErr (List (Str × PyVal))
  | [], result => .ok result
  | (k, v) :: r, result =>
    match dget result k with
    | some (.list l) =>
      match Block.pyIter v with
      | .error e => .error e
      | .ok l2 => extendAll addNew r (dset result k (.list (l ++ l2)))
    | some _ => .error .attribute
    | none => if addNew then extendAll addNew r (dset result k v) else extendAll addNew r result

/-- `result[k].extend(v)` -/
def extendOne (result : List (Str × PyVal)) (k : Str) (v : PyVal) : Except PyErr (List (Str × PyVal)) :=
  match dget result k with
  | none => .error .key
  | some _ => extendAll false [(k, v)] result

/-- The extra column of a filter with a single value (CifFile_module.nw 3229-3244). -/
def singleton (E : Engine) (b : Block) (comps : List PyVal) (rows : Nat) (result : List (Str × PyVal)) :
    Except PyErr (List (Str × PyVal)) :=
  match CifDic.getD b intFilterAttr .none with
  | .error e => .error e
  | .ok i =>
    match CifDic.getD b textFilterAttr .none with
    | .error e => .error e
    | .ok t =>
      match Block.pyIter (if i = .none then t else i) with
      | .error e => .error e
      | .ok [x] =>
        match comps with
        | [] => .error .index
        | c :: _ =>
          match asName c with
          | .error e => .error e
          | .ok c =>
            match (if i = .none then Except.ok x else E.toInt x) with
            | .error e => .error e
            | .ok x =>
              let col := PyVal.list (List.replicate rows x)
              if c ∈ dkeys result then extendOne result c col else .ok (dset result c col)
      | .ok _ => .ok result

/-- The loop over source categories of `push_from_pullback` (CifFile_module.nw 3192-3246). -/
def pushFrom (E : Engine) (target : PyVal) (key : Str) :
    List Str → Bool → List (Str × PyVal) → (List (Str × PyVal) → Prog) → Prog
  | [], _, result, k => k result
  | sc :: rest, first, result, k =>
    lift (E.dic.getItem sc) fun b =>
    lift (b.getItem componentsAttr) fun cv =>
    lift (Block.pyIter cv) fun comps =>
    lift (mapE (fun c => attrOf E c CifDic.catAttr) comps) fun compCats =>
    lift (b.getItem newIdsAttr) fun nv =>
    lift (Block.pyIter nv) fun newids =>
    lift (mapE (catObjName E (.str sc)) newids) fun sourceIds =>
    if comps.length = 2 then
      lift (indexOf compCats target) fun pos =>
      lift (nth sourceIds pos) fun old =>
      get old fun v =>
      lift (extendOne result key v) fun res1 =>
      duplicate E (.str sc) target none (newids ++ [.str key]) fun extra =>
      if first then pushFrom E target key rest false (dupdate res1 extra) k
      else lift (extendAll false extra res1) fun res2 => pushFrom E target key rest false res2 k
    else
      duplicate E (.str sc) target none newids fun extra =>
      lift (nth sourceIds 0) fun s0 =>
      .look fun blk =>
      if extra.length > 0 || inBlock blk s0 then
        get s0 fun v =>
        lift (extendOne result key v) fun res1 =>
        lift (extendAll true extra res1) fun res2 =>
        lift (b.getItem constructAttr) fun ct =>
        if ct = filterType then
          get s0 fun v2 =>
          lift v2.pyLen fun rows =>
          lift (singleton E b comps rows res2) fun res3 =>
          pushFrom E target key rest false res3 k
        else .fail .value
      else pushFrom E target key rest false result k

/-- `push_from_pullback` (CifFile_module.nw 3184-3249), called with `store_value=True`. That lists of the block may be extended in
place is not modelled. -/
def push (E : Engine) (target : PyVal) (sources : List Str) : Prog :=
  lift (attrOf E target keyIdAttr) fun kv =>
  lift (asName kv) fun key =>
  pushFrom E target key sources true [(key, .list [])] fun result =>
  lift (mapE (fun p => p.2.pyLen) result) fun lens =>
  if lens.eraseDups.length ≠ 1 then .fail .assertion
  else .edit (storeCat E (.sdict result) target) (andThen fun _ => .ret (.sdict result))

/-! ## The stages of `derive_item` -/

/-- The two exceptions that make a stage fail quietly. -/
def quiet : PyErr → Bool
  | .recursion => true
  | .derivation => true
  | _ => false

/-- Run a construction; its two own exceptions leave `other` in place (CifFile_module.nw 3107-3118). -/
def attempt (p : Prog) (other : PyVal) (k : PyVal → Prog) : Prog :=
  .sub false p fun r =>
    match r with
    | .ok v => k v
    | .error e => if quiet e then k other else .fail e

/-- `'_category_construct_local.components' in self[k]` -/
def hasComponents (E : Engine) (k : Str) : Except PyErr Bool :=
  match E.dic.getItem k with
  | .error e => .error e
  | .ok b => .ok (b.contains componentsAttr)

/-- A category and the categories it is constructed from (CifFile_module.nw 3099-3101). -/
def pulledFrom (E : Engine) (k : Str) : Except PyErr (Str × List PyVal) :=
  match E.dic.attrI k componentsAttr with
  | .error e => .error e
  | .ok cv =>
    match Block.pyIter cv with
    | .error e => .error e
    | .ok cs =>
      match mapE (fun n => attrOf E n CifDic.catAttr) cs with
      | .error e => .error e
      | .ok l => .ok (k, l)

/-- The categories that are constructed from `cat` (CifFile_module.nw 3098-3102). -/
def pulledTo (E : Engine) (cat : PyVal) : Except PyErr (List Str) :=
  match select (hasComponents E) E.dic.keys with
  | .error e => .error e
  | .ok ks =>
    match mapE (pulledFrom E) ks with
    | .error e => .error e
    | .ok ps => .ok ((ps.filter fun p => decide (cat ∈ p.2)).map (·.1))

/-- `if key in cat_result: return cat_result[key]` (CifFile_module.nw 3130-3131). -/
def fromCat (key : Str) (res : PyVal) (k : Prog) : Prog :=
  lift (pyIn key res) fun found =>
  if found then
    match res with
    | .sdict d => match dget d key with
      | some v => .ret v
      | none => .fail .key
    | _ => .fail .type
  else k

/-- The category method (CifFile_module.nw 3119-3131). -/
def catMethod (key : Str) (cat : PyVal) (cb : Block) (k : Prog) (res : PyVal) : Prog :=
  if cb.contains methodAttr then
    lift (pyIn key res) fun found =>
    if found then fromCat key res k
    else match cat with
      | .str c => .derive c (andThen fun v => fromCat key v k)
      | _ => .fail .attribute
  else fromCat key res k

/-- Populating from categories constructed from this one (CifFile_module.nw 3113-3118). -/
def fromPulled (E : Engine) (key : Str) (cat : PyVal) (cb : Block) (sources : List Str) (k : Prog) (res : PyVal) : Prog :=
  if sources ≠ [] then
    lift res.pyLen fun n =>
    if n = 0 then attempt (push E cat sources) res (catMethod key cat cb k) else catMethod key cat cb k res
  else catMethod key cat cb k res

/-- Populating an empty category (CifFile_module.nw 3096-3131); goes on with `k` if `key` was not obtained. -/
def populate (E : Engine) (key : Str) (cat : PyVal) (k : Prog) : Prog :=
  lift (pulledTo E cat) fun sources =>
  lift (defn E cat) fun cb =>
  if cb.contains constructAttr then attempt (construct E cat) (.sdict []) (fromPulled E key cat cb sources k)
  else fromPulled E key cat cb sources k (.sdict [])

/-- Executing the methods one after another until one gives a value (CifFile_module.nw 3064-3084). -/
def tryMethods (E : Engine) : List PyVal → (PyVal → Prog) → Prog
  | [], k => k .none
  | f :: fs, k =>
    .sub true (E.exec f) fun r =>
      match r with
      | .ok v => if v = .none then tryMethods E fs k else k v
      | .error e => if quiet e then tryMethods E fs k else .fail e

/-- `a.lower()` -/
def lowerVal (a : PyVal) : Except PyErr PyVal :=
  match CifDic.lowered a with
  | .error e => .error e
  | .ok s => .ok (.str s)

/-- `[a.lower() for a in l]` -/
def lowerAll (l : List PyVal) : Except PyErr (List PyVal) :=
  mapE lowerVal l

/-- The default value (CifFile_module.nw 3329-3351), with the flag telling that it has to be repeated along the loop. -/
def defaultValue (E : Engine) (key : Str) (defVal defIndex : PyVal) (k : PyVal → Bool → Prog) : Prog :=
  if truthy defVal then lift (changeType E key defVal) fun v => k v true
  else if truthy defIndex then
    lift (E.dic.attrI key indexAttr) fun iv =>
    get defIndex fun at_ =>
    lift (attrOf E defIndex contentsAttr) fun contents =>
    if contents ∈ caseless then
      lift (Block.pyIter iv) fun ivs =>
      lift (lowerAll ivs) fun index =>
      match at_ with
      | .sdict _ => .fail .attribute
      | .none => .fail .attribute
      | .num _ => .fail .attribute
      | .str s =>
        lift (indexOf index (.str (lower s))) fun pos =>
        lift (E.dic.attrI key indexValueAttr) fun vv =>
        lift (Block.pyIter vv) fun vals =>
        lift (nth vals pos) fun v =>
        lift (changeType E key v) fun v => k v true
      | .list l | .slist l =>
        lift (lowerAll l) fun keys =>
        lift (mapE (indexOf index) keys) fun pos =>
        lift (E.dic.attrI key indexValueAttr) fun vv =>
        lift (Block.pyIter vv) fun vals =>
        lift (mapE (nth vals) pos) fun vs =>
        lift (changeType E key (.list vs)) fun v => k v false
    else .fail .unbound
  else k .none false

/-- Storing the value found (CifFile_module.nw 2931-2941). Empty lists are never stored. -/
def save (E : Engine) (key : Str) (cat : PyVal) (looped store dflt : Bool) (result : PyVal) : Prog :=
  if !(decide (result = .list []) || decide (result = .slist [])) && store then
    lift (E.dic.attrD key CifDic.scopeAttr itemScope) fun scope =>
    if scope = itemScope then
      if looped then .edit (storeLooped E key result dflt) (andThen .ret)
      else .edit (storeUnlooped key result) (andThen .ret)
    else .edit (storeCat E result cat) (andThen fun _ => .ret result)
  else .ret result

/-- Adjusting the value to the length of its category (CifFile_module.nw 2946-2958). -/
def adjust (E : Engine) (key : Str) (cat : PyVal) (has : List Str) (store : Bool) (result : PyVal) (dflt : Bool) : Prog :=
  lift (defn E cat) fun cb =>
  lift (CifDic.getD cb CifDic.classAttr (.str "Set".toList)) fun cls =>
  if cls = loopClass then
    match has with
    | h :: _ =>
      if dflt then
        get (.str h) fun v =>
        lift v.pyLen fun n =>
        save E key cat true store dflt (.list (List.replicate n result))
      else save E key cat true store dflt result
    | [] => save E key cat true store dflt (.list [])
  else save E key cat false store dflt result

/-- Failure, or adjusting and storing (CifFile_module.nw 2925-2941). -/
def conclude (E : Engine) (key : Str) (cat : PyVal) (has : List Str) (store : Bool) (result : PyVal) (dflt : Bool) : Prog :=
  if result = .none then .fail .derivation else adjust E key cat has store result dflt

/-- The default, if the methods gave no value and defaults are allowed (CifFile_module.nw 2922-2923). -/
def orDefault (E : Engine) (key : Str) (cat : PyVal) (has : List Str) (defVal defIndex : PyVal) (store allow : Bool)
    (result : PyVal) : Prog :=
  if result = .none && allow then defaultValue E key defVal defIndex (conclude E key cat has store)
  else conclude E key cat has store result false

/-- Methods, then defaults, then failure (CifFile_module.nw 2917-2927). -/
def compute (E : Engine) (key : Str) (cat : PyVal) (names : List Str) (defVal defIndex : PyVal) (store allow : Bool) : Prog :=
  .look fun b =>
  lift (select (hasKeyOrAlias E b) names) fun has =>
  lift (E.dic.attrD key methodAttr (.str [])) fun funcs =>
  if truthy funcs then
    lift (Block.pyIter funcs) fun fs => tryMethods E fs (orDefault E key cat has defVal defIndex store allow)
  else orDefault E key cat has defVal defIndex store allow .none

/-- What follows the search for aliases (CifFile_module.nw 2909-2941). -/
def deriveRest (E : Engine) (key : Str) (store allow : Bool) : Prog :=
  lift (E.dic.attrI key CifDic.catAttr) fun cat =>
  lift (catNames E cat) fun names =>
  .look fun b =>
  lift (select (hasKeyOrAlias E b) names) fun has =>
  lift (E.dic.attrD key defaultAttr (.str [])) fun defVal =>
  lift (E.dic.attrD key defIndexAttr (.str [])) fun defIndex =>
  let rest := compute E key cat names defVal defIndex store allow
  if has = [] then populate E key cat rest else rest

/-- The name asked for is an alias in the definition `key` only (CifFile_module.nw 3307-3312). -/
def viaDefinition (E : Engine) (b : Block) (key : Str) (v : PyVal) (store allow : Bool) : Prog :=
  if b.contains key then get (.str key) fun v => lift (changeType E key v) .ret
  else
    lift (Block.pyIter v) fun others =>
    match others.filter (inBlock b) with
    | k :: _ => get k fun v => lift (changeType E key v) .ret
    | [] => deriveRest E key store allow

/-- The body of `derive_item` (CifFile_module.nw 2903-2941, aliases 3299-3315). -/
def deriveBody (E : Engine) (start : Str) (store allow : Bool) : Prog :=
  .look fun b =>
  lift (aliasesOf E start) fun al =>
  match al.filter (inBlock b) with
  | k :: _ => get k fun v => lift (changeType E start v) .ret
  | [] =>
    lift (aliasOf E start) fun
      | [] => deriveRest E start store allow
      | [(key, v)] => viaDefinition E b key v store allow
      | _ => .fail .cif

/-! ## The guard, reading an item, and the knot -/

/-- `kwargs.get("allow_defaults",d)` -/
def given (allow : Option Bool) (d : Bool) : Bool :=
  match allow with
  | some a => a
  | none => d

/-- Recording a call (CifFile_module.nw 4318-4325). -/
def enter (key : Str) (allow : Option Bool) (s : St) : St :=
  { s with called := s.called ++ [key]
           useDefaults := if s.called = [] then given allow false else s.useDefaults }

/-- The value of `allow_defaults` in the body: that of the outermost call, which takes it to be true when it is not given. -/
def uses (allow : Option Bool) (s : St) : Bool := if s.called = [] then given allow true else s.useDefaults

/-- The end of a call, whether it returns or raises (CifFile_module.nw 4327-4336). -/
def leave (s : St) (r : Except PyErr PyVal) : St × Except PyErr PyVal :=
  ({ s with called := s.called.dropLast }, if r = .error .derivation ∧ s.called.length = 1 then .error .failure else r)

/-- `track_recursion` (CifFile_module.nw 4310-4338) around the body run by `go`. `allow` is the argument `allow_defaults`, if
given. -/
def track (key : Str) (allow : Option Bool) (go : Bool → St → Res) (s : St) : Res :=
  if key ∈ s.called then some (s, .error .recursion)
  else
    match go (uses allow s) (enter key allow s) with
    | none => none
    | some (s2, r) => some (leave s2 r)

/-- A call of `derive_item`: the key, `store_value` and `allow_defaults`. -/
abbrev Call := Str → Bool → Option Bool → St → Res

/-- Whether a text value can be converted as it is (StarFile.nw 1563-1564). -/
def plainText : PyVal → Bool
  | .list l => decide (query ∉ l) && decide (dot ∉ l)
  | .slist l => decide (query ∉ l) && decide (dot ∉ l)
  | v => decide (v ≠ query) && decide (v ≠ dot)

/-- Whether a value is unknown throughout (StarFile.nw 1568-1573). -/
def unknown : PyVal → Bool
  | .list l => l.all fun a => decide (a = query)
  | .slist l => l.all fun a => decide (a = query)
  | v => decide (v = query)

/-- Two attempts, first without and then with defaults (StarFile.nw 1541-1548, 1577-1588). -/
def twice (call : Option Bool → St → Res) (final : Except PyErr PyVal → Except PyErr PyVal) (s : St) : Res :=
  match call (some false) s with
  | some (s1, .error .failure) =>
    match call (some true) s1 with
    | some (s2, r) => some (s2, final r)
    | none => none
  | r => r

/-- The failure of both attempts is a `KeyError` (StarFile.nw 1546-1548). -/
def failedKey : Except PyErr PyVal → Except PyErr PyVal
  | .error .failure => .error .key
  | r => r

/-- After the second attempt the old value is returned, whether it failed or not (StarFile.nw 1579-1589). -/
def keepRaw (raw : PyVal) : Except PyErr PyVal → Except PyErr PyVal
  | .ok _ => .ok raw
  | .error .failure => .ok raw
  | r => r

/-- `__getitem__` of a block with a dictionary (StarFile.nw 1532-1590). The values kept for calculation are returned as they are
with or without `provide_value` (`convert_to_string`, StarFile.nw 2786-2793). -/
def getItem (E : Engine) (call : Call) (key : Str) (s : St) : Res :=
  if key = Block.saves then some (s, .error .star)
  else match s.block.getFullItemValue key with
    | .error .key =>
      twice (call key E.cache) failedKey s
    | .error e => some (s, .error e)
    | .ok (raw, isValue) =>
      if !E.dic.contains key || isValue || !s.provide then some (s, .ok raw)
      else if plainText raw then some (s, changeType E key raw)
      else if unknown raw then
        match s.block.removeItem key with
        | (b, .error e) => some ({ s with block := b }, .error e)
        | (b, .ok ()) =>
          twice (call key true) (keepRaw raw) { s with block := b }
      else some (s, .ok raw)

/-- `derive_item` with at most `n` nested calls. -/
def derive (E : Engine) : Nat → Call
  | 0 => fun _ _ _ _ => none
  | n + 1 => fun key store allow s =>
    track key allow (fun use => run (getItem E (derive E n)) (fun c => derive E n c true none) (deriveBody E key store use)) s

/-- `get` of a block (StarFile.nw 1629-1634). -/
def getOr (E : Engine) (call : Call) (key : Str) (default : PyVal) (s : St) : Res :=
  if s.block.contains key then getItem E call key s else some (s, .ok default)

end Derive
end Verif
