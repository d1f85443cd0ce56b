import Verif.Model.CifDic
/-! # Editing a dictionary

The methods of `CifDic` that change definitions (CifFile_module.nw 1169-1191, 1222-1250, 1371-1502), for a dictionary whose
`block_id_table` exists. They call the methods of `BlockCollection` (StarFile.nw 322-336, 526-616), which in turn look up
and delete blocks with `self[...]` and `del self[...]`, that is with the methods of `CifDic`: the functions `base...` below model
them so, and differ in this from those in `Model/Collection.lean`. Definitions found in dictionaries imported in full mode are
not part of the state: a change to one of them leaves the model as it is. What is printed is left out. -/
namespace Verif.CifDic
open Validate

/-- The attribute holding the identifier of a definition. -/
def idAttr : Str := "_definition.id".toList

/-- The attribute holding the description. -/
def textAttr : Str := "_description.text".toList

/-- The attribute that tells a dictionary block. -/
def titleAttr : Str := "_dictionary.title".toList

/-- Carry on unless an exception was raised. -/
def seq {α β : Type} (r : CifDic × Except PyErr α) (f : CifDic → α → CifDic × Except PyErr β) : CifDic × Except PyErr β :=
  match r with
  | (d, .error e) => (d, .error e)
  | (d, .ok a) => f d a

/-- Read something, then carry on unless an exception was raised. -/
def read {α β : Type} (d : CifDic) (r : Except PyErr α) (f : α → CifDic × Except PyErr β) : CifDic × Except PyErr β :=
  match r with
  | .error e => (d, .error e)
  | .ok a => f a

/-- A `for` loop that stops at the first exception. -/
def each (f : CifDic → Str → CifDic × Except PyErr Unit) (d : CifDic) : List Str → CifDic × Except PyErr Unit
  | [] => (d, .ok ())
  | k :: ks => seq (f d k) fun d' _ => each f d' ks

variable [CaseFold]

/-- The block that `self[key]` finds in this dictionary (CifFile_module.nw 1157-1167); `none` when it is an imported one. -/
def locate (d : CifDic) (key : Str) : Option Str :=
  match byId d key with
  | .ok _ => (dget d.table (lower key)).map lower
  | .error _ =>
    match d.coll.getItem key with
    | .ok _ => some (lower key)
    | .error _ => none

/-- Change the block that `self[key]` stands for. -/
def putBlock (d : CifDic) (key : Str) (b : Block) : CifDic :=
  match locate d key with
  | some k => { d with coll := { d.coll with dict := dset d.coll.dict k b } }
  | none => d

/-- `self[key][attr] = v`. -/
def setAttr (d : CifDic) (key attr : Str) (v : PyVal) : CifDic × Except PyErr Unit :=
  match d.getItem key with
  | .error e => (d, .error e)
  | .ok b =>
    match b.setItem attr v with
    | (b', r) => (putBlock d key b', r)

/-- `self[key].overwrite = v`. -/
def setOverwrite (v : Bool) (d : CifDic) (key : Str) : CifDic × Except PyErr Unit :=
  match d.getItem key with
  | .error e => (d, .error e)
  | .ok b => (putBlock d key { b with overwrite := v }, .ok ())

/-- `unlock` (CifFile_module.nw 1222-1225). -/
def unlock (d : CifDic) : CifDic × Except PyErr Unit := each (setOverwrite true) d d.keys

/-- `lock` (CifFile_module.nw 1227-1230). -/
def lock (d : CifDic) : CifDic × Except PyErr Unit := each (setOverwrite false) d d.keys

/-! ## Deleting -/

/-- `BlockCollection.__delitem__` (StarFile.nw 322-336) on a dictionary; `del_` is `del self[child]`. -/
def baseDel (del_ : CifDic → Str → CifDic × Except PyErr Unit) (d : CifDic) (key : Str) : CifDic × Except PyErr Unit :=
  match d.getItem key with
  | .error e => (d, .error e)
  | .ok _ =>
    seq (each del_ d (d.coll.children (lower key))) fun d' _ =>
      match d'.coll.removeKey (lower key) with
      | (c, r) => ({ d' with coll := c }, r)

/-- `__delitem__` (CifFile_module.nw 1184-1191) with a bound on nested calls; running out of it is Python's `RecursionError`.
A `KeyError` or `AttributeError` from the first attempt, or from removing the entry of the table, leads to the second. -/
def delFuel : Nat → CifDic → Str → CifDic × Except PyErr Unit
  | 0, d, _ => (d, .error .depth)
  | n + 1, d, key =>
    match dget d.table (lower key) with
    | none => baseDel (delFuel n) d key
    | some k =>
      match baseDel (delFuel n) d k with
      | (d', .ok ()) =>
        if lower key ∈ dkeys d'.table then ({ d' with table := ddel d'.table (lower key) }, .ok ())
        else baseDel (delFuel n) d' key
      | (d', .error .key) => baseDel (delFuel n) d' key
      | (d', .error .attribute) => baseDel (delFuel n) d' key
      | (d', .error e) => (d', .error e)

/-- `del self[key]` (CifFile_module.nw 1184-1191). Blocks are not nested deeper than their number. -/
def delItem (d : CifDic) (key : Str) : CifDic × Except PyErr Unit := delFuel (d.coll.childTable.length + 1) d key

/-! ## Moving and adding blocks -/

/-- `BlockCollection._rekey` (StarFile.nw 586-605) on a dictionary. -/
def baseRekey (d : CifDic) (old new blockId : Str) : CifDic × Except PyErr Unit :=
  match d.getItem old with
  | .error e => (d, .error e)
  | .ok moveBlock =>
    match dget d.coll.childTable old with
    | none => (d, .error .key)
    | some info =>
      let moved := (d.coll.childTable.filter fun a => decide (a.2.parent = some old)).map
        fun a => (a.1, { a.2 with parent := some new })
      let d1 := { d with coll := { d.coll with childTable := dupdate d.coll.childTable moved } }
      if old ∉ d.coll.inputOrder then (d1, .error .value)
      else
        let pos := d.coll.inputOrder.idxOf old
        seq (delItem d1 old) fun d2 _ =>
          let c := d2.coll
          ({ d2 with coll := { c with
             dict := dset c.dict new moveBlock
             lowerKeys := if new ∈ c.lowerKeys then c.lowerKeys else c.lowerKeys ++ [new]
             inputOrder := c.inputOrder.take pos ++ new :: c.inputOrder.drop pos
             childTable := dset c.childTable new (if blockId = [] then info else ⟨blockId, info.parent⟩)
             visible := if old ∈ d.coll.visible then c.visible ++ [new] else c.visible } }, .ok ())

/-- `BlockCollection.rename` (StarFile.nw 607-616) on a dictionary. -/
def baseRename (d : CifDic) (oldname newname : Str) : CifDic × Except PyErr Unit :=
  if lower newname ∈ d.coll.lowerKeys then (d, .error .star)
  else if lower oldname ∉ d.coll.lowerKeys then (d, .error .key)
  else baseRekey d (lower oldname) (lower newname) newname

/-- The part of `BlockCollection.NewBlock` after checking the name (StarFile.nw 541-576). -/
def basePlace (d : CifDic) (name : Str) (b : Block) (parent : Option Str) : CifDic × Except PyErr Str :=
  let k := lower name
  if k ∈ d.coll.lowerKeys then
    match d.coll.standard with
    | some _ =>
      match parent with
      | none =>
        if k ∉ d.coll.topLevel then
          let k' := Coll.freshKey d.coll.lowerKeys (d.coll.lowerKeys.length + 1) k
          ({ d with coll := d.coll.addBlock k' name b none }, .ok k')
        else (d, .error .star)
      | some p =>
        if k ∈ d.coll.topLevel then
          let r := Coll.freshKey d.coll.lowerKeys (d.coll.lowerKeys.length + 1) k
          seq (baseRekey d k r []) fun d' _ =>
            ({ d' with coll := d'.coll.addBlock k name b (if lower p = k then some r else some p) }, .ok k)
        else (d, .error .star)
    | none => seq (delItem d k) fun d' _ => ({ d' with coll := d'.coll.addBlock k name b parent }, .ok k)
  else ({ d with coll := d.coll.addBlock k name b parent }, .ok k)

/-- `BlockCollection.NewBlock` (StarFile.nw 526-576) on a dictionary. `self[new_lowerbn]` in its last lines, which sets
grammar and character set, is taken to be the new block. -/
def baseNewBlock (d : CifDic) (blockname : Str) (contents : Block) (fix : Bool) (parent : Option Str) : CifDic × Except PyErr Str :=
  match d.coll.prepare contents with
  | (_, .error e) => (d, .error e)
  | (b, .ok ()) =>
    if blockname.length > 75 then (d, .error .star)
    else basePlace d (if fix then Coll.fixName blockname else blockname) b parent

/-! ## Methods of the dictionary -/

/-- Enter an identifier in the table; only texts are identifiers here (a list would raise a TypeError). -/
def enter (d : CifDic) (key : PyVal) (blockKey : Str) : CifDic × Except PyErr Unit :=
  match key with
  | .str s => ({ d with table := dset d.table s blockKey }, .ok ())
  | _ => (d, .error .type)

/-- `NewBlock` (CifFile_module.nw 1177-1182). -/
def newBlock (d : CifDic) (blockname : Str) (contents : Block := {}) (fix : Bool := true) (parent : Option Str := none) :
    CifDic × Except PyErr Unit :=
  seq (baseNewBlock d blockname contents fix parent) fun d newname =>
    read d (attrI d newname idAttr) fun v => enter d v newname

/-- `dic[key] = value` (CifFile_module.nw 1169-1175, StarFile.nw 305-306). -/
def setItem (d : CifDic) (key : Str) (value : Block) : CifDic × Except PyErr Unit :=
  seq (newBlock d key value true none) fun d _ =>
    read d (value.getItem idAttr) fun v => enter d v key

/-- `rename` (CifFile_module.nw 1232-1243). -/
def rename (d : CifDic) (oldname newname : Str) (blocknameAsWell : Bool := true) : CifDic × Except PyErr Unit :=
  match dget d.table (lower oldname) with
  | none => (d, .error .key)
  | some k =>
    if blocknameAsWell then
      seq (baseRename d k newname) fun d _ =>
        ({ d with table := ddel (dset d.table (lower newname) newname) (lower oldname) }, .ok ())
    else ({ d with table := ddel (dset d.table (lower newname) k) (lower oldname) }, .ok ())

/-- `create_catobj_name` (CifFile_module.nw 1390-1392). -/
def catobjName : PyVal → PyVal → Except PyErr Str
  | .str cat, .str obj => .ok ('_' :: (cat ++ '.' :: obj))
  | _, _ => .error .type

/-- The body of the loop of `change_category_name` (CifFile_module.nw 1383-1387). -/
def recategorise (newname : Str) (d : CifDic) (child : Str) : CifDic × Except PyErr Unit :=
  seq (setAttr d child catAttr (.str newname)) fun d _ =>
    read d (isScope d "Item".toList child) fun item =>
      if item then
        read d (attrI d child objAttr) fun obj =>
          read d (catobjName (.str newname) obj) fun newid =>
            seq (setAttr d child idAttr (.str newid)) fun d _ => rename d child (newid.drop 1)
      else (d, .ok ())

/-- `change_category_name` (CifFile_module.nw 1371-1388). -/
def changeCategoryName (d : CifDic) (oldname newname : Str) : CifDic × Except PyErr Unit :=
  seq (unlock d) fun d _ =>
    if ¬ d.contains oldname then (d, .error .key)
    else if d.contains newname then (d, .error .key)
    else
      read d (immediateChildren d oldname) fun children =>
        seq (rename d oldname newname) fun d _ =>
          seq (setAttr d newname objAttr (.str newname)) fun d _ =>
            seq (setAttr d newname idAttr (.str newname)) fun d _ =>
              seq (each (recategorise newname) d children) fun d _ => lock d

/-- The renaming part of `change_category` (CifFile_module.nw 1406-1409). -/
def reidentify (d : CifDic) (itemname catname : Str) (objid : PyVal) : CifDic × Except PyErr Str :=
  read d (isScope d "Item".toList itemname) fun item =>
    if item then
      read d (catobjName (.str catname) objid) fun newid =>
        seq (setAttr d itemname idAttr (.str newid)) fun d _ =>
          seq (rename d itemname newid) fun d _ => (d, .ok newid)
    else (d, .ok itemname)

/-- `change_category` (CifFile_module.nw 1394-1413). `defid` stays the block of the item until it is renamed. -/
def changeCategory (d : CifDic) (itemname catname : Str) : CifDic × Except PyErr Str :=
  read d (attrI d itemname catAttr) fun cat =>
    read d (lowered cat) fun cat =>
      if cat = lower catname then (d, .ok itemname)
      else if ¬ d.contains catname then (d, .ok itemname)
      else
        seq (unlock d) fun d _ =>
          read d (attrI d itemname objAttr) fun objid =>
            seq (setAttr d itemname catAttr (.str catname)) fun d _ =>
              seq (reidentify d itemname catname objid) fun d newid =>
                match d.coll.setParent catname newid with
                | (c, .error e) => ({ d with coll := c }, .error e)
                | (c, .ok ()) => seq (lock { d with coll := c }) fun d _ => (d, .ok newid)

/-- `change_name` (CifFile_module.nw 1415-1430). -/
def changeName (d : CifDic) (oneDef newobj : Str) : CifDic × Except PyErr Str :=
  read d (d.getItem oneDef) fun b =>
    if ¬ b.contains titleAttr then
      read d (b.getItem catAttr) fun cat =>
        read d (catobjName cat (.str newobj)) fun newid =>
          seq (unlock d) fun d _ =>
            seq (rename d oneDef newid) fun d _ =>
              seq (setAttr d newid idAttr (.str newid)) fun d _ =>
                seq (setAttr d newid objAttr (.str newobj)) fun d _ =>
                  seq (lock d) fun d _ => (d, .ok newid)
    else
      seq (unlock d) fun d _ =>
        seq (rename d oneDef newobj) fun d _ =>
          seq (setAttr d newobj titleAttr (.str newobj)) fun d _ =>
            seq (lock d) fun d _ => (d, .ok newobj)

/-- `self.get_roots()[0][0]` (CifFile_module.nw 1444, 1481; StarFile.nw 416-418). -/
def firstRoot (d : CifDic) : Except PyErr Str :=
  match d.coll.topLevel with
  | [] => .error .index
  | k :: _ => .ok k

/-- The semantic parent of a new category (CifFile_module.nw 1445-1452). -/
def semanticRoot (d : CifDic) (root : Str) : Option Str → Except PyErr Str
  | some p => .ok p
  | none =>
    match select (isClass d [] "Head".toList) d.keys with
    | .error e => .error e
    | .ok [] => .ok root
    | .ok (h :: _) => .ok h

/-- The parent category recorded in a new category (CifFile_module.nw 1456-1459). -/
def parentValue (d : CifDic) (root : Str) (catparent : Option Str) (allowDangler : Bool) : Except PyErr PyVal :=
  match allowDangler, catparent with
  | true, some p => .ok (.str p)
  | _, _ => attrI d root objAttr

/-- `self[key][a] = v` for each pair. -/
def setAttrs (d : CifDic) (key : Str) : List (Str × PyVal) → CifDic × Except PyErr Unit
  | [] => (d, .ok ())
  | (a, v) :: r => seq (setAttr d key a v) fun d _ => setAttrs d key r

/-- `add_category` (CifFile_module.nw 1434-1467). -/
def addCategory (d : CifDic) (catname : Str) (catparent : Option Str := none) (isLoop : Bool := true) (allowDangler : Bool := false) :
    CifDic × Except PyErr Str :=
  if d.contains catname then (d, .error .cif)
  else
    seq (unlock d) fun d _ =>
      read d (firstRoot d) fun root =>
        read d (semanticRoot d root catparent) fun parent =>
          seq (baseNewBlock d catname {} true (some root)) fun d realname =>
            let d := { d with table := dset d.table (lower catname) realname }
            seq (setAttr d catname objAttr (.str catname)) fun d _ =>
              read d (parentValue d parent catparent allowDangler) fun pv =>
                seq (setAttrs d catname [(catAttr, pv), (idAttr, .str catname), (scopeAttr, .str "Category".toList),
                  (classAttr, .str (if isLoop then "Loop".toList else "Set".toList)),
                  (textAttr, .str "No definition provided".toList)]) fun d _ =>
                  seq (lock d) fun d _ => (d, .ok catname)

/-- The text after the last full stop, without underscores at its ends (CifFile_module.nw 1474-1478). -/
def objectName (itemname : Str) : Str :=
  let tail := (itemname.reverse.takeWhile fun c => decide (c ≠ '.')).reverse
  ((tail.dropWhile fun c => decide (c = '_')).reverse.dropWhile fun c => decide (c = '_')).reverse

/-- `catparent not in self or self[catparent]['_definition.scope']!='Category'` (CifFile_module.nw 1479). -/
def noCategory (d : CifDic) (catparent : Str) : Except PyErr Bool :=
  if ¬ d.contains catparent then .ok true
  else match attrI d catparent scopeAttr with
    | .error e => .error e
    | .ok v => .ok (decide (v ≠ .str "Category".toList))

/-- `add_definition` (CifFile_module.nw 1469-1492). -/
def addDefinition (d : CifDic) (itemname catparent defText : Str) (allowDangler : Bool := false) : CifDic × Except PyErr Str :=
  seq (unlock d) fun d _ =>
    let objname := objectName itemname
    read d (if allowDangler then .ok false else noCategory d catparent) fun bad =>
      if bad then (d, .error .cif)
      else
        let fullname := '_' :: (lower catparent ++ '.' :: objname)
        read d (firstRoot d) fun root =>
          seq (baseNewBlock d fullname {} false (some root)) fun d realname =>
            let d := { d with table := dset d.table fullname realname }
            seq (setAttrs d fullname [(idAttr, .str fullname), (objAttr, .str objname), (catAttr, .str catparent),
              (classAttr, .str "Datum".toList), (textAttr, .str defText)]) fun d _ => (d, .ok realname)

/-- `remove_definition` (CifFile_module.nw 1494-1502) with a bound on nested calls; running out of it is Python's
`RecursionError`. -/
def removeFuel : Nat → CifDic → Str → CifDic × Except PyErr Unit
  | 0, d, _ => (d, .error .depth)
  | n + 1, d, defname =>
    if ¬ d.contains defname then (d, .ok ())
    else
      read d (attrD d defname scopeAttr .none) fun scope =>
        if scope = .str "Category".toList then
          read d (immediateChildren d defname) fun children =>
            seq (each (removeFuel n) d children) fun d _ =>
              read d (attrI d defname idAttr) fun id =>
                read d (lowered id) fun _ => delItem d defname
        else delItem d defname

/-- `remove_definition` (CifFile_module.nw 1494-1502). Categories are not nested deeper than the number of definitions, unless one is
below itself, when the recursion never ends. -/
def removeDefinition (d : CifDic) (defname : Str) : CifDic × Except PyErr Unit := removeFuel (d.table.length + 1) d defname

end Verif.CifDic
