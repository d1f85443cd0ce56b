import Verif.Model.EditDic
import Verif.Model.Import
/-! # Importing definitions from other dictionaries

Models `obtain_imports` with `heavy` set (CifFile_module.nw 1646-1686), `ddlm_import` (1693-1741) and the part of
`ddlm_import_light` about full imports (1760-1775) with `lookup_imports` (1782-1789), on dictionaries without dREL. Definitions are
blocks with an empty cache of their own. Finding the file of an import and opening it is a parameter (`load`). Blocks are
values: that the importing dictionary and the imported one share the blocks of definitions is not modelled. What is printed is left
out. -/
namespace Verif.CifDic
open Validate Import

variable [CaseFold]

/-- One duplicate key in `merge_fast` (StarFile.nw 703-719) on a dictionary, whose `_rekey` uses the methods of `CifDic`; see
`Coll.mergeDup`. -/
def baseMergeDup (d : CifDic) (nb : Coll) (parent : Option Str) (dup : Str) : CifDic × Coll × Except PyErr (Option Str) :=
  match dget d.coll.childTable dup, dget nb.childTable dup with
  | some ours, some theirs =>
    if (ours.parent = none ∧ theirs.parent ≠ none ∧ parent = none) ∨ parent ≠ none then
      let new := Coll.freshKey d.coll.lowerKeys (d.coll.lowerKeys.length + 1) dup
      match baseRekey d dup new [] with
      | (d', .error e) => (d', nb, .error e)
      | (d', .ok ()) =>
        match parent with
        | none => (d', nb, .error .attribute)   -- `None.lower()`
        | some p => (d', nb, .ok (some (if lower p = dup then new else p)))
    else if ours.parent ≠ none ∧ theirs.parent = none ∧ parent = none then
      match nb.rekey dup (Coll.freshKey nb.lowerKeys (nb.lowerKeys.length + 1) dup) [] with
      | (nb', .error e) => (d, nb', .error e)
      | (nb', .ok ()) => (d, nb', .ok parent)
    else (d, nb, .error .star)
  | _, _ => (d, nb, .error .key)

/-- The loop over duplicate keys (StarFile.nw 701-719). -/
def baseMergeDups (d : CifDic) (nb : Coll) (parent : Option Str) : List Str → CifDic × Coll × Except PyErr (Option Str)
  | [] => (d, nb, .ok parent)
  | k :: ks =>
    match baseMergeDup d nb parent k with
    | (d', nb', .error e) => (d', nb', .error e)
    | (d', nb', .ok p) => baseMergeDups d' nb' p ks

/-- `merge_fast` (StarFile.nw 686-729) on a dictionary. The parent is given by its key. -/
def baseMergeFast (d : CifDic) (nb : Coll) (parent : Option Str) : CifDic × Except PyErr Unit :=
  let dups := d.coll.lowerKeys.filter fun k => decide (k ∈ nb.lowerKeys)
  if dups ≠ [] ∧ d.coll.standard ≠ none then
    match baseMergeDups d nb parent dups with
    | (d', _, .error e) => (d', .error e)
    | (d', nb', .ok p) => ({ d' with coll := d'.coll.mergeJoin nb' p }, .ok ())
  else ({ d with coll := d.coll.mergeJoin nb parent }, .ok ())

/-- `self[self.get_parent(parent_block)]` (CifFile_module.nw 1699), as the key of the block found; `self[None]` is `None`. A block
found in an imported dictionary is not in `self.dictionary`, which raises a `StarError` in `merge_fast` (StarFile.nw 697-698). -/
def syntacticHead (d : CifDic) : Option Str → Except PyErr (Option Str)
  | none => .ok none
  | some p =>
    match d.getItem p with
    | .error e => .error e
    | .ok _ =>
      match locate d p with
      | some k => .ok (some k)
      | none => .error .star

/-- A value used as the name of a category: `catname.lower()` in `ddlm_immediate_children`. -/
def textOf : PyVal → Except PyErr Str
  | .str s => .ok s
  | _ => .error .attribute

/-- Whether a `Head` is imported into a `Head` (CifFile_module.nw 1703-1705). -/
def headToHead (d : CifDic) (parentBlock : Str) (target : Block) : Except PyErr Bool :=
  match isClass d "Datum".toList "Head".toList parentBlock with
  | .error e => .error e
  | .ok false => .ok false
  | .ok true =>
    match getD target classAttr (.str "Datum".toList) with
    | .error e => .error e
    | .ok v => .ok (decide (v = .str "Head".toList))

/-- The names of the definitions to be added (CifFile_module.nw 1706-1708). -/
def childFrames (l : List Str) (fromCat : Str) (headed : Bool) : Except PyErr (List Str) :=
  if headed then .ok l
  else match pyRemove l fromCat with
    | some l' => .ok l'
    | none => .error .value

/-- The blocks of these definitions (CifFile_module.nw 1710-1711). -/
def framesOf (imp : CifDic) (frames : List Str) : Except PyErr Coll :=
  match mapE (fun a => match dget imp.table (lower a) with
    | some k => .ok k
    | none => .error .key) frames with
  | .error e => .error e
  | .ok ks => imp.coll.makebc ks

/-- The blocks whose identifier is known already (CifFile_module.nw 1713-1714). -/
def doubleDefs (d : CifDic) (cb : Coll) : Except PyErr (List Str) :=
  select (fun a =>
    match cb.getItem a with
    | .error e => .error e
    | .ok b =>
      match getD b idAttr (.str []) with
      | .error e => .error e
      | .ok v =>
        match lowered v with
        | .error e => .error e
        | .ok i => .ok (d.contains i)) cb.keys

/-- The blocks without those (CifFile_module.nw 1713-1717). -/
def prune (d : CifDic) (cb : Coll) : Except PyErr Coll :=
  match doubleDefs d cb with
  | .error e => .error e
  | .ok ks =>
    match Coll.forEach Coll.delItem cb ks with
    | (_, .error e) => .error e
    | (cb', .ok ()) => .ok cb'

/-- `create_def_block_table` (CifFile_module.nw 1139-1155) once more (1723). -/
def retable (d : CifDic) : CifDic × Except PyErr Unit :=
  read d (defTable d.coll d.lang) fun t => ({ d with table := t }, .ok ())

/-- The body of the loop over the children of the old `Head` (CifFile_module.nw 1728-1731). -/
def reparent (cat : PyVal) (d : CifDic) (f : Str) : CifDic × Except PyErr Unit :=
  seq (setOverwrite true d f) fun d _ =>
    seq (setAttr d f catAttr cat) fun d _ => setOverwrite false d f

/-- Head into Head (CifFile_module.nw 1725-1733). -/
def joinHeads (d : CifDic) (fromCat : Str) (cat : PyVal) : CifDic × Except PyErr Unit :=
  read d (immediateChildren d fromCat) fun children =>
    seq (each (reparent cat) d children) fun d _ => delItem d fromCat

/-- `self[d]['_definition.id']==from_frame` (CifFile_module.nw 1736). -/
def hasId (d : CifDic) (v : PyVal) (k : Str) : Except PyErr Bool :=
  match attrI d k idAttr with
  | .error e => .error e
  | .ok w => .ok (decide (w = v))

/-- A category that becomes the child of another (CifFile_module.nw 1735-1738). -/
def joinCategory (d imp : CifDic) (targetKey : Str) (cat : PyVal) : CifDic × Except PyErr Unit :=
  read d (attrI imp targetKey idAttr) fun fromFrame =>
    read d (select (hasId d fromFrame) d.keys) fun found =>
      match found with
      | [] => (d, .error .index)
      | f :: _ => setAttr d f catAttr cat

/-- `del self[key][attr]`. -/
def delAttr (d : CifDic) (key attr : Str) : CifDic × Except PyErr Unit :=
  match d.getItem key with
  | .error e => (d, .error e)
  | .ok b =>
    match b.removeItem attr with
    | (b', r) => (putBlock d key b', r)

/-- The syntactic merge (CifFile_module.nw 1699-1723). The name of the imported category and whether a `Head` is imported into a
`Head`. -/
def syntacticMerge (d : CifDic) (parentBlock : Str) (imp : CifDic) (target : Block) : CifDic × Except PyErr (Str × Bool) :=
  read d (d.coll.getParent parentBlock) fun gp =>
    read d (syntacticHead d gp) fun head =>
      read d (target.getItem objAttr) fun obj =>
        read d (textOf obj) fun fromCat =>
          read d (imp.allChildren fromCat) fun all =>
            read d (headToHead d parentBlock target) fun headed =>
              read d (childFrames all fromCat headed) fun frames =>
                read d (framesOf imp frames) fun cb =>
                  read d (prune d cb) fun cb =>
                    seq (baseMergeFast d cb head) fun d _ =>
                      seq (retable d) fun d _ => (d, .ok (fromCat, headed))

/-- `ddlm_import` in full mode (CifFile_module.nw 1697-1738), without the last line. -/
def importFull (d : CifDic) (parentBlock : Str) (imp : CifDic) (target : Block) (targetKey : Str) : CifDic × Except PyErr Unit :=
  seq (syntacticMerge d parentBlock imp target) fun d r =>
    read d (attrI d parentBlock objAttr) fun cat =>
      if r.2 then joinHeads d r.1 cat else joinCategory d imp targetKey cat

/-- `ddlm_import` in contents mode (CifFile_module.nw 1695-1696), without the last line. -/
def importContents (d : CifDic) (parentBlock : Str) (target : Block) : CifDic × Except PyErr Unit :=
  match d.getItem parentBlock with
  | .error e => (d, .error e)
  | .ok b =>
    match b.merge target .strict with
    | (b', r) => (putBlock d parentBlock b', r)

/-- `ddlm_import` (CifFile_module.nw 1693-1741). -/
def ddlmImport (d : CifDic) (parentBlock : Str) (imp : CifDic) (target : Block) (targetKey mode : Str) : CifDic × Except PyErr Unit :=
  seq (if mode = contentsMode then importContents d parentBlock target
    else if mode = fullMode then importFull d parentBlock imp target targetKey
    else (d, .ok ())) fun d _ => delAttr d parentBlock importAttr

/-- The dictionary of a file; `resolve_path` splits its name. -/
def openImport (load : Str → Except PyErr CifDic) : PyVal → Except PyErr CifDic
  | .str f => load f
  | _ => .error .attribute

/-- `import_from[target_key]` and what is done if it is missing (CifFile_module.nw 1670-1675): `none` to go on with the next one. -/
def importTarget (imp : CifDic) (key miss : PyVal) : Except PyErr (Option (Str × Block)) :=
  match key with
  | .str k =>
    match imp.getItem k with
    | .ok b => .ok (some (k, b))
    | .error .key => if miss = exitVal then .error .cif else .ok none
    | .error e => .error e
  | _ => .error .attribute

/-- One turn of the inner loop of `obtain_imports` (CifFile_module.nw 1659-1684) for heavy imports. -/
def heavyRef (load : Str → Except PyErr CifDic) (parentBlock : Str) (d : CifDic) (ref : PyVal) : CifDic × Except PyErr Unit :=
  read d (field ref "file") fun loc =>
    read d (openImport load loc) fun imp =>
      read d (fieldD ref "dupl" "Exit") fun dupl =>
        read d (fieldD ref "miss" "Exit") fun miss =>
          read d (field ref "save") fun key =>
            read d (importTarget imp key miss) fun found =>
              match found with
              | none => (d, .ok ())
              | some (k, target) =>
                read d (modeOf ref) fun mode =>
                  read d (duplicate d.contains mode key dupl) fun skip =>
                    if skip then (d, .ok ()) else ddlmImport d parentBlock imp target k mode

/-- The inner loop (CifFile_module.nw 1659). -/
def heavyRefs (load : Str → Except PyErr CifDic) (parentBlock : Str) (d : CifDic) : List PyVal → CifDic × Except PyErr Unit
  | [] => (d, .ok ())
  | r :: rs => seq (heavyRef load parentBlock d r) fun d _ => heavyRefs load parentBlock d rs

/-- The outer loop (CifFile_module.nw 1658). -/
def heavyFrames (load : Str → Except PyErr CifDic) (d : CifDic) : List (Str × List PyVal) → CifDic × Except PyErr Unit
  | [] => (d, .ok ())
  | p :: ps => seq (heavyRefs load p.1 d p.2) fun d _ => heavyFrames load d ps

/-- The definitions with imports and the references in them (CifFile_module.nw 1649), which are looked up before anything is
imported. Iterating over the references is done at the same time here. -/
def importFrames (d : CifDic) : Except PyErr (List (Str × List PyVal)) :=
  match select (fun a => match d.getItem a with
    | .error e => .error e
    | .ok b => .ok (b.contains importAttr)) d.keys with
  | .error e => .error e
  | .ok names =>
    mapE (fun a =>
      match attrI d a importAttr with
      | .error e => .error e
      | .ok v =>
        match Block.pyIter v with
        | .error e => .error e
        | .ok refs => .ok (a, refs)) names

/-- `obtain_imports(import_mode='All',heavy=True)` (CifFile_module.nw 1646-1684). -/
def obtainHeavy (load : Str → Except PyErr CifDic) (d : CifDic) : CifDic × Except PyErr Unit :=
  read d (importFrames d) fun frames => heavyFrames load d frames

/-! ## Light imports -/

/-- What `lookup_imports` (CifFile_module.nw 1782-1789) uses of a dictionary imported with a head of this identifier. -/
def importedFrom (imp : CifDic) (headId : Str) : Imported where
  reach :=
    match attrI imp headId objAttr with
    | .error e => .error e
    | .ok v =>
      match textOf v with
      | .error e => .error e
      | .ok s => imp.allChildren s
  find := imp.getItem

/-- `ddlm_import_light` in full mode (CifFile_module.nw 1760-1775): the imported dictionary is listed first. If the imported
category is not a `Head` imported into a `Head` its category is changed, in the imported dictionary. -/
def importLight (d : CifDic) (parentBlock : Str) (imp : CifDic) (target : Block) (targetKey : Str) : CifDic × Except PyErr CifDic :=
  read d (headToHead d parentBlock target) fun headed =>
    read d (target.getItem idAttr) fun headId =>
      read d (attrI d parentBlock objAttr) fun cat =>
        read d (target.getItem objAttr) fun _ =>
          match (if headed then (imp, .ok ()) else setAttr imp targetKey catAttr cat) with
          | (_, .error e) => (d, .error e)
          | (imp', .ok ()) =>
            read d (textOf headId) fun h => ({ d with imports := importedFrom imp' h :: d.imports }, .ok imp')

end Verif.CifDic
