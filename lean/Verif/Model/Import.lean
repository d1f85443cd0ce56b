import Verif.Model.CifDic
/-! # Imports between definitions

Models `DicBlock` (CifFile_module.nw 444-496), which reads attributes of a definition through its `_import.get`, and the part of
`obtain_imports` that fills its cache (CifFile_module.nw 1646-1686 with 1754-1775), and the merging of attributes for `heavy`
imports (1693-1696, 1739). Finding the file of an import is a parameter. -/
namespace Verif
open Validate
namespace Import

/-- What is used of the definition that an import refers to: `name in definition` and `definition[name]`. -/
structure Target where
  contains : Str → Bool
  getItem : Str → Except PyErr PyVal

/-- What is used of an imported dictionary: its lookup of definitions. -/
abbrev Source := Str → Except PyErr Target

/-- A `DicBlock` (CifFile_module.nw 444-450): a block and the dictionaries known to it. -/
structure DicBlock where
  own : Block
  cache : Dict Str Source := []

/-- The name of the attribute that lists imports. -/
def importAttr : Str := "_import.get".toList

/-- `import_ref[name]`: `KeyError` if it is not there; only tables can be indexed by a text. -/
def field (ref : PyVal) (name : String) : Except PyErr PyVal :=
  match ref with
  | .sdict d => match dget d name.toList with
    | some v => .ok v
    | none => .error .key
  | _ => .error .type

/-- `import_ref.get(name,default)` -/
def fieldD (ref : PyVal) (name : String) (dflt : String) : Except PyErr PyVal :=
  match ref with
  | .sdict d => match dget d name.toList with
    | some v => .ok v
    | none => .ok (.str dflt.toList)
  | _ => .error .attribute

/-- The dictionary of a reference (CifFile_module.nw 476-478). -/
def cached (cache : Dict Str Source) (loc : PyVal) : Except PyErr Source :=
  match loc with
  | .str f => match dget cache f with
    | some s => .ok s
    | none => .error .value
  | .none => .error .value
  | .num _ => .error .value
  | _ => .error .type

/-- `import_from[target_key]`; a key that is no text has no `lower`. -/
def targetOf (s : Source) (key : PyVal) : Except PyErr Target :=
  match key with
  | .str k => s k
  | _ => .error .attribute

/-- The text `Exit`. -/
def exitVal : PyVal := .str "Exit".toList

/-- `import_ref.get("mode",'Contents').lower()` -/
def modeOf [CaseFold] (ref : PyVal) : Except PyErr Str :=
  match fieldD ref "mode" "Contents" with
  | .error e => .error e
  | .ok v => CifDic.lowered v

/-- The mode that copies attributes. -/
def contentsMode : Str := "contents".toList

/-- The mode that adds definitions. -/
def fullMode : Str := "full".toList

/-- `import_target.get(dataname,latest_value)` (StarFile.nw 1629-1634). -/
def Target.getD (t : Target) (name : Str) (dflt : PyVal) : Except PyErr PyVal :=
  if t.contains name then t.getItem name else .ok dflt

variable [CaseFold]

/-- What a reference gives once its definition is known (CifFile_module.nw 487-490). -/
def fromTarget (ref : PyVal) (t : Target) (name : Str) (latest : PyVal) : Except PyErr PyVal :=
  match modeOf ref with
  | .error e => .error e
  | .ok m => if m = contentsMode then t.getD name latest else .ok latest

/-- One turn of the loop of `follow_import` (CifFile_module.nw 473-490). -/
def followRef (cache : Dict Str Source) (name : Str) (ref : PyVal) (latest : PyVal) : Except PyErr PyVal :=
  match field ref "file" with
  | .error e => .error e
  | .ok loc =>
  match cached cache loc with
  | .error e => .error e
  | .ok src =>
  match fieldD ref "miss" "Exit" with
  | .error e => .error e
  | .ok miss =>
  match field ref "save" with
  | .error e => .error e
  | .ok key =>
  match targetOf src key with
  | .error .key => if miss = exitVal then .error .cif else .ok latest
  | .error e => .error e
  | .ok t => fromTarget ref t name latest

/-- `follow_import` (CifFile_module.nw 469-491), from a value found before. -/
def followImport (cache : Dict Str Source) (name : Str) : List PyVal → PyVal → Except PyErr PyVal
  | [], latest => .ok latest
  | r :: rs, latest =>
    match followRef cache name r latest with
    | .error e => .error e
    | .ok v => followImport cache name rs v

namespace DicBlock

/-- The value found by way of imports (CifFile_module.nw 453-454). -/
def imported (b : DicBlock) (name : Str) : Except PyErr PyVal :=
  if b.own.contains importAttr && !b.cache.isEmpty then
    match b.own.getItem importAttr with
    | .error e => .error e
    | .ok v =>
      match Block.pyIter v with
      | .error e => .error e
      | .ok refs => followImport b.cache name refs .none
  else .ok .none

/-- The value of the block itself, or else the imported one (CifFile_module.nw 455-458). -/
def orElse (own : Except PyErr PyVal) (value : PyVal) : Except PyErr PyVal :=
  match own with
  | .ok v => .ok v
  | .error .key => .ok value
  | .error e => .error e

/-- `__getitem__` (CifFile_module.nw 451-461). -/
def getItem (b : DicBlock) (name : Str) : Except PyErr PyVal :=
  match b.imported name with
  | .error e => .error e
  | .ok value =>
    match orElse (b.own.getItem name) value with
    | .error e => .error e
    | .ok v => if v = .none then .error .key else .ok v

/-- `name in block` (StarFile.nw 1612-1615, not overridden). -/
def contains (b : DicBlock) (name : Str) : Bool := b.own.contains name

/-- `has_key` (CifFile_module.nw 463-468). -/
def hasKey (b : DicBlock) (name : Str) : Except PyErr Bool :=
  match b.getItem name with
  | .ok _ => .ok true
  | .error .key => .ok false
  | .error e => .error e

/-- `get` (StarFile.nw 1629-1634). -/
def getD (b : DicBlock) (name : Str) (dflt : PyVal) : Except PyErr PyVal :=
  if b.contains name then b.getItem name else .ok dflt

/-- The block as the target of an import. -/
def target (b : DicBlock) : Target := { contains := b.contains, getItem := b.getItem }

end DicBlock

/-! ## Registering imports -/

/-- A light import has no effect on the block for a definition already there, or raises, as `dupl` says
(CifFile_module.nw 1678-1682). -/
def duplicate (known : Str → Bool) (mode : Str) (key dupl : PyVal) : Except PyErr Bool :=
  match key with
  | .str k =>
    if known k && decide (mode = fullMode) then
      if dupl = exitVal then .error .cif else .ok (decide (dupl = .str "Ignore".toList))
    else .ok false
  | _ => .error .attribute

/-- What a reference adds to the cache of its block (CifFile_module.nw 1758-1759). -/
def register (mode : Str) (loc : PyVal) (src : Source) (cache : Dict Str Source) : Except PyErr (Dict Str Source) :=
  if mode = contentsMode then
    match loc with
    | .str f => .ok (dset cache f src)
    | _ => .error .type
  else .ok cache

/-- A file name as a text: `resolve_path` splits it. -/
def locate (load : Str → Except PyErr Source) : PyVal → Except PyErr Source
  | .str f => load f
  | _ => .error .attribute

/-- One turn of the inner loop of `obtain_imports` (CifFile_module.nw 1659-1686) for light imports. `load` finds the dictionary of
a file, `known` says which definitions the importing dictionary has. What a `Full` import does to the dictionary is left out. -/
def obtainRef (load : Str → Except PyErr Source) (known : Str → Bool) (ref : PyVal) (cache : Dict Str Source) :
    Except PyErr (Dict Str Source) :=
  match field ref "file" with
  | .error e => .error e
  | .ok loc =>
  match locate load loc with
  | .error e => .error e
  | .ok src =>
  match fieldD ref "dupl" "Exit" with
  | .error e => .error e
  | .ok dupl =>
  match fieldD ref "miss" "Exit" with
  | .error e => .error e
  | .ok miss =>
  match field ref "save" with
  | .error e => .error e
  | .ok key =>
  match targetOf src key with
  | .error .key => if miss = exitVal then .error .cif else .ok cache
  | .error e => .error e
  | .ok _ =>
  match modeOf ref with
  | .error e => .error e
  | .ok mode =>
  match duplicate known mode key dupl with
  | .error e => .error e
  | .ok true => .ok cache
  | .ok false => register mode loc src cache

/-- The inner loop. -/
def obtain (load : Str → Except PyErr Source) (known : Str → Bool) : List PyVal → Dict Str Source → Except PyErr (Dict Str Source)
  | [], cache => .ok cache
  | r :: rs, cache =>
    match obtainRef load known r cache with
    | .error e => .error e
    | .ok c => obtain load known rs c

/-- Imports of one definition (CifFile_module.nw 1649, 1658-1686), with all modes. -/
def obtainImports (load : Str → Except PyErr Source) (known : Str → Bool) (b : DicBlock) : Except PyErr DicBlock :=
  if b.own.contains importAttr then
    match b.getItem importAttr with
    | .error e => .error e
    | .ok v =>
      match Block.pyIter v with
      | .error e => .error e
      | .ok refs =>
        match obtain load known refs b.cache with
        | .error e => .error e
        | .ok c => .ok { b with cache := c }
  else .ok b

/-- A `heavy` import of attributes (CifFile_module.nw 1696, 1739): `merge` in its strict mode, then the reference is removed. -/
def heavyContents (own target : Block) : Block × Except PyErr Unit :=
  match own.merge target .strict with
  | (b, .error e) => (b, .error e)
  | (b, .ok ()) => b.removeItem importAttr

end Import
end Verif
