import Verif.Model.Validate
import Verif.Model.Collection
/-! # Validation of files, and blocks that are valid from the start

Models `Validate`, `ValidationResult` (CifFile_module.nw 3807-3901) and the methods of `ValidCifBlock`
(CifFile_module.nw 3537-3748) that are not in `Model/Validate.lean`. Messages on the screen and the text of reports are
not modelled. -/
namespace Verif
namespace Validate
variable [CaseFold]

/-- `for nogood in no_matches[block]: del check_file[block][nogood]` (CifFile_module.nw 3897-3898). -/
def dropNames (b : Block) : List Str → Block × Except PyErr Unit
  | [] => (b, .ok ())
  | n :: r =>
    match b.removeItem n with
    | (b', .error e) => (b', .error e)
    | (b', .ok ()) => dropNames b' r

/-- The block `check_file[k]` has been changed in place. -/
def setBlock (c : Coll) (k : Str) (b : Block) : Coll := { c with dict := dset c.dict (lower k) b }

/-- What `Validate` returns (CifFile_module.nw 3870-3871, 3901): for each block its verdict with the report, and the names
that are not in the dictionary. -/
structure FileResult where
  valid : Dict Str (Bool × Dict Str Results) := []
  noMatches : Dict Str (List Str) := []

/-- The names of a block that the dictionary does not know (CifFile_module.nw 3894). -/
def unknownNames (D : Dic) (b : Block) : List Str := b.keys.filter fun a => !D.known a

/-- The loop over the blocks in `Validate` (CifFile_module.nw 3887-3900). -/
def validateBlocks (D : Dic) (C : Checks) (c : Coll) (r : FileResult) : List Str → Coll × Except PyErr FileResult
  | [] => (c, .ok r)
  | k :: ks =>
    match c.getItem k with
    | .error e => (c, .error e)
    | .ok b =>
      match dropNames b (unknownNames D b) with
      | (b', .error e) => (setBlock c k b', .error e)
      | (b', .ok ()) =>
        match runDataChecks C b' with
        | .error e => (setBlock c k b', .error e)
        | .ok v =>
          validateBlocks D C (setBlock c k b')
            { valid := dset r.valid k v, noMatches := dset r.noMatches k (unknownNames D b) } ks

/-- `Validate` (CifFile_module.nw 3857-3901) for a file given as an object and a single dictionary. With `isdic` the save
frames become visible; what is done in addition for DDL2 dictionaries (3876-3885) is not modelled. The scope of a block
is handed on (3900), but no check looks at it. -/
def validateFile (D : Dic) (C : Checks) (c : Coll) (isdic : Bool := false) : Coll × Except PyErr FileResult :=
  if isdic then
    let c1 := c.setScoping .instance
    match c1.keys with
    | [] => (c1, .error .index)
    | _ :: _ =>
      let c2 := c1.setScoping .dictionary
      validateBlocks D C c2 {} c2.keys
  else validateBlocks D C c {} c.keys

/-- `is_valid` of `ValidationResult` (CifFile_module.nw 3817-3830). Without a name `iterkeys` is asked for, which
dictionaries do not have in Python 3. -/
def FileResult.isValid (r : FileResult) : Option Str → Except PyErr Bool
  | none => .error .attribute
  | some k =>
    match dget r.valid k with
    | none => .error .key
    | some v => .ok (decide (v = (true, [])))

/-- `has_no_match_items` of `ValidationResult` (CifFile_module.nw 3832-3845). Without a name `iter_keys` is asked for, which
dictionaries do not have. -/
def FileResult.hasNoMatchItems (r : FileResult) : Option Str → Except PyErr Bool
  | none => .error .attribute
  | some k =>
    match dget r.noMatches k with
    | none => .error .key
    | some l => .ok (decide (l ≠ []))

/-! ## Blocks that are valid from the start -/

/-- `CifBlock.__init__` with another block (CifFile_module.nw 217-238, StarFile.nw 1461-1489): the tables are taken over, the
settings are those of a new block; the limit on names is set while the block is still empty (1478). -/
def copyOf (data : Block) : Block :=
  { block := data.block, loops := data.loops, order := data.order, trueCase := data.trueCase, maxName := some 75 }

/-- `ValidCifBlock.__init__` with a dictionary object (CifFile_module.nw 3537-3550). -/
def validBlock (C : Checks) (data : Block) : Except PyErr Block := do
  let b := copyOf data
  let (valid, _) ← runDataChecks C b (some {})
  if valid then .ok b else .error .valid

/-- `a[0]` for a packet of the loop (CifFile_module.nw 3706). -/
def firstOf (p : Block.Packet) : Except PyErr PyVal :=
  match p.vals with
  | [] => .error .index
  | v :: _ => .ok v

/-- `loop_item_check` (CifFile_module.nw 3610-3620) for values that are taken for names. -/
def loopItemCheckV (D : Dic) (C : Checks) (vals : List PyVal) : Except PyErr Results :=
  loopItemCheck D C (vals.filterMap fun v => match v with | .str s => if D.known s then some s else none | _ => none)

/-- `__delitem__` of `ValidCifBlock` (CifFile_module.nw 3697-3711). `GetLoop` raises `KeyError` for an item that is not looped,
and only `TypeError` is caught. Iterating over the loop gives its packets, so the values of the first column are taken for the
names of the loop. `report_if_invalid` is called without its third argument: `TypeError`. -/
def vDelItem (D : Dic) (C : Checks) (wb : Block) (key : Str) : Block × Except PyErr Unit :=
  if wb.contains key then
    match wb.getLoop key with
    | .error e => (wb, .error e)
    | .ok n =>
      match wb.packets n with
      | .error e => (wb, .error e)
      | .ok ps =>
        match mapE firstOf ps with
        | .error e => (wb, .error e)
        | .ok vs =>
          match loopItemCheckV D C (vs.filter fun v => decide (v ≠ .str key)) with
          | .error e => (wb, .error e)
          | .ok _ => (wb, .error .type)
  else wb.removeItem key

/-- `AddToLoop` of `ValidCifBlock` (CifFile_module.nw 3722-3748). `report_if_invalid` is called without its third argument:
`TypeError`. With no data at all `self.block["loops"]` is asked for: `KeyError`, since a name without underscore is never stored
by `AddItem`. -/
def vAddToLoop (D : Dic) (C : Checks) (wb : Block) (_dataname : Str) (loopdata : List (Str × PyVal)) : Block × Except PyErr Unit :=
  match loopdata with
  | [] => (wb, .error .key)
  | (name, value) :: _ =>
    match singleItemCheck D C name value with
    | .error e => (wb, .error e)
    | .ok _ => (wb, .error .type)

end Validate
end Verif
