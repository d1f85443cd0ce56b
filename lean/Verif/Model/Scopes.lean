import Verif.Model.CifDic
/-! # Which attributes the DDLm dictionary demands and forbids

`ddlm_parse_valid`, which fills the tables read by the checks for mandatory and prohibited attributes. -/
namespace Verif.CifDic
open Validate
variable [CaseFold]

/-- The attribute that names scope and option (CifFile_module.nw 1349, 1351, 1352). -/
def appAttr : Str := "_dictionary_valid.application".toList
/-- The attribute with the names (CifFile_module.nw 1353). -/
def validAttr : Str := "_dictionary_valid.attributes".toList

/-- `scopes_mandatory` and `scopes_naughty` (CifFile_module.nw 548-549). -/
structure Scopes where
  mandatory : Dict Str (List Str) := []
  naughty : Dict Str (List Str) := []
  deriving DecidableEq, Repr

/-- A name or a scope. Simplified: other values are refused with `AttributeError`, which is what looking them up ends in. -/
def asText : PyVal → Except PyErr Str
  | .str s => .ok s
  | _ => .error .attribute

/-- `self.expand_category_opt(valid_info)` (CifFile_module.nw 1310-1320) for a stored value. -/
def expandValue (d : CifDic) (v : PyVal) : Except PyErr (List Str) := do
  let l ← Block.pyIter v
  let names ← mapE asText l
  expandCategory d names

/-- What is done for one packet (CifFile_module.nw 1352-1357). -/
def parseRow (d : CifDic) (t : Scopes) (p : Block.Packet) : Except PyErr Scopes := do
  let scope ← p.attr appAttr
  let info ← p.attr validAttr
  let option ← Block.pyItem scope 1
  if option = .str "Mandatory".toList then do
    let s ← Block.pyItem scope 0
    let names ← expandValue d info
    let s ← asText s
    .ok { t with mandatory := dset t.mandatory s names }
  else if option = .str "Prohibited".toList then do
    let s ← Block.pyItem scope 0
    let names ← expandValue d info
    let s ← asText s
    .ok { t with naughty := dset t.naughty s names }
  else .ok t

/-- The loop over packets (CifFile_module.nw 1351). -/
def parseRows (d : CifDic) : List Block.Packet → Scopes → Except PyErr Scopes
  | [], t => .ok t
  | p :: r, t => do
    let t ← parseRow d t p
    parseRows d r t

/-- `ddlm_parse_valid` (CifFile_module.nw 1348-1357), for the enclosing block `b` of the dictionary. -/
def parseValid (d : CifDic) (b : Block) : Except PyErr Scopes :=
  if b.contains appAttr then do
    let n ← b.getLoop appAttr
    let ps ← b.packets n
    parseRows d ps {}
  else .ok {}

/-- The tables in the hands of the checks (CifFile_module.nw 2618-2645). -/
def Scopes.dic (t : Scopes) (D : Validate.Dic) : Validate.Dic := { D with mandatory := t.mandatory, naughty := t.naughty }

end Verif.CifDic
