import Verif.Model.Validate
/-! # The type expressions of a dictionary

Models `add_type_info` and the function `regex_fiddle` in it (CifFile_module.nw 2719-2744). What `re.compile` makes of a text is not modelled: it is an argument. -/
namespace Verif
namespace TypeInfo
open Rx

/-- `.` without flags: anything but a line feed. -/
def dotRx : Rx := cls (· != '\n')

/-- The group `(.*\[.+)` (CifFile_module.nw 2726-2727). -/
def beforeRx : Rx := seq (star dotRx) (seq (ch '[') (plus dotRx))

/-- The group `(.*\].*)` (CifFile_module.nw 2726-2727). -/
def afterRx : Rx := seq (star dotRx) (seq (ch ']') (star dotRx))

/-- What follows group 2 of length `k`: the characters looked for, then the last group. -/
def matchAfter (mark s : Str) (k : Nat) : Option (Str × Str) :=
  if mark.isPrefixOf (s.drop k) then
    (matchLen afterRx (s.drop (k + mark.length))).map fun n => (s.take k, (s.drop (k + mark.length)).take n)
  else none

/-- `re.match` for `((.*\[.+)(mark)(.*\].*))` (CifFile_module.nw 2726-2727, 2730, 2734): groups 2 and 4. -/
def bracketMatch (mark s : Str) : Option (Str × Str) := (lens beforeRx s).findSome? (matchAfter mark s)

/-- The replacement: `expand` gives the whole new text, so that what `re.match` has not reached is gone. -/
def replaceIn (mark new s : Str) : Str :=
  match bracketMatch mark s with
  | some (a, b) => a ++ new ++ b
  | none => s

/-- A backslash and a brace. -/
def brace : Str := ['\\', '{']
/-- A backslash and the letter n. -/
def newline : Str := ['\\', 'n']

/-- `regex_fiddle` (CifFile_module.nw 2725-2738). -/
def regexFiddle (s : Str) : Str :=
  replaceIn newline (newline ++ ['\\', 'r']) (replaceIn brace ('\\' :: brace) s)

/-- An element of a list of texts. -/
def text : PyVal → Except PyErr Str
  | .str s => .ok s
  | _ => .error .type

/-- What the loops run over: the elements of a list, but the characters of a text. Keys that are not texts are not modelled (`TypeError`). -/
def texts : PyVal → Except PyErr (List Str)
  | .str s => .ok (s.map fun c => [c])
  | .list l => Validate.mapE text l
  | .slist l => Validate.mapE text l
  | _ => .error .type

/-- The loop that compiles the constructs (CifFile_module.nw 2740-2741). -/
def compileAll {M : Type} (compile : Str → Except PyErr M) (d : Dict Str M) : List (Str × Str) → Except PyErr (Dict Str M)
  | [] => .ok d
  | p :: r =>
    match compile (regexFiddle p.2) with
    | .error e => .error e
    | .ok m => compileAll compile (dset d p.1 m) r

/-- `add_type_info` (CifFile_module.nw 2719-2744): `typedic` and `primdic`, which are empty before (571-573). -/
def addTypeInfo [CaseFold] {M : Type} (compile : Str → Except PyErr M) (b : Block) : Except PyErr (Dict Str M × Dict Str Str) :=
  if b.contains "_item_type_list.construct".toList then do
    let types ← b.getItem "_item_type_list.code".toList
    let prims ← b.getItem "_item_type_list.primitive_code".toList
    let constructs ← b.getItem "_item_type_list.construct".toList
    let cs ← texts constructs
    let ts ← texts types
    let d ← compileAll compile [] (ts.zip (cs.map (· ++ ['$'])))
    let ps ← texts prims
    .ok (d, (ts.zip ps).foldl (fun d p => dset d p.1 p.2) [])
  else .ok ([], [])

end TypeInfo
end Verif
