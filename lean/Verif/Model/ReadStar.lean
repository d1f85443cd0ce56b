import Verif.Model.Reader
/-! # Reading a file

Models `ReadStar` (`/repo/src/StarFile.nw` 998-1153) from the decoded text on. Fetching and decoding a file, the printed
diagnostics and the C scanner are not modelled. -/
namespace Verif

/-- The grammars `ReadStar` knows (StarFile.nw 1041-1050). -/
inductive GName where
  | v20 | v11 | v10 | star2
  deriving DecidableEq, Repr

/-- What `ReadStar` may raise; the message about a line that is too long contains its number and the limit. -/
inductive ReadErr where
  | py (e : PyErr)
  | tooLong (line : Nat) (limit : Nat)
  deriving DecidableEq, Repr

namespace ReadStar

/-- `text.split(sep)` for a non-empty separator; `acc` is the current piece, reversed. Bounded by the length of the text. -/
def splitOn (sep : Str) : Nat → Str → Str → List Str
  | 0, acc, s => [acc.reverse ++ s]
  | _ + 1, acc, [] => [acc.reverse]
  | fuel + 1, acc, c :: r =>
    if sep.isPrefixOf (c :: r) then acc.reverse :: splitOn sep fuel [] ((c :: r).drop sep.length)
    else splitOn sep fuel (c :: acc) r

/-- The marker around binary sections (StarFile.nw 1100). -/
def marker : Str := "-BINARY-FORMAT-SECTION-".toList

/-- What is put in the place of a binary section (StarFile.nw 1103). -/
def omitted : Str := " (binary omitted)".toList

/-- The loop over sections (StarFile.nw 1102-1103): of the pieces from number 1 on, every second one, starting with number 2, is
added to the text. -/
def addSections (text : Str) : List Str → Str
  | _ :: keep :: r => addSections (text ++ omitted ++ keep) r
  | _ => text

/-- The treatment of CBF files (StarFile.nw 1099-1103). -/
def cutBinary (text : Str) : Str :=
  match splitOn marker (text.length + 1) [] text with
  | [] => []
  | t :: r => addSections t r

/-- Control-Z ends the file (StarFile.nw 1105-1107). -/
def cutCtrlZ (text : Str) : Str :=
  match text.findIdx? (· == '\x1a') with
  | some i => text.take i
  | none => text

/-- The check of line lengths (StarFile.nw 1108-1113); a non-positive limit is no limit. -/
def lengthCheck (maxlength : Int) (text : Str) : Except ReadErr Unit :=
  let split := splitNl text
  if maxlength > 0 then
    match split.filter fun a => decide ((a.length : Int) > maxlength) with
    | [] => .ok ()
    | a :: _ => .error (.tooLong (split.idxOf a + 1) maxlength.toNat)
  else .ok ()

/-- The grammars to be tried (StarFile.nw 1041-1052). -/
def tryList (req : Option Str) : Except ReadErr (List GName) :=
  match req with
  | none => .ok [.v20, .v11, .v10]
  | some g =>
    if g = "auto".toList then .ok [.v20, .v11, .v10]
    else if g = "1.0".toList then .ok [.v10]
    else if g = "1.1".toList then .ok [.v11]
    else if g = "2.0".toList then .ok [.v20]
    else if g = "STAR2".toList then .ok [.star2]
    else .error (.py .attribute)

/-- The header of a CIF 2.0 file (StarFile.nw 1115). -/
def header2 : Str := "#\\#CIF_2.0".toList

/-- The header check (StarFile.nw 1115-1118). -/
def honourHeader (text : Str) (l : List GName) : Except ReadErr (List GName) :=
  if text.take 10 ≠ header2 ∧ .v20 ∈ l then
    match pyErase l .v20 with
    | [] => .error (.py .star)
    | l' => .ok l'
  else .ok l

/-- `set_characterset` (StarFile.nw 247-252). -/
def setCharacterset (c : Coll) (unicode : Bool) : Coll :=
  { c with
    unicode := unicode
    dict := c.dict.map fun p => if p.1 ∈ c.lowerKeys then (p.1, { p.2 with unicode := unicode }) else p }

/-- The exceptions caught around the parser (StarFile.nw 1132-1141). -/
def caught : PyErr → Bool
  | .syntax => true
  | .tokens => true
  | .value => true
  | _ => false

/-- A parser: what becomes of the collection given to it, and the outcome. -/
abbrev Parse := Coll → Str → Coll × Except PyErr Unit

/-- The loop over the grammars (StarFile.nw 1119-1148). -/
def tryAll (parse : GName → Parse) (text : Str) : Coll → List GName → Coll × Except ReadErr GName
  | c, [] => (c, .error (.py .star))
  | c, g :: r =>
    match parse g (setCharacterset c (decide (g = .v20 ∨ g = .star2))) text with
    | (c', .ok ()) => (c', .ok g)
    | (c', .error e) => if caught e then tryAll parse text c' r else (c', .error (.py e))

/-- `ReadStar` (StarFile.nw 998-1153), given the text of the file: the collection afterwards and the grammar that has been
recognised, `none` for an empty text. -/
def readStar [CaseFold] (parse : GName → Parse) (prepared : Coll) (text : Str) (req : Option Str) (maxlength : Int := -1)
    (cbf : Bool := false) : Coll × Except ReadErr (Option GName) :=
  match tryList req with
  | .error e => (prepared, .error e)
  | .ok l =>
    if text = [] then (prepared, .ok none)
    else
      let text := cutCtrlZ (if cbf then cutBinary text else text)
      match lengthCheck maxlength text with
      | .error e => (prepared, .error e)
      | .ok () =>
        match honourHeader text l with
        | .error e => (prepared, .error e)
        | .ok l' =>
          match tryAll parse text prepared l' with
          | (c, .error e) => (c, .error e)
          | (c, .ok g) => ((c.setScoping .dictionary).setScoping prepared.scoping, .ok (some g))

/-- The generated parsers (StarFile.nw 1035-1038); `blocktype` is an empty block of the kind the collection uses. -/
def parsers [CaseFold] (blocktype : Block) : GName → Parse
  | .v20 => Reader.input Reader.gram20 blocktype
  | .v11 => Reader.input Reader.gram11 blocktype
  | .v10 => Reader.input Reader.gram10 blocktype
  | .star2 => Reader.input Reader.gramStar2 blocktype

end ReadStar
end Verif
