import Verif.Model.Print
import Verif.Model.Regex
/-! # Hints from templates

What `process_template` (StarFile.nw 2948-2988) finds in the text of a template for an item that is not in a loop: the columns of its name and its value, and the
delimiter. The name is put into a regular expression as it is. For items in loops see `TemplateLoop`, for the `reformat` hint see `Wrap`. Not modelled: names with other signs
of regular expressions than `.` and classes of plain characters in brackets; characters whose case `re.I` ignores are the ASCII letters. -/
namespace Verif
namespace Template

/-- What a data name means in a regular expression. -/
inductive Piece where
  /-- a character, in either case -/
  | char (c : Char)
  /-- `.` -/
  | any
  /-- a class in brackets -/
  | oneOf (cs : List Char)
  deriving DecidableEq, Repr

/-- Signs of regular expressions that are not modelled. -/
def otherSigns : List Char := ['\\', '^', '$', '*', '+', '?', '{', '}', '|', '(', ')']

/-- Signs that are not modelled in a class, and those that would end it. -/
def classSigns : List Char := ['-', '^', '\\', '[', ']']

/-- The data name as a regular expression (StarFile.nw 2967); the first argument is the class being read. `none` is outside of the model. -/
def pieces : Option Str → Str → Option (List Piece)
  | none, [] => some []
  | none, c :: r =>
    if c ∈ otherSigns then none
    else if c = '.' then (pieces none r).map (Piece.any :: ·)
    else if c = '[' then pieces (some []) r
    else (pieces none r).map (Piece.char c :: ·)
  | some _, [] => none
  | some cs, c :: r =>
    if c = ']' ∧ cs ≠ [] then (pieces none r).map (Piece.oneOf cs :: ·)
    else if c ∈ classSigns then none
    else pieces (some (cs ++ [c])) r

/-- Does the character match (flags `re.I|re.M` of StarFile.nw 2967)? -/
def Piece.fits : Piece → Char → Bool
  | .char c, d => c.toLower == d.toLower
  | .any, d => d != '\n'
  | .oneOf cs, d => cs.any fun c => c.toLower == d.toLower

/-- The text after the name. -/
def afterName : List Piece → Str → Option Str
  | [], s => some s
  | _ :: _, [] => none
  | p :: ps, c :: r => if p.fits c then afterName ps r else none

/-- `[ \t]` -/
def isBlank (c : Char) : Bool := c == ' ' || c == '\t'

/-- `[ \t\n]` -/
def isGap (c : Char) : Bool := c == ' ' || c == '\t' || c == '\n'

/-- The first character of the value and what follows, if there is one. -/
def value : Str → Option Str
  | [] => none
  | c :: r => if isSpace c then none else some (c :: r)

/-- The regular expression of StarFile.nw 2967 at the start of a line: the column of the name, the distance of the value from the start of that line, and the text from the
value on. The name begins with an underscore, so that it cannot begin earlier; all that is between name and value is taken by `[ \t\n]+`, since no value begins with one of these. -/
def matchAt (ps : List Piece) (s : Str) : Option (Nat × Nat × Str) :=
  let indent := (s.takeWhile isBlank).length
  match afterName ps (s.dropWhile isBlank) with
  | none => none
  | some r =>
    let gap := (r.takeWhile isGap).length
    if gap = 0 then none else (value (r.dropWhile isGap)).map fun v => (indent, indent + ps.length + gap, v)

/-- `re.search` with a pattern that begins with `^` (StarFile.nw 2967): the first line where it matches. -/
def search (ps : List Piece) : Bool → Str → Option (Nat × Nat × Str)
  | true, [] => matchAt ps []
  | false, [] => none
  | true, c :: r =>
    match matchAt ps (c :: r) with
    | some m => some m
    | none => search ps (c == '\n') r
  | false, c :: r => search ps (c == '\n') r

/-- The delimiter (StarFile.nw 2970-2974, 2978); the text is not empty. -/
def delimiterOf (v : Str) : Option Str :=
  match v with
  | [] => none
  | c :: _ =>
    if c = ';' then some semiDelim
    else if v.take 3 = tripleD then some tripleD
    else if v.take 3 = tripleS then some tripleS
    else if c = '\'' ∨ c = '"' then some [c]
    else none

/-- The hint for an item (StarFile.nw 2965-2988). If nothing is found, `None` has no method `group`. -/
def itemHint (item text : Str) : Option (Except PyErr Hint) :=
  (pieces none item).map fun ps =>
    match search ps true text with
    | none => .error .attribute
    | some (n, k, v) => .ok { dataname := item, delimiter := delimiterOf v, column := if v.head? = some ';' then -1 else k, namePos := some n }

end Template
end Verif
