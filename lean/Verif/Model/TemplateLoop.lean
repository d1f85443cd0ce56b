import Verif.Model.Template
/-! # Hints for loops from templates

What `process_template` (StarFile.nw 2989-3031) finds for the values of a loop in the text after the names of its header. The search for the header
(StarFile.nw 2994-2999), whose last line ends where that text begins, and the positions of names (3008-3010) are in `TemplateHeader`. Messages are not modelled. -/
namespace Verif
namespace Template

/-- `_loop|_[\S]+` (StarFile.nw 2994), the first alternative being a case of the second. -/
def isItem : Str → Bool
  | '_' :: c :: _ => !isSpace c
  | _ => false

/-- The group `packet` (StarFile.nw 2994): characters that no name follows. -/
def packetText : Str → Str
  | [] => []
  | c :: r => if isItem r then [] else c :: packetText r

/-- `[^\n\r\f']` (StarFile.nw 3000) -/
def inSingle (c : Char) : Bool := c != '\n' && c != '\r' && c != '\x0c' && c != '\''

/-- `[^\n\r"]` (StarFile.nw 3000) -/
def inDouble (c : Char) : Bool := c != '\n' && c != '\r' && c != '"'

/-- The group `sqqq` (StarFile.nw 3000): its length. -/
def tripleLen (s : Str) : Option Nat :=
  if s.take 3 = tripleS ∧ ((s.drop 3).dropWhile inSingle).take 3 = tripleS then some (6 + ((s.drop 3).takeWhile inSingle).length) else none

/-- The groups `sq` and `dq` (StarFile.nw 3000): their lengths. -/
def quotedLen (q : Char) (p : Char → Bool) : Str → Option Nat
  | [] => none
  | c :: r =>
    let k := ((r.dropWhile p).takeWhile (· == q)).length
    if c = q ∧ 0 < k then some (1 + (r.takeWhile p).length + k) else none

/-- The value at the start of a text that does not begin with whitespace (StarFile.nw 3000, 3021-3025): length and delimiter. -/
def valueAt (s : Str) : Nat × Option Str :=
  match tripleLen s, quotedLen '\'' inSingle s, quotedLen '"' inDouble s with
  | some n, _, _ => (n, some tripleS)
  | none, some n, _ => (n, some ['\''])
  | none, none, some n => (n, some ['"'])
  | none, none, none => ((s.takeWhile fun c => !isSpace c).length, none)

/-- `re.finditer` (StarFile.nw 3001): where values begin, and their delimiters. The first argument is the position in the text, the second the number of characters that belong to
the value found last. -/
def values : Nat → Nat → Str → List (Nat × Option Str)
  | _, _, [] => []
  | p, k + 1, _ :: r => values (p + 1) k r
  | p, 0, c :: r => if isSpace c then values (p + 1) 0 r else (p, (valueAt (c :: r)).2) :: values (p + 1) ((valueAt (c :: r)).1 - 1) r

/-- `re.finditer("^",packet_text,re.M)` (StarFile.nw 3002) after the first match, which is at 0. -/
def lineStarts : Nat → Str → List Nat
  | _, [] => []
  | p, c :: r => if c = '\n' then (p + 1) :: lineStarts (p + 1) r else lineStarts (p + 1) r

/-- The search for the line of a value (StarFile.nw 3013-3019): `last_end`, `next_end` and the matches that are left. -/
def advance (p last next : Nat) : List Nat → Nat × Nat × List Nat
  | [] => if p > next then (next, next, []) else (last, next, [])
  | e :: es => if p > next then advance p next e es else (last, next, e :: es)

/-- The hints for the names (StarFile.nw 3005-3031); `none` if there are not enough values (`StopIteration`). -/
def place : List Str → List (Nat × Option Str) → Nat × Nat × List Nat → Option (List Hint)
  | [], _, _ => some []
  | _ :: _, [], _ => none
  | n :: ns, v :: vs, (last, next, ends) =>
    let st := advance v.1 last next ends
    (place ns vs st).map ({ dataname := n, delimiter := v.2, column := (v.1 : Int) - st.1 + 1 } :: ·)

/-- The hints for the names of a loop, given the text after its header (StarFile.nw 2996-3031). -/
def loopHints (names : List Str) (rest : Str) : Option (List Hint) :=
  place names (values 0 0 (packetText rest)) (0, 0, lineStarts 0 (packetText rest))

end Template
end Verif
