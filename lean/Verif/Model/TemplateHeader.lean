import Verif.Model.TemplateLoop
/-! # The header of a loop in a template

The search of `process_template` for the header of a loop and for the names of its items (StarFile.nw 2989-2999, 3006-3010), put together with the hints for its values
(`TemplateLoop`). Names with signs of regular expressions other than dots and brackets are not modelled, as in `Template`. -/
namespace Verif
namespace Template

/-- What may go wrong: `None` has no methods (`AttributeError`), there are no more values (`StopIteration`), or there is no such loop
(`KeyError`). -/
inductive LoopErr where
  | attribute
  | stop
  | key
  deriving DecidableEq, Repr

/-- Does the character match, with the flag `re.S` as well (StarFile.nw 2995, 3009)? -/
def Piece.fitsAll : Piece → Char → Bool
  | .any, _ => true
  | p, c => p.fits c

/-- The text after a name, or after `loop_`. -/
def afterLoopName : List Piece → Str → Option Str
  | [], s => some s
  | _ :: _, [] => none
  | p :: ps, c :: r => if p.fitsAll c then afterLoopName ps r else none

/-- `[ \t\n\r]` (StarFile.nw 2994) -/
def isSep (c : Char) : Bool := c == ' ' || c == '\t' || c == '\n' || c == '\r'

/-- `[ \t\n\r]+_[\S]+`, so many times (StarFile.nw 2994): the text after that. -/
def moreNames : Nat → Str → Option Str
  | 0, s => some s
  | n + 1, s =>
    if s.takeWhile isSep = [] then none
    else match s.dropWhile isSep with
      | '_' :: r => if r.takeWhile (fun c => !isSpace c) = [] then none else moreNames n (r.dropWhile fun c => !isSpace c)
      | _ => none

/-- `[ \t]*$` (StarFile.nw 2994): the text from the end of the line. -/
def lineEnd (s : Str) : Option Str :=
  match s.dropWhile isBlank with
  | [] => some []
  | c :: r => if c = '\n' then some (c :: r) else none

/-- The beginning of `loop_regex` up to the group `packet` at the start of a line (StarFile.nw 2994): the column of `loop_` and the text after the header. -/
def headerAt (ps : List Piece) (n : Nat) (s : Str) : Option (Nat × Str) :=
  match afterLoopName ("loop_".toList.map .char) (s.dropWhile isBlank) with
  | none => none
  | some r =>
    if r.takeWhile isSep = [] then none
    else match afterLoopName ps (r.dropWhile isSep) with
      | none => none
      | some t => ((moreNames n t).bind lineEnd).map fun u => ((s.takeWhile isBlank).length, u)

/-- `name_regex` at the start of a line (StarFile.nw 3008-3010): the column of the name. -/
def nameAt (ps : List Piece) (s : Str) : Option Nat := (afterLoopName ps (s.dropWhile isBlank)).map fun _ => (s.takeWhile isBlank).length

/-- `re.search` with a pattern that begins with `^` (StarFile.nw 2995, 3009): the first line where it matches; the second argument says whether a line begins here. -/
def firstLine (f : Str → Option α) : Bool → Str → Option α
  | true, [] => f []
  | false, [] => none
  | true, c :: r =>
    match f (c :: r) with
    | some m => some m
    | none => firstLine f (c == '\n') r
  | false, c :: r => firstLine f (c == '\n') r

/-- The hints for the names with their positions (StarFile.nw 3006-3031). -/
def placeNamed (text : Str) : List (Str × List Piece) → List (Nat × Option Str) → Nat × Nat × List Nat → Except LoopErr (List Hint)
  | [], _, _ => .ok []
  | (n, ps) :: ns, vs, (last, next, ends) =>
    match firstLine (nameAt ps) true text, vs with
    | none, _ => .error .attribute
    | some _, [] => .error .stop
    | some k, v :: vs =>
      let st := advance v.1 last next ends
      match placeNamed text ns vs st with
      | .error e => .error e
      | .ok hs => .ok ({ dataname := n, delimiter := v.2, column := (v.1 : Int) - st.1 + 1, namePos := some k } :: hs)

/-- The names as regular expressions; `none` is outside of the model. -/
def allPieces : List Str → Option (List (Str × List Piece))
  | [] => some []
  | n :: r =>
    match pieces none n, allPieces r with
    | some p, some ps => some ((n, p) :: ps)
    | _, _ => none

/-- The hints for a loop (StarFile.nw 2989-3031): one for `loop`, and one for each name. A loop has a name. -/
def templateLoop (names : List Str) (text : Str) : Option (Except LoopErr (List Hint)) :=
  match allPieces names with
  | none => none
  | some [] => none
  | some ((n, p) :: ps) =>
    match firstLine (headerAt p ps.length) true text with
    | none => some (.error .attribute)
    | some (k, rest) =>
      match placeNamed text ((n, p) :: ps) (values 0 0 (packetText rest)) (0, 0, lineStarts 0 (packetText rest)) with
      | .error e => some (.error e)
      | .ok hs => some (.ok ({ dataname := Block.loopMark, namePos := some (k : Int) } :: hs))

end Template
end Verif
