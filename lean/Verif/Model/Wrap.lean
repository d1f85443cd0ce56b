import Verif.Model.Number
import Verif.Spec.Text
/-! Texts laid out anew for a template: `do_wrapping` (StarFile.nw 2801-2813), its use in `_formatstring` (2743-2745), and the
hints it obeys (2978-2985). The filling of a paragraph is done by the object made at StarFile.nw 1480, an instance of
`textwrap.TextWrapper` of Python's library with its default settings: 70 columns, tabs expanded to multiples of 8, whitespace
replaced, whitespace dropped at both ends of lines, long words broken, words broken after hyphens. The methods of that class which
these settings make use of are modelled here as well. -/
namespace Verif
namespace Wrap

/-- The characters called whitespace by the library (`_whitespace` in `textwrap`). -/
def isWhite (c : Char) : Bool := c == '\t' || c == '\n' || c == '\x0b' || c == '\x0c' || c == '\r' || c == ' '

/-- What the library's patterns know of characters: `\w` and `\d`. Any such classes will do for the theorems. -/
structure Kinds where
  word : Char → Bool
  digit : Char → Bool

/-- `[^\d\W]` -/
def Kinds.letter (K : Kinds) (c : Char) : Bool := K.word c && !K.digit c

/-- ``[\w!"'&.,?]`` -/
def Kinds.punct (K : Kinds) (c : Char) : Bool :=
  K.word c || c == '!' || c == '"' || c == '\'' || c == '&' || c == '.' || c == ',' || c == '?'

/-- `str.expandtabs(8)`; `col` is the column reached (used by StarFile.nw 2812). -/
def expandTabs : Nat → Str → Str
  | _, [] => []
  | col, c :: r =>
    if c = '\t' then List.replicate (8 - col % 8) ' ' ++ expandTabs (col + (8 - col % 8)) r
    else if c = '\n' ∨ c = '\r' then c :: expandTabs 0 r
    else c :: expandTabs (col + 1) r

/-- `_munge_whitespace` of `TextWrapper` (used by StarFile.nw 2812): tabs are expanded, then all whitespace becomes blanks. -/
def munge (s : Str) : Str := (expandTabs 0 s).map fun c => if isWhite c then ' ' else c

/-- `-{2,}(?=\w)` matches here. -/
def dashes (K : Kinds) (s : Str) : Bool :=
  decide (2 ≤ (s.takeWhile (· == '-')).length) &&
  match s.dropWhile (· == '-') with
  | [] => false
  | c :: _ => K.word c

/-- The look-behinds of the hyphen: two letters, or a letter, a hyphen and a letter, stand before it; `before` is reversed. -/
def hyphenBehind (K : Kinds) : Str → Bool
  | x :: y :: z => K.letter x && (K.letter y || y == '-' && match z with | [] => false | u :: _ => K.letter u)
  | _ => false

/-- `(?=[^\d\W]-?[^\d\W])` -/
def letterAhead (K : Kinds) : Str → Bool
  | x :: y :: z => K.letter x && (K.letter y || y == '-' && match z with | [] => false | u :: _ => K.letter u)
  | _ => false

/-- The length of the word `c :: r`, which is taken as short as possible: up to and with a hyphen between letters, up to whitespace
or the end, or up to a dash between words. -/
def wordLen (K : Kinds) : Str → Char → Str → Nat
  | _, _, [] => 1
  | before, c, d :: r =>
    if d = '-' ∧ hyphenBehind K (c :: before) ∧ letterAhead K r then 2
    else if isWhite d then 1
    else if K.punct c ∧ dashes K (d :: r) then 1
    else 1 + wordLen K (c :: before) d r

/-- ``(?<=[\w!"'&.,?])``; `before` is reversed. -/
def punctBehind (K : Kinds) : Str → Bool
  | [] => false
  | b :: _ => K.punct b

/-- The length of what the library's pattern `wordsep_re` matches: a run of whitespace, a dash between words, or a word. -/
def chunkLen (K : Kinds) (before : Str) : Str → Nat
  | [] => 0
  | c :: r =>
    if isWhite c then 1 + (r.takeWhile isWhite).length
    else if punctBehind K before && dashes K (c :: r) then
      ((c :: r).takeWhile (· == '-')).length
    else wordLen K before c r

/-- `_split` of `TextWrapper` (used by StarFile.nw 2812); bounded by the length of the text. -/
def chunks (K : Kinds) : Nat → Str → Str → List Str
  | _, _, [] => []
  | 0, _, s => [s]
  | fuel + 1, before, s =>
    s.take (chunkLen K before s) ::
      chunks K fuel ((s.take (chunkLen K before s)).reverse ++ before) (s.drop (chunkLen K before s))

/-- `chunk.strip() == ''` -/
def isEmptied (s : Str) : Bool := s.all isSpace

/-- The inner loop of `_wrap_chunks`: as many chunks as fit on the line; the line, and what is left. -/
def fillLine (w : Int) : Nat → List Str → List Str × List Str
  | _, [] => ([], [])
  | cur, c :: r =>
    if (cur + c.length : Int) ≤ w then
      (c :: (fillLine w (cur + c.length) r).1, (fillLine w (cur + c.length) r).2)
    else ([], c :: r)

/-- `s.rfind('-')` -/
def lastHyphen : Str → Option Nat
  | [] => none
  | c :: r =>
    match lastHyphen r with
    | some n => some (n + 1)
    | none => if c = '-' then some 0 else none

/-- Where `_handle_long_word` cuts the chunk when `space` columns are left: after the last hyphen which has something other than
hyphens before it, or else where the line is full. -/
def cutAt (space : Nat) (chunk : Str) : Nat :=
  if chunk.length > space then
    match lastHyphen (chunk.take space) with
    | some h => if h > 0 ∧ (chunk.take h).any (· != '-') then h + 1 else space
    | none => space
  else space

/-- `space_left` of `_handle_long_word`. -/
def spaceLeft (w : Int) (cur : Nat) : Nat := if w < 1 then 1 else (w - cur).toNat

/-- `_handle_long_word`, when the next chunk fits on no line. -/
def cutLong (w : Int) (line : List Str) : List Str → List Str × List Str
  | [] => (line, [])
  | c :: r =>
    if (c.length : Int) > w then
      (line ++ [c.take (cutAt (spaceLeft w line.flatten.length) c)], c.drop (cutAt (spaceLeft w line.flatten.length) c) :: r)
    else (line, c :: r)

/-- Whitespace at the end of the line is dropped. -/
def dropEnd (line : List Str) : List Str :=
  match line.getLast? with
  | none => line
  | some c => if isEmptied c then line.dropLast else line

/-- Whitespace at the beginning of the line is dropped, unless no line has been made. -/
def dropStart (started : Bool) : List Str → List Str
  | [] => []
  | c :: r => if isEmptied c && started then r else c :: r

/-- One turn of the outer loop of `_wrap_chunks`: the line, and what is left. -/
def nextLine (w : Int) (started : Bool) (cs : List Str) : List Str × List Str :=
  let f := fillLine w 0 (dropStart started cs)
  let g := cutLong w f.1 f.2
  (dropEnd g.1, g.2)

/-- `_wrap_chunks` of `TextWrapper` (used by StarFile.nw 2812), with the same text before all lines (2806-2807); `none`: the loop
has not ended after so many turns. -/
def wrapChunks (w : Int) (indent : Str) : Nat → Bool → List Str → Option (List Str)
  | _, _, [] => some []
  | 0, _, _ :: _ => none
  | fuel + 1, started, c :: r =>
    let p := nextLine w started (c :: r)
    if p.1 = [] then wrapChunks w indent fuel started p.2
    else (wrapChunks w indent fuel true p.2).map fun ls => (indent ++ p.1.flatten) :: ls

/-- The default width of lines (the object made at StarFile.nw 1480). -/
def columns : Nat := 70

/-- `self.wrapper.fill(p)` (StarFile.nw 2812), given `fuel` turns of the loop. -/
def fillIn (K : Kinds) (indent fuel : Nat) (p : Str) : Option Str :=
  (wrapChunks ((columns : Int) - indent) (List.replicate indent ' ') fuel false (chunks K (munge p).length [] (munge p))).map joinNl

/-- Is `t` a part of `s`: `t in s`. -/
def contains (t : Str) : Str → Bool
  | [] => t.isEmpty
  | c :: r => t.isPrefixOf (c :: r) || contains t r

/-- `instring.split("\n\n")` (StarFile.nw 2811). -/
def splitParas : Str → List Str
  | [] => [[]]
  | [c] => [[c]]
  | c :: d :: r =>
    if c = '\n' ∧ d = '\n' then [] :: splitParas r
    else match splitParas (d :: r) with
      | [] => [[c]]
      | l :: ls => (c :: l) :: ls

/-- `[f(p) for p in paras]`, where any call may go on for ever. -/
def mapO (f : Str → Option Str) : List Str → Option (List Str)
  | [] => some []
  | p :: r =>
    match f p with
    | none => none
    | some x => (mapO f r).map fun l => x :: l

/-- `do_wrapping` (StarFile.nw 2802-2813); every paragraph is given `fuel p` turns. -/
def doWrapping (K : Kinds) (indent : Nat) (fuel : Str → Nat) (s : Str) : Option Str :=
  if contains [' ', ' ', ' '] s then some s
  else (mapO (fun p => fillIn K indent (fuel p) p) (splitParas (Number.strip s))).map joinNl

/-- What becomes of a text with the `reformat` hint (StarFile.nw 2744-2745). -/
def reformat (K : Kinds) (indent : Nat) (fuel : Str → Nat) (s : Str) : Option Str :=
  if '\n' ∈ s then (doWrapping K indent fuel s).map fun t => '\n' :: t else some s

/-- `re.search("^ +", text, re.M)`: the number of blanks (StarFile.nw 2962, 2982). -/
def firstIndent (t : Str) : Option Nat :=
  ((splitNl t).map fun l => (l.takeWhile (· == ' ')).length).find? (0 < ·)

/-- The hints taken from a text in the template (StarFile.nw 2979-2984): `none`, no reformatting; or the indentation. The search
gives `None` if it finds nothing, which has no method `group`. -/
def reformatHint (t : Str) : Except PyErr (Option Nat) :=
  if contains ['\n', '\t'] t || contains ['\n', ' ', ' '] t then
    match firstIndent t with
    | none => .error .attribute
    | some n => .ok (some n)
  else .ok none

end Wrap
end Verif
