import Verif.Model.Text
/-! # Regular expressions

The token patterns of `/repo/src/YappsStarParser.nw` 220-302 as `re` matches them. A pattern is data; its meaning is the
list of the lengths of all its matches at the start of a text, in the order in which a backtracking matcher tries them,
so that the first one is what `regexp.match(input, pos)` returns. No pattern of the code looks behind, so the text
before the position is irrelevant. -/
namespace Verif

/-- A regular expression. `eol` is `$` without flags. -/
inductive Rx where
  | eps
  | cls (p : Char → Bool)
  | seq (a b : Rx)
  | alt (a b : Rx)
  | star (a : Rx)
  | lazy (a : Rx)
  | ahead (a : Rx)
  | notAhead (a : Rx)
  | eol

namespace Rx

/-- Greedy repetition: more repetitions first. A repetition that consumes nothing is not continued. -/
def many (f : Str → List Nat) : Nat → Str → List Nat
  | 0, _ => [0]
  | n + 1, s => ((f s).filter (0 < ·)).flatMap (fun k => (many f n (s.drop k)).map (k + ·)) ++ [0]

/-- Lazy repetition: fewer repetitions first. -/
def manyLazy (f : Str → List Nat) : Nat → Str → List Nat
  | 0, _ => [0]
  | n + 1, s => 0 :: ((f s).filter (0 < ·)).flatMap (fun k => (manyLazy f n (s.drop k)).map (k + ·))

/-- Lengths of all matches at the start of `s`, most preferred first. -/
def lens : Rx → Str → List Nat
  | eps, _ => [0]
  | cls p, s => match s with
    | [] => []
    | c :: _ => if p c then [1] else []
  | seq a b, s => (lens a s).flatMap fun k => (lens b (s.drop k)).map (k + ·)
  | alt a b, s => lens a s ++ lens b s
  | star a, s => many (lens a) s.length s
  | lazy a, s => manyLazy (lens a) s.length s
  | ahead a, s => if (lens a s).isEmpty then [] else [0]
  | notAhead a, s => if (lens a s).isEmpty then [0] else []
  | eol, s => if s = [] ∨ s = ['\n'] then [0] else []

/-- `len(regexp.match(input,pos).group(0))`, where `s` is the text from `pos` on. -/
def matchLen (r : Rx) (s : Str) : Option Nat := (lens r s).head?

/-- One or more. -/
def plus (a : Rx) : Rx := seq a (star a)

/-- A given character. -/
def ch (c : Char) : Rx := cls (· == c)

/-- A letter in either case: `(L|l)`. -/
def letter (u l : Char) : Rx := alt (ch u) (ch l)

/-- A fixed text. -/
def lit : List Char → Rx
  | [] => eps
  | [c] => ch c
  | c :: r => seq (ch c) (lit r)

/-- A sequence of patterns. -/
def seqs : List Rx → Rx
  | [] => eps
  | [a] => a
  | a :: r => seq a (seqs r)

end Rx

/-- `\s` for a Unicode pattern: `str.isspace`. -/
def isSpace (c : Char) : Bool :=
  let n := c.toNat
  (9 ≤ n && n ≤ 13) || (28 ≤ n && n ≤ 32) || n == 0x85 || n == 0xA0 || n == 0x1680 || (0x2000 ≤ n && n ≤ 0x200A) ||
  n == 0x2028 || n == 0x2029 || n == 0x202F || n == 0x205F || n == 0x3000

namespace Pat
open Rx

/-- `(L|l)(O|o)(O|o)(P|p)_` -/
def loopWord : Rx := seqs [letter 'L' 'l', letter 'O' 'o', letter 'O' 'o', letter 'P' 'p', ch '_']
/-- `(G|g)(L|l)(O|o)(B|b)(A|a)(L|l)_` -/
def globalWord : Rx :=
  seqs [letter 'G' 'g', letter 'L' 'l', letter 'O' 'o', letter 'B' 'b', letter 'A' 'a', letter 'L' 'l', ch '_']
/-- `(S|s)(T|t)(O|o)(P|p)_` -/
def stopWord : Rx := seqs [letter 'S' 's', letter 'T' 't', letter 'O' 'o', letter 'P' 'p', ch '_']
/-- `(S|s)(A|a)(V|v)(E|e)_` -/
def saveWord : Rx := seqs [letter 'S' 's', letter 'A' 'a', letter 'V' 'v', letter 'E' 'e', ch '_']
/-- `(D|d)(A|a)(T|t)(A|a)_` -/
def dataWord : Rx := seqs [letter 'D' 'd', letter 'A' 'a', letter 'T' 't', letter 'A' 'a', ch '_']

/-- `([ \t\n\r](?!;))|[ \t]` (YappsStarParser.nw 223, 266, 287) -/
def ignore1 : Rx :=
  alt (seq (cls fun c => c == ' ' || c == '\t' || c == '\n' || c == '\r') (notAhead (ch ';')))
    (cls fun c => c == ' ' || c == '\t')

/-- `(#.*[\n\r](?!;))|(#.*)` (YappsStarParser.nw 224, 267, 288); `.` is anything but a line feed. -/
def ignore2 : Rx :=
  alt (seqs [ch '#', star (cls (· != '\n')), cls fun c => c == '\n' || c == '\r', notAhead (ch ';')])
    (seq (ch '#') (star (cls (· != '\n'))))

/-- The class `[][!%&\(\)*+,./:<=>?@0-9A-Za-z\\^`{}\|~"#$';_-]` of 1.0 and 1.1 (YappsStarParser.nw 272-275). -/
def nameChar1 (c : Char) : Bool :=
  c == ']' || c == '[' || c == '!' || c == '%' || c == '&' || c == '(' || c == ')' || c == '*' || c == '+' ||
  c == ',' || c == '.' || c == '/' || c == ':' || c == '<' || c == '=' || c == '>' || c == '?' || c == '@' ||
  ('0' ≤ c && c ≤ '9') || ('A' ≤ c && c ≤ 'Z') || ('a' ≤ c && c ≤ 'z') || c == '\\' || c == '^' || c == '`' ||
  c == '{' || c == '}' || c == '|' || c == '~' || c == '"' || c == '#' || c == '$' || c == '\'' || c == ';' ||
  c == '_' || c == '-'

/-- The class of 2.0 and STAR2 (YappsStarParser.nw 229-232): also A0-D7FF, E000-FDCF, FDF0-FFFD and in every further plane all
but the last two code points. -/
def nameChar2 (c : Char) : Bool :=
  let n := c.toNat
  nameChar1 c || (0xA0 ≤ n && n ≤ 0xD7FF) || (0xE000 ≤ n && n ≤ 0xFDCF) || (0xFDF0 ≤ n && n ≤ 0xFFFD) ||
  (0x10000 ≤ n && n % 0x10000 ≤ 0xFFFD)

/-- `[^\n\r]` -/
def notNlCr (c : Char) : Bool := c != '\n' && c != '\r'

/-- `(\r\n|\r|\n)+` -/
def lineEnds : Rx := plus (alt (lit ['\r', '\n']) (alt (ch '\r') (ch '\n')))

/-- `(\n|\r\n);([^\n\r])*(\r\n|\r|\n)+` (YappsStarParser.nw 276) -/
def startSc : Rx := seqs [alt (ch '\n') (lit ['\r', '\n']), ch ';', star (cls notNlCr), lineEnds]

/-- `[^;\r\n]([^\r\n])*(\r\n|\r|\n)+` (YappsStarParser.nw 277) -/
def scLine : Rx := seqs [cls fun c => c != ';' && notNlCr c, star (cls notNlCr), lineEnds]

/-- `[^\s]*` -/
def nonSpaces : Rx := star (cls fun c => !isSpace c)

/-- `(?!(((S|s)(A|a)(V|v)(E|e)_[^\s]*)|((G|g)...)|((S|s)(T|t)...)|((D|d)...)))` -/
def notReserved : Rx :=
  notAhead (alt (seq saveWord nonSpaces) (alt (seq globalWord nonSpaces) (alt (seq stopWord nonSpaces) (seq dataWord nonSpaces))))

/-- `'(('(?=\S))|([^\n\r\f']))*'+` -/
def quoted1 : Rx :=
  seqs [ch '\'', star (alt (seq (ch '\'') (ahead (cls fun c => !isSpace c)))
    (cls fun c => c != '\n' && c != '\r' && c != '\x0c' && c != '\'')), plus (ch '\'')]

/-- `"(("(?=\S))|([^\n\r"]))*"+` -/
def dquoted1 : Rx :=
  seqs [ch '"', star (alt (seq (ch '"') (ahead (cls fun c => !isSpace c)))
    (cls fun c => c != '\n' && c != '\r' && c != '"')), plus (ch '"')]

/-- The first character of a bare value in 1.1: `[^\s"#$'_\{\[\]]` (YappsStarParser.nw 279) -/
def bareStart11 (c : Char) : Bool :=
  !(isSpace c || c == '"' || c == '#' || c == '$' || c == '\'' || c == '_' || c == '{' || c == '[' || c == ']')

/-- The first character of a bare value in 1.0: `[^\s"#$'_]` (YappsStarParser.nw 300) -/
def bareStart10 (c : Char) : Bool :=
  !(isSpace c || c == '"' || c == '#' || c == '$' || c == '\'' || c == '_')

/-- `data_value_1` of 1.0 and 1.1 (YappsStarParser.nw 279, 300). -/
def dataValue1 (start : Char → Bool) : Rx :=
  alt (seqs [notReserved, cls start, nonSpaces]) (alt quoted1 dquoted1)

/-- Bracket characters excluded from bare values in 2.0: `\{\}\[\]` -/
def isBracket (c : Char) : Bool := c == '{' || c == '}' || c == '[' || c == ']'

/-- `data_value_1` of 2.0 (`comma = false`, YappsStarParser.nw 258) and STAR2 (`comma = true`, 217). -/
def dataValue2 (comma : Bool) : Rx :=
  let no (c : Char) := isSpace c || isBracket c || (comma && c == ',')
  seqs [notReserved, cls fun c => !(no c || c == '"' || c == '#' || c == '$' || c == '\'' || c == '_'),
    star (cls fun c => !no c)]

/-- `(?s)'''.*?'''|""".*?"""` (YappsStarParser.nw 246) -/
def triple : Rx :=
  alt (seqs [lit "'''".toList, lazy (cls fun _ => true), lit "'''".toList])
    (seqs [lit "\"\"\"".toList, lazy (cls fun _ => true), lit "\"\"\"".toList])

/-- `'([^\n\r\f'])*'+|"([^\n\r"])*"+` (YappsStarParser.nw 247) -/
def single2 : Rx :=
  alt (seqs [ch '\'', star (cls fun c => c != '\n' && c != '\r' && c != '\x0c' && c != '\''), plus (ch '\'')])
    (seqs [ch '"', star (cls fun c => c != '\n' && c != '\r' && c != '"'), plus (ch '"')])

end Pat

/-- Token names of all grammars; `internalSq` is the unused `dat_val_internal_sq`. -/
inductive Tk where
  | ignore1 | ignore2 | colon | comma
  | loop | global | stop | saveHeading | saveEnd | dataName | dataHeading
  | startSc | scLine | endSc | value | fin
  | closeCurly | openCurly | closeSquare | openSquare | internalSq | triple | single
  deriving DecidableEq, Repr

namespace Pat
open Rx

/-- A list of named patterns, in the order in which the scanner tries them. -/
abbrev Table := List (Tk × Rx)

/-- The patterns common to 1.0 and 1.1 (YappsStarParser.nw 264-302), in file order; `ignore` patterns are also in the list
(parsetree.py 41-48, 265-268). -/
def table1 (start : Char → Bool) : Table :=
  [(.ignore1, ignore1), (.ignore2, ignore2), (.loop, loopWord), (.global, globalWord), (.stop, stopWord),
   (.saveHeading, seq saveWord (plus (cls nameChar1))), (.saveEnd, saveWord),
   (.dataName, seq (ch '_') (plus (cls nameChar1))), (.dataHeading, seq dataWord (plus (cls nameChar1))),
   (.startSc, startSc), (.scLine, scLine), (.endSc, ch ';'), (.value, dataValue1 start), (.fin, eol)]

/-- CIF 1.1 (YappsStarParser.nw 264-281). -/
def table11 : Table := table1 bareStart11

/-- CIF 1.0 (YappsStarParser.nw 285-302). -/
def table10 : Table := table1 bareStart10

/-- CIF 2.0 and STAR2 (YappsStarParser.nw 215-259). The literals of the grammar come first, the last one met before the
others (grammar.py 189). -/
def table2 (comma : Bool) : Table :=
  (if comma then [(.colon, ch ':'), (.comma, ch ',')] else [(.colon, ch ':')]) ++
  [(.ignore1, ignore1), (.ignore2, ignore2), (.loop, loopWord), (.global, globalWord), (.stop, stopWord),
   (.saveHeading, seq saveWord (plus (cls nameChar2))), (.saveEnd, saveWord),
   (.dataName, seq (ch '_') (plus (cls nameChar2))), (.dataHeading, seq dataWord (plus (cls nameChar2))),
   (.startSc, startSc), (.scLine, scLine), (.endSc, ch ';'),
   (.closeCurly, ch '}'), (.openCurly, ch '{'), (.closeSquare, ch ']'), (.openSquare, ch '['),
   (.internalSq, seqs [ch '[', star (cls fun c => !(isSpace c || c == '[' || c == ']')), ch ']']),
   (.triple, triple), (.single, single2)] ++
  (if comma then [(.fin, eol), (.value, dataValue2 true)] else [(.value, dataValue2 false), (.fin, eol)])

/-- The ignored token names (YappsStarParser.nw 266-267). -/
def ignored : List Tk := [.ignore1, .ignore2]

end Pat
end Verif
