import Verif.Model.Regex
import Verif.Model.DrelTable
import Verif.Model.DrelGrammar
/-! # The lexer of dREL

`/repo/src/drel/drel_lex.py`, as PLY runs it: at each position first the characters to be ignored in the present state are passed over, then the rules are tried
one after the other and the first that matches is taken (functions in the order of the file, then the rules given as text, longest pattern first; rules of
the state `paren` before those of the initial state), then the single characters of `literals`; otherwise `t_error` is called, which moves on nowhere, so that PLY
raises `LexError`. PLY is not part of `/repo`; that it works in this way is taken from its documentation. -/
namespace Verif
namespace Drel
namespace Lex
open LR
open Rx

/-- `[0-9]` -/
def digit (c : Char) : Bool := '0' ≤ c && c ≤ '9'
/-- `[a-zA-Z]` -/
def alpha (c : Char) : Bool := ('a' ≤ c && c ≤ 'z') || ('A' ≤ c && c ≤ 'Z')
/-- `[a-zA-Z0-9_$]` -/
def idChar (c : Char) : Bool := alpha c || digit c || c == '_' || c == '$'
/-- `[a-zA-Z_0-9]` -/
def tagChar (c : Char) : Bool := alpha c || digit c || c == '_'

/-- `(...)?` -/
def opt (r : Rx) : Rx := alt r eps
/-- One of two characters. -/
def two (a b : Char) : Rx := cls fun c => c == a || c == b
/-- `[0-9]+` -/
def digits : Rx := plus (cls digit)

/-- `t_AUGOP` (drel_lex.py 76). -/
def augop : Rx := alt (lit "++=".toList) (alt (lit "+=".toList) (alt (lit "-=".toList) (alt (lit "--=".toList) (alt (lit "*=".toList) (lit "/=".toList)))))
/-- `[Ee][+-]?[0-9]+` -/
def expo : Rx := seqs [two 'E' 'e', opt (two '+' '-'), digits]
/-- `t_REAL` (drel_lex.py 106): `(([0-9]+[.][0-9]*)|([.][0-9]+))([Ee][+-]?[0-9]+)?` -/
def real : Rx := seq (alt (seqs [digits, ch '.', star (cls digit)]) (seq (ch '.') digits)) (opt expo)
/-- `t_IMAGINARY` (drel_lex.py 102): a real or an integer, then `[jJ]`. -/
def imaginary : Rx := seq (alt real digits) (two 'j' 'J')
/-- `t_BININT` (drel_lex.py 117): `0[bB][0-1]+` -/
def binint : Rx := seqs [ch '0', two 'b' 'B', plus (two '0' '1')]
/-- `t_OCTINT` (drel_lex.py 125): `0[oO][0-7]+` -/
def octint : Rx := seqs [ch '0', two 'o' 'O', plus (cls fun c => '0' ≤ c && c ≤ '7')]
/-- `[0-9a-fA-F]` -/
def hexDigit (c : Char) : Bool := digit c || ('a' ≤ c && c ≤ 'f') || ('A' ≤ c && c ≤ 'F')
/-- `t_HEXINT` (drel_lex.py 133): `0[xX][0-9a-fA-F]+` -/
def hexint : Rx := seqs [ch '0', two 'x' 'X', plus (cls hexDigit)]
/-- `(?=["'])` -/
def quoteNext : Rx := ahead (two '"' '\'')
/-- `t_STRPREFIX` (drel_lex.py 149). -/
def strPrefix : Rx :=
  alt (seq (ch 'r') quoteNext) (alt (seq (ch 'u') quoteNext) (alt (seq (ch 'R') quoteNext) (alt (seq (ch 'U') quoteNext)
    (alt (seqs [ch 'u', ch 'r', quoteNext]) (alt (seqs [ch 'U', ch 'R', quoteNext]) (alt (seqs [ch 'U', ch 'r', quoteNext]) (seqs [ch 'u', ch 'R', quoteNext])))))))
/-- `\\.` (`.` is anything but a line feed) -/
def escaped : Rx := seq (ch '\\') (cls (· != '\n'))
/-- `qqq([^\\]|(\\.))*qqq` -/
def longOf (q : Char) : Rx := seqs [lit [q, q, q], star (alt (cls (· != '\\')) escaped), lit [q, q, q]]
/-- `t_LONGSTRING` (drel_lex.py 154). -/
def longString : Rx := alt (longOf '\'') (longOf '"')
/-- `q([^q\n]|(\\.))*q` -/
def shortOf (q : Char) : Rx := seqs [ch q, star (alt (cls fun c => c != q && c != '\n') escaped), ch q]
/-- `t_SHORTSTRING` (drel_lex.py 159). -/
def shortString : Rx := alt (shortOf '\'') (shortOf '"')
/-- `t_ELSEIF` (drel_lex.py 164): `[Ee][Ll][Ss][Ee]\s+[Ii][Ff]` -/
def elseif : Rx := seqs [two 'E' 'e', two 'L' 'l', two 'S' 's', two 'E' 'e', plus (cls isSpace), two 'I' 'i', two 'F' 'f']
/-- `t_ID` (drel_lex.py 203). -/
def ident : Rx := seq (cls alpha) (star (cls idChar))
/-- `t_ITEM_TAG` (drel_lex.py 210). -/
def itemTag : Rx := seq (ch '_') (plus (cls tagChar))
/-- `t_ESCAPE_NEWLINE` (drel_lex.py 214). -/
def escapeNewline : Rx := lit ['\\', '\n']
/-- `t_INITIAL_NEWLINE` (drel_lex.py 218): `\n[\n \t]*` -/
def newline : Rx := seq (ch '\n') (star (cls fun c => c == '\n' || c == ' ' || c == '\t'))
/-- `t_COMMENT` (drel_lex.py 223). -/
def comment : Rx := seq (ch '#') (star (cls (· != '\n')))

/-- What is done with a match. -/
inductive Todo where
  /-- a token of this kind with the text as value -/
  | give (k : Nat)
  /-- an opening parenthesis (drel_lex.py 80-89) -/
  | opens
  /-- a closing parenthesis (drel_lex.py 91-96) -/
  | closes
  /-- a token with the number in decimal digits; the base and how many characters are before the digits (drel_lex.py 116-138) -/
  | number (k base : Nat)
  /-- a name or a reserved word (drel_lex.py 202-205) -/
  | word
  /-- nothing (drel_lex.py 213-215, 222-224) -/
  | skip
  deriving DecidableEq, Repr

/-- The rules of the initial state (drel_lex.py 66-224); the patterns given as text are `t_ELLIPSIS`, `t_POWER`, `t_BADOR` and then those with two characters. -/
def initial : List (Rx × Todo) :=
  [(augop, .give K.augop), (ch '(', .opens), (imaginary, .give K.imaginary), (real, .give K.real), (binint, .number K.binint 2), (octint, .number K.octint 8),
   (hexint, .number K.hexint 16), (digits, .give K.integer), (strPrefix, .give K.strPrefix), (longString, .give K.longString), (shortString, .give K.shortString),
   (elseif, .give K.elseif), (ident, .word), (itemTag, .give K.itemTag), (escapeNewline, .skip), (newline, .give K.newline), (comment, .skip),
   (lit "...".toList, .give K.ellipsis), (lit "**".toList, .give K.power), (lit "||".toList, .give K.badOr), (lit "==".toList, .give K.isEqual),
   (lit "!=".toList, .give K.neq), (lit ">=".toList, .give K.gte), (lit "<=".toList, .give K.lte), (lit "&&".toList, .give K.badAnd)]

/-- The rules (drel_lex.py 6-8, 86-96): `paren` is inclusive. -/
def rules : Nat → List (Rx × Todo)
  | 0 => initial
  | _ + 1 => (ch '(', .opens) :: (ch ')', .closes) :: initial

/-- `t_INITIAL_ignore`, `t_paren_ignore` (drel_lex.py 60-61). -/
def ignored (depth : Nat) (c : Char) : Bool := c == ' ' || c == '\t' || (c == '\n' && decide (0 < depth))

/-- `literals` (drel_lex.py 59). -/
def literals : List (Char × Nat) :=
  [('+', K.plus), ('*', K.star), ('-', K.minus), ('/', K.slash), (';', K.semi), ('[', K.openSq), (']', K.closeSq), (',', K.comma), (':', K.colon), ('^', K.caret),
   ('<', K.lt), ('>', K.gt), ('{', K.openBrace), ('}', K.closeBrace), ('=', K.assign), ('.', K.dot), ('`', K.tick), ('&', K.amp), ('|', K.bar)]

/-- `reserved` (drel_lex.py 167-200). -/
def reserved : List (Str × Nat) :=
  [("and".toList, K.and_), ("or".toList, K.or_), ("in".toList, K.in_), ("not".toList, K.not_), ("do".toList, K.do_), ("Do".toList, K.do_),
   ("for".toList, K.for_), ("For".toList, K.for_), ("loop".toList, K.loop), ("Loop".toList, K.loop), ("as".toList, K.as_),
   ("with".toList, K.with_), ("With".toList, K.with_), ("where".toList, K.where_), ("Where".toList, K.where_), ("else".toList, K.else_), ("Else".toList, K.else_),
   ("Next".toList, K.next), ("next".toList, K.next), ("break".toList, K.brk), ("Break".toList, K.brk), ("if".toList, K.if_), ("If".toList, K.if_),
   ("switch".toList, K.switch), ("case".toList, K.case_), ("Function".toList, K.function), ("function".toList, K.function),
   ("Print".toList, K.print), ("print".toList, K.print), ("Repeat".toList, K.repeat_), ("repeat".toList, K.repeat_), ("default".toList, K.default_)]

/-- The value of a digit. -/
def digitVal (c : Char) : Nat := if digit c then c.toNat - 48 else if 'a' ≤ c ∧ c ≤ 'f' then c.toNat - 87 else c.toNat - 55

/-- `int(text,base)` of digits. -/
def intOf (base : Nat) (s : Str) : Nat := s.foldl (fun n c => n * base + digitVal c) 0

/-- The first rule that matches and the length of the match. -/
def pick (s : Str) : List (Rx × Todo) → Option (Todo × Nat)
  | [] => none
  | (r, a) :: rest => match r.matchLen s with
    | some k => some (a, k)
    | none => pick s rest

/-- What one round of the lexer gives: perhaps a token, and the number of open parentheses (`paren_level`; 0 in the initial state) and the text after it. -/
inductive Out where
  | tok (t : Tok Val) (depth : Nat) (rest : Str)
  | skip (depth : Nat) (rest : Str)
  | stop
  | error

/-- A match of `k` characters. -/
def act (depth : Nat) (s : Str) (k : Nat) : Todo → Out
  | .give n => .tok (n, .str (s.take k)) depth (s.drop k)
  | .opens => .tok (K.openParen, .str (s.take k)) (depth + 1) (s.drop k)
  | .closes => .tok (K.closeParen, .str (s.take k)) (depth - 1) (s.drop k)
  | .number n base => .tok (n, .str (toString (intOf base ((s.take k).drop 2))).toList) depth (s.drop k)
  | .word => .tok ((dget reserved (s.take k)).getD K.id, .str (s.take k)) depth (s.drop k)
  | .skip => .skip depth (s.drop k)

/-- A single character of `literals`. -/
def single (depth : Nat) (c : Char) (r : Str) : Out :=
  match dget literals c with
  | some n => .tok (n, .str [c]) depth r
  | none => .error

/-- One round of the lexer. -/
def round (depth : Nat) : Str → Out
  | [] => .stop
  | c :: r =>
    if ignored depth c then .skip depth r
    else match pick (c :: r) (rules depth) with
      | some (a, k) => act depth (c :: r) k a
      | none => single depth c r

/-- All tokens; `none` if `LexError` is raised. The bound is on rounds and is not reached (`C108_rounds`). -/
def tokens : Nat → Nat → Str → Option (List (Tok Val))
  | 0, _, _ => none
  | n + 1, depth, s => match round depth s with
    | .stop => some []
    | .error => none
    | .skip d r => tokens n d r
    | .tok t d r => (tokens n d r).map (t :: ·)

/-- The tokens of a text, from the initial state. -/
def lex (s : Str) : Option (List (Tok Val)) := tokens (s.length + 1) 0 s

end Lex

/-- `parser.parse(text,lexer=lexer)` (CifFile_module.nw 2824) returns `v`. -/
def Reads (text : Str) (v : Val) : Prop := ∃ toks, Lex.lex text = some toks ∧ LR.Parses grammar table toks v

end Drel
end Verif
