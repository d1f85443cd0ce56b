import Verif.Spec.DrelProgram
/-! # Specification: how tokens are written

Tokens are written one after the other, each followed by a blank, except for ends of lines. -/
namespace Verif
namespace Drel
open LR DrelPy

/-- `a` to `z`, `A` to `Z`. -/
def Letter (c : Char) : Prop := ('a' ≤ c ∧ c ≤ 'z') ∨ ('A' ≤ c ∧ c ≤ 'Z')
/-- `0` to `9`. -/
def Digit (c : Char) : Prop := '0' ≤ c ∧ c ≤ '9'

/-- The texts of reserved words. -/
def reservedWords : List String :=
  ["and", "or", "in", "not", "do", "Do", "for", "For", "loop", "Loop", "as", "with", "With", "where", "Where", "else", "Else", "Next", "next", "break", "Break", "if",
   "If", "switch", "case", "Function", "function", "Print", "print", "Repeat", "repeat", "default"]

/-- `else` in any mixture of capitals. -/
def isElse : Str → Bool
  | [a, b, c, d] => (a == 'e' || a == 'E') && (b == 'l' || b == 'L') && (c == 's' || c == 'S') && (d == 'e' || d == 'E')
  | _ => false

/-- Names: a letter, then letters, digits, underscores and dollars; not reserved. -/
def IsName : Str → Prop
  | [] => False
  | c :: r => Letter c ∧ (∀ x ∈ r, Letter x ∨ Digit x ∨ x = '_' ∨ x = '$') ∧ (∀ w ∈ reservedWords, w.toList ≠ c :: r) ∧ isElse (c :: r) = false

/-- Names of items: an underscore, then letters, digits and underscores, at least one. -/
def IsTag : Str → Prop
  | '_' :: r => r ≠ [] ∧ ∀ x ∈ r, Letter x ∨ Digit x ∨ x = '_'
  | _ => False

/-- Integers. -/
def IsInt (s : Str) : Prop := s ≠ [] ∧ ∀ x ∈ s, Digit x

/-- Exponents: nothing, or `e` or `E`, a sign or none, and digits. -/
def IsExpo (s : Str) : Prop :=
  s = [] ∨ ∃ (c : Char) (sign ds : Str), (c = 'e' ∨ c = 'E') ∧ (sign = [] ∨ sign = ['+'] ∨ sign = ['-']) ∧ IsInt ds ∧ s = c :: (sign ++ ds)

/-- Real numbers: digits with a point, and an exponent. -/
def IsReal (s : Str) : Prop :=
  ∃ a b e : Str, (∀ x ∈ a, Digit x) ∧ (∀ x ∈ b, Digit x) ∧ (a ≠ [] ∨ b ≠ []) ∧ IsExpo e ∧ s = a ++ '.' :: (b ++ e)

/-- Imaginary numbers: an integer or a real number and `j` or `J`. -/
def IsImaginary (s : Str) : Prop := ∃ (a : Str) (c : Char), (IsInt a ∨ IsReal a) ∧ (c = 'j' ∨ c = 'J') ∧ s = a ++ [c]

/-- Short strings: between two quotes of the same kind, without this quote and on one line. -/
def IsShort (s : Str) : Prop := ∃ (q : Char) (m : Str), (q = '\'' ∨ q = '"') ∧ (∀ x ∈ m, x ≠ q ∧ x ≠ '\n') ∧ s = q :: (m ++ [q])

/-- Words and signs, with the kinds of their tokens. -/
def signs : List (Nat × String) :=
  [(K.semi, ";"), (K.brk, "break"), (K.next, "next"), (K.print, "print"), (K.augop, "++="), (K.augop, "+="), (K.augop, "-="), (K.augop, "--="), (K.augop, "*="),
   (K.augop, "/="), (K.assign, "="), (K.comma, ","), (K.or_, "or"), (K.badOr, "||"), (K.and_, "and"), (K.badAnd, "&&"), (K.not_, "not"), (K.in_, "in"),
   (K.lt, "<"), (K.gt, ">"), (K.gte, ">="), (K.lte, "<="), (K.neq, "!="), (K.isEqual, "=="), (K.plus, "+"), (K.minus, "-"), (K.star, "*"), (K.slash, "/"),
   (K.caret, "^"), (K.amp, "&"), (K.bar, "|"), (K.power, "**"), (K.tick, "`"), (K.openSq, "["), (K.closeSq, "]"), (K.openBrace, "{"), (K.closeBrace, "}"),
   (K.colon, ":"), (K.dot, "."), (K.if_, "if"), (K.elseif, "else if"), (K.for_, "for"), (K.loop, "loop"), (K.as_, "as"), (K.do_, "do"), (K.repeat_, "repeat"),
   (K.with_, "with"), (K.function, "function")]

/-- A token of this kind can be written with this text. -/
def Written (k : Nat) (s : Str) : Prop :=
  (∃ w : String, (k, w) ∈ signs ∧ s = w.toList) ∨ (k = K.openParen ∧ s = ['(']) ∨ (k = K.closeParen ∧ s = [')']) ∨ (k = K.newline ∧ s = ['\n']) ∨
  (k = K.else_ ∧ s = "else".toList) ∨ (k = K.id ∧ IsName s) ∨ (k = K.itemTag ∧ IsTag s) ∨ (k = K.integer ∧ IsInt s) ∨ (k = K.real ∧ IsReal s) ∨
  (k = K.imaginary ∧ IsImaginary s) ∨ (k = K.shortString ∧ IsShort s)

/-- Characters that end every token before them and are not part of it. -/
def separators : List Char := [' ', '\t', '\n', '#', '\\', '(', ')', '[', ']', '{', '}', ',', ';', ':', '^', '`']

/-- The text of a token. -/
def text : Tok Val → Str
  | (_, .str s) => s
  | _ => []

/-- The text of tokens. -/
def write : List (Tok Val) → Str
  | [] => []
  | t :: r => text t ++ (if t.1 = K.newline then write r else ' ' :: write r)

/-- The text begins with `if`, in any mixture of capitals. -/
def startsIf : Str → Bool
  | a :: b :: _ => (a == 'i' || a == 'I') && (b == 'f' || b == 'F')
  | _ => false

/-- The first token that is not an end of line does not begin with `if`. -/
def NoIf : List (Tok Val) → Prop
  | [] => True
  | t :: r => if t.1 = K.newline then NoIf r else startsIf (text t) = false

/-- What must not follow a token: another end of line after an end of line (they are one token); something that begins with `if` after `else`, on the same line or the
next (`else if` is one token). -/
def Apart (t : Tok Val) (r : List (Tok Val)) : Prop := (t.1 = K.newline → ∀ u ∈ r.head?, u.1 ≠ K.newline) ∧ (t.1 = K.else_ → NoIf r)

/-- Tokens that can be written with `d` parentheses open: parentheses are closed only if one is open, and lines end only outside parentheses. -/
def Writable : Nat → List (Tok Val) → Prop
  | _, [] => True
  | d, (k, v) :: r =>
    (∃ s, v = .str s ∧ Written k s) ∧ Apart (k, v) r ∧
    if k = K.openParen then Writable (d + 1) r
    else if k = K.closeParen then 0 < d ∧ Writable (d - 1) r
    else (k = K.newline → d = 0) ∧ Writable d r

/-! ## What is in a text -/

/-- The value of a binary, octal or hexadecimal digit. -/
def digitValue (c : Char) : Nat := if '0' ≤ c ∧ c ≤ '9' then c.toNat - '0'.toNat else if 'a' ≤ c ∧ c ≤ 'f' then 10 + (c.toNat - 'a'.toNat) else 10 + (c.toNat - 'A'.toNat)

/-- The number that digits stand for. -/
def numberOf (base : Nat) : Str → Nat
  | [] => 0
  | c :: r => digitValue c * base ^ r.length + numberOf base r

/-- `Reading d toks s`: with `d` parentheses open the text `s` consists of the tokens and of nothing else but blanks, comments up to the end of the line, escaped ends of
lines and, in parentheses, ends of lines. Each token has its text, without change, as its value; only numbers with a base have their decimal digits instead. -/
inductive Reading : Nat → List (Tok Val) → Str → Prop
  | stop (d : Nat) : Reading d [] []
  | blank {d : Nat} {ts : List (Tok Val)} {r : Str} (c : Char) (hc : c = ' ' ∨ c = '\t') (h : Reading d ts r) : Reading d ts (c :: r)
  | line {d : Nat} {ts : List (Tok Val)} {r : Str} (h : Reading (d + 1) ts r) : Reading (d + 1) ts ('\n' :: r)
  | continued {d : Nat} {ts : List (Tok Val)} {r : Str} (h : Reading d ts r) : Reading d ts ('\\' :: '\n' :: r)
  | comment {d : Nat} {ts : List (Tok Val)} {r : Str} (s : Str) (hs : '\n' ∉ s) (hr : ∀ c ∈ r.head?, c = '\n') (h : Reading d ts r) : Reading d ts ('#' :: (s ++ r))
  | opens {d : Nat} {ts : List (Tok Val)} {r : Str} (h : Reading (d + 1) ts r) : Reading d ((K.openParen, .str ['(']) :: ts) ('(' :: r)
  | closes {d : Nat} {ts : List (Tok Val)} {r : Str} (h : Reading d ts r) : Reading (d + 1) ((K.closeParen, .str [')']) :: ts) (')' :: r)
  | ends {ts : List (Tok Val)} {r : Str} (s : Str) (hs : ∀ c ∈ s, c = '\n' ∨ c = ' ' ∨ c = '\t') (hr : ∀ c ∈ r.head?, c ≠ '\n' ∧ c ≠ ' ' ∧ c ≠ '\t') (h : Reading 0 ts r) :
      Reading 0 ((K.newline, .str ('\n' :: s)) :: ts) ('\n' :: (s ++ r))
  | based {d : Nat} {ts : List (Tok Val)} {r : Str} (k base : Nat) (a b : Char) (s : Str) (hk : (k, base) ∈ [(K.binint, 2), (K.octint, 8), (K.hexint, 16)])
      (h : Reading d ts r) : Reading d ((k, .str (toString (numberOf base s)).toList) :: ts) (a :: b :: (s ++ r))
  | token {d : Nat} {ts : List (Tok Val)} {r : Str} (k : Nat) (s : Str) (hs : s ≠ []) (hk : k ∉ [K.openParen, K.closeParen, K.newline, K.binint, K.octint, K.hexint])
      (h : Reading d ts r) : Reading d ((k, .str s) :: ts) (s ++ r)

/-! ## Expressions and programs whose names and literals can be written -/

mutual
/-- The names, tags and literals of an expression are such. -/
def Spelled (kind : Str → Nat) : Expr → Prop
  | .name s => IsName s
  | .tag s => IsTag s
  | .lit s => Written (kind s) s
  | .group es | .list es => SpelledAll kind es
  | .table ks vs => (∀ k ∈ ks, IsShort k) ∧ SpelledAll kind vs
  | .attr p a => Spelled kind p ∧ IsName a
  | .sub p i => Spelled kind p ∧ Spelled kind i
  | .items p es => Spelled kind p ∧ SpelledAll kind es
  | .slice p parts => Spelled kind p ∧ SpelledAll kind parts
  | .slices p => Spelled kind p
  | .int0 => True
  | .call f args => IsName f ∧ SpelledAll kind args
  | .op _ a b => Spelled kind a ∧ Spelled kind b
  | .sign _ a => Spelled kind a
  | .not a => Spelled kind a
/-- Those of all the expressions. -/
def SpelledAll (kind : Str → Nat) : List Expr → Prop
  | [] => True
  | e :: es => Spelled kind e ∧ SpelledAll kind es
end

/-- The operators of assignments. -/
def assignOps : List String := ["=", "++=", "+=", "-=", "--=", "*=", "/="]

/-- The names and literals of a simple statement are such. -/
def SpelledSmall (kind : Str → Nat) : Stmt → Prop
  | .exprs es => SpelledAll kind es
  | .assign l op r => SpelledAll kind l ∧ (∃ w ∈ assignOps, op = w.toList) ∧ SpelledAll kind r
  | .fancy cat ks vs => IsName cat ∧ (∀ k ∈ ks, IsName k) ∧ SpelledAll kind vs
  | .print e => Spelled kind e
  | _ => True

mutual
/-- The names and literals of a line are such. -/
def Line.Spelled (kind : Str → Nat) : Line → Prop
  | .small s more => SpelledSmall kind s ∧ ∀ t ∈ more, SpelledSmall kind t
  | .ite c b els => Drel.Spelled kind c ∧ b.Spelled kind ∧ els.Spelled kind
  | .do_ i a z st b => IsName i ∧ Drel.Spelled kind a ∧ Drel.Spelled kind z ∧ Drel.Spelled kind st ∧ b.Spelled kind
  | .for_ i ids x over b => IsName i ∧ (∀ s ∈ ids, IsName s) ∧ SpelledAll kind (x :: over) ∧ b.Spelled kind
  | .rep b => b.Spelled kind
  | .with_ a c b | .loop a c b => IsName a ∧ IsName c ∧ b.Spelled kind
  | .loopIndex a c i b => IsName a ∧ IsName c ∧ IsName i ∧ b.Spelled kind
  | .loopTest a c i _ l b => IsName a ∧ IsName c ∧ IsName i ∧ IsName l ∧ b.Spelled kind
  | .func f x xs b => IsName f ∧ IsName x ∧ (∀ s ∈ xs, IsName s) ∧ b.Spelled kind
/-- Those of a body. -/
def Body.Spelled (kind : Str → Nat) : Body → Prop
  | .mk l r => l.Spelled kind ∧ r.Spelled kind
/-- Those of lines. -/
def Lines.Spelled (kind : Str → Nat) : Lines → Prop
  | .nil => True
  | .cons l r => l.Spelled kind ∧ r.Spelled kind
/-- Those of alternatives. -/
def Elses.Spelled (kind : Str → Nat) : Elses → Prop
  | .nil => True
  | .else_ b => b.Spelled kind
  | .elseif c b r => Drel.Spelled kind c ∧ b.Spelled kind ∧ r.Spelled kind
end

end Drel
end Verif
