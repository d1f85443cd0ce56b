import Verif.Model.Text
/-! # Reading Python expressions

The part of Python's lexical rules and expression grammar (The Python Language Reference, 2.3-2.7 and 6.2-6.17) used to say what a
text means: names, numbers, strings, brackets, calls, subscripts, slices, attributes and the operators with their precedences.
Strings with backslashes or line ends, comparisons that are chained, trailing commas, lambda and conditional expressions and keyword arguments are not
read; sets only if they consist of strings, comprehensions only in the form `[x for y in e if c]`. Nothing here refers to the translator. -/
namespace Verif
namespace PyText

/-- Python expressions. `none` is a missing part of a slice. -/
inductive Py where
  | name (s : Str)
  | num (s : Str)
  | str (s : Str)
  | none
  | attr (e : Py) (a : Str)
  | call (f : Py) (args : List Py)
  | index (e i : Py)
  | slice (start stop step : Py)
  | tuple (es : List Py)
  | list (es : List Py)
  | dict (keys vals : List Py)
  | set (es : List Py)
  | comp (elt x : Str) (over cond : Py)
  | bin (op : Str) (a b : Py)
  | un (op : Str) (a : Py)
  deriving Repr

/-- Tokens. -/
inductive Tok where
  | word (s : Str)
  | num (s : Str)
  | str (s : Str)
  | op (s : Str)
  deriving DecidableEq, Repr

/-- Characters that begin a name. -/
def nameStart (c : Char) : Bool := c.isAlpha || c == '_'

/-- Characters of a name. -/
def nameChar (c : Char) : Bool := c.isAlphanum || c == '_'

/-- The characters of a numeral: letters, digits, points, and a sign directly after the `e` of the exponent. -/
def numeral (prev : Char) : Str → Str × Str
  | [] => ([], [])
  | c :: r =>
    if nameChar c || c == '.' || ((c == '+' || c == '-') && (prev == 'e' || prev == 'E')) then
      (c :: (numeral c r).1, (numeral c r).2)
    else ([], c :: r)

/-- Digits, at least one. -/
def digits (s : Str) : Bool := !s.isEmpty && s.all Char.isDigit

/-- An exponent without its `e`. -/
def exponent : Str → Bool
  | '+' :: r => digits r
  | '-' :: r => digits r
  | r => digits r

/-- Numbers with point or exponent: the characters before the point, after it, and the exponent. -/
def floating (s : Str) : Bool :=
  let m := s.takeWhile fun c => c != 'e' && c != 'E'
  let e := s.dropWhile fun c => c != 'e' && c != 'E'
  let i := m.takeWhile fun c => c != '.'
  let f := m.dropWhile fun c => c != '.'
  (match f with
    | [] => digits i && !e.isEmpty
    | _ :: f => (i ++ f).all Char.isDigit && !(i ++ f).isEmpty) &&
  (match e with
    | [] => true
    | _ :: e => exponent e)

/-- Numerals: decimal integers, without leading zeros unless they are zero, and floating point numbers; either may be followed
by `j` (then leading zeros do not matter). -/
def isNumber (s : Str) : Bool :=
  match s.getLast? with
  | some 'j' => digits s.dropLast || floating s.dropLast
  | some 'J' => digits s.dropLast || floating s.dropLast
  | _ => (digits s && (s.head? != some '0' || s.all (· == '0'))) || floating s

/-- The characters up to the closing quote `q`, and the rest. -/
def shortString (q : Char) : Str → Option (Str × Str)
  | [] => none
  | c :: r =>
    if c = q then some ([], r)
    else if c = '\n' ∨ c = '\\' then none
    else (shortString q r).map fun p => (c :: p.1, p.2)

/-- The characters up to three closing quotes `q`, and the rest. -/
def longString (q : Char) : Str → Option (Str × Str)
  | [] => none
  | c :: r =>
    if (c :: r).take 3 = [q, q, q] then some ([], (c :: r).drop 3)
    else if c = '\n' ∨ c = '\\' then none
    else (longString q r).map fun p => (c :: p.1, p.2)

/-- A string whose first quote has been read. -/
def string (q : Char) (r : Str) : Option (Tok × Str) :=
  if r.take 2 = [q, q] then (longString q (r.drop 2)).map fun p => (.str p.1, p.2)
  else (shortString q r).map fun p => (.str p.1, p.2)

/-- Quotes. -/
def isQuote (c : Char) : Bool := c == '\'' || c == '"'

/-- The letters that may stand before a string. -/
def isPrefix (c : Char) : Bool := c == 'r' || c == 'R' || c == 'u' || c == 'U'

/-- Operators and delimiters of one character. -/
def isDelim (c : Char) : Bool := "()[]{},:.+-*/%<>=&|".toList.contains c

/-- Operators of two characters. -/
def isPair (c d : Char) : Bool := (d == '=' && (c == '<' || c == '>' || c == '=' || c == '!')) || (c == '*' && d == '*')

/-- The text begins with a digit. -/
def digitNext : Str → Bool
  | d :: _ => d.isDigit
  | [] => false

/-- The next token of a text that begins with `c`. -/
def next (c : Char) (r : Str) : Option (Tok × Str) :=
  if isQuote c then string c r
  else if nameStart c then
    match r with
    | q :: r' =>
      if isPrefix c && isQuote q then string q r'
      else some (.word (c :: r.takeWhile nameChar), r.dropWhile nameChar)
    | [] => some (.word [c], [])
  else if c.isDigit || (c == '.' && digitNext r) then
    if isNumber (c :: (numeral c r).1) then some (.num (c :: (numeral c r).1), (numeral c r).2) else none
  else
    match r with
    | d :: r' =>
      if isPair c d then some (.op [c, d], r')
      else if isDelim c then some (.op [c], d :: r') else none
    | [] => if isDelim c then some (.op [c], []) else none

/-- The tokens of a text; blanks separate tokens. The number bounds the tokens and blanks read. -/
def tokens : Nat → Str → Option (List Tok)
  | _, [] => some []
  | 0, _ :: _ => none
  | n + 1, c :: r =>
    if c = ' ' then tokens n r
    else
      match next c r with
      | none => none
      | some (t, r') => (tokens n r').map (t :: ·)

/-- Words that are not names. -/
def keywords : List Str :=
  ["and".toList, "as".toList, "assert".toList, "async".toList, "await".toList, "break".toList, "class".toList,
   "continue".toList, "def".toList, "del".toList, "elif".toList, "else".toList, "except".toList, "finally".toList, "for".toList,
   "from".toList, "global".toList, "if".toList, "import".toList, "in".toList, "is".toList, "lambda".toList, "nonlocal".toList,
   "not".toList, "or".toList, "pass".toList, "raise".toList, "return".toList, "try".toList, "while".toList, "with".toList,
   "yield".toList]

/-- A name that can be given a value. -/
def freeName (w : Str) : Bool := !keywords.contains w && !["True".toList, "False".toList, "None".toList].contains w

/-- Strings separated by commas, at least one, up to the closing bracket of a set. -/
def setStrings : List Tok → Option (List Str × List Tok)
  | .str s :: .op o :: r =>
    if o = "}".toList then some ([s], r)
    else if o = ",".toList then (setStrings r).map fun p => (s :: p.1, p.2)
    else none
  | _ => none

/-- The beginning `x for y in` of a comprehension. -/
def compHead : List Tok → Option (Str × Str × List Tok)
  | .word a :: .word f :: .word x :: .word i :: r =>
    if f = "for".toList ∧ i = "in".toList ∧ a ∉ keywords ∧ freeName x then some (a, x, r) else none
  | _ => none

/-- An operator between two operands, with its precedence (6.17): from `or` (1), `and` (2), comparisons (4), `|` (5), `&` (6),
`+` and `-` (7), `*`, `/` and `%` (8) to `**` (10). `not` has 3 and the signs 9. -/
def infix_ : List Tok → Option (Str × Nat × List Tok)
  | .word w :: r =>
    if w = "or".toList then some (w, 1, r)
    else if w = "and".toList then some (w, 2, r)
    else if w = "in".toList then some (w, 4, r)
    else if w = "not".toList then
      match r with
      | .word v :: r' => if v = "in".toList then some ("not in".toList, 4, r') else none
      | _ => none
    else none
  | .op o :: r =>
    if o = "<".toList ∨ o = ">".toList ∨ o = "<=".toList ∨ o = ">=".toList ∨ o = "!=".toList ∨ o = "==".toList then some (o, 4, r)
    else if o = "|".toList then some (o, 5, r)
    else if o = "&".toList then some (o, 6, r)
    else if o = "+".toList ∨ o = "-".toList then some (o, 7, r)
    else if o = "*".toList ∨ o = "/".toList ∨ o = "%".toList then some (o, 8, r)
    else if o = "**".toList then some (o, 10, r)
    else none
  | _ => none

/-- The precedence at which the right operand of an operator of precedence `p` is read: operators associate to the left, except
`**`, whose right operand may be signed. -/
def rightPrec (p : Nat) : Nat := if p = 10 then 9 else p + 1

/-- A comparison is followed by another one. -/
def chained (p : Nat) (r : List Tok) : Bool :=
  p == 4 && (match infix_ r with | some (_, q, _) => q == 4 | none => false)

/-- Nothing has been read. -/
def missing : Py → Bool
  | .none => true
  | _ => false

mutual
/-- An expression made of operators of precedence `min` or more. The first number bounds the depth of the reading. -/
def parse : Nat → Nat → List Tok → Option (Py × List Tok)
  | 0, _, _ => none
  | n + 1, min, toks =>
    match toks with
    | .word w :: r =>
      if w = "not".toList then
        if min ≤ 3 then (parse n 3 r).bind fun p => operators n min (.un w p.1) p.2 else none
      else (primary n (.word w :: r)).bind fun p => operators n min p.1 p.2
    | .op o :: r =>
      if o = "-".toList ∨ o = "+".toList then
        if min ≤ 9 then (parse n 9 r).bind fun p => operators n min (.un o p.1) p.2 else none
      else (primary n (.op o :: r)).bind fun p => operators n min p.1 p.2
    | toks => (primary n toks).bind fun p => operators n min p.1 p.2
/-- Operators of precedence `min` or more, and their right operands, after the operand `a`. -/
def operators : Nat → Nat → Py → List Tok → Option (Py × List Tok)
  | 0, _, _, _ => none
  | n + 1, min, a, toks =>
    match infix_ toks with
    | none => some (a, toks)
    | some (o, p, r) =>
      if min ≤ p then
        (parse n (rightPrec p) r).bind fun q =>
          if chained p q.2 then none else operators n min (.bin o a q.1) q.2
      else some (a, toks)
/-- An atom and what follows it. -/
def primary : Nat → List Tok → Option (Py × List Tok)
  | 0, _ => none
  | n + 1, toks =>
    match toks with
    | .word w :: r => if w ∈ keywords then none else trailers n (.name w) r
    | .num s :: r => trailers n (.num s) r
    | .str s :: r => trailers n (.str s) r
    | .op o :: r =>
      if o = "(".toList then
        (sequence n ")".toList r).bind fun p =>
          match p.1 with
          | [e] => trailers n e p.2
          | es => trailers n (.tuple es) p.2
      else if o = "[".toList then
        match compHead r with
        | some (a, x, r') => (comprehension n a x r').bind fun p => trailers n p.1 p.2
        | none => (sequence n "]".toList r).bind fun p => trailers n (.list p.1) p.2
      else if o = "{".toList then
        match setStrings r with
        | some (ss, r') => trailers n (.set (ss.map .str)) r'
        | none => (mapping n r).bind fun p => trailers n (.dict p.1.1 p.1.2) p.2
      else none
    | [] => none
/-- Attributes, calls and subscripts. -/
def trailers : Nat → Py → List Tok → Option (Py × List Tok)
  | 0, _, _ => none
  | n + 1, e, toks =>
    match toks with
    | .op o :: r =>
      if o = ".".toList then
        match r with
        | .word w :: r' => if w ∈ keywords then none else trailers n (.attr e w) r'
        | _ => none
      else if o = "(".toList then (sequence n ")".toList r).bind fun p => trailers n (.call e p.1) p.2
      else if o = "[".toList then
        (subscripts n r).bind fun p =>
          match p.1 with
          | [i] => trailers n (.index e i) p.2
          | is => trailers n (.index e (.tuple is)) p.2
      else some (e, .op o :: r)
    | toks => some (e, toks)
/-- Expressions separated by commas, up to the bracket `close`; there may be none. -/
def sequence : Nat → Str → List Tok → Option (List Py × List Tok)
  | 0, _, _ => none
  | n + 1, close, toks =>
    if toks.head? = some (.op close) then some ([], toks.tail) else sequence1 n close toks
/-- Expressions separated by commas, up to the bracket `close`; at least one. -/
def sequence1 : Nat → Str → List Tok → Option (List Py × List Tok)
  | 0, _, _ => none
  | n + 1, close, toks =>
    (parse n 1 toks).bind fun p =>
      match p.2 with
      | .op o :: r =>
        if o = close then some ([p.1], r)
        else if o = ",".toList then (sequence1 n close r).map fun q => (p.1 :: q.1, q.2)
        else none
      | _ => none
/-- Entries of a dictionary, up to the closing bracket. -/
def mapping : Nat → List Tok → Option ((List Py × List Py) × List Tok)
  | 0, _ => none
  | n + 1, toks =>
    if toks.head? = some (.op "}".toList) then some (([], []), toks.tail) else mapping1 n toks
/-- Entries of a dictionary; at least one. -/
def mapping1 : Nat → List Tok → Option ((List Py × List Py) × List Tok)
  | 0, _ => none
  | n + 1, toks =>
    (parse n 1 toks).bind fun k =>
      match k.2 with
      | .op o :: r =>
        if o = ":".toList then
          (parse n 1 r).bind fun v =>
            match v.2 with
            | .op o :: r =>
              if o = "}".toList then some (([k.1], [v.1]), r)
              else if o = ",".toList then (mapping1 n r).map fun q => ((k.1 :: q.1.1, v.1 :: q.1.2), q.2)
              else none
            | _ => none
        else none
      | _ => none
/-- The part `e if c]` of a comprehension. -/
def comprehension : Nat → Str → Str → List Tok → Option (Py × List Tok)
  | 0, _, _, _ => none
  | n + 1, a, x, toks =>
    (parse n 1 toks).bind fun p =>
      match p.2 with
      | .word w :: r =>
        if w = "if".toList then
          (parse n 1 r).bind fun q =>
            match q.2 with
            | .op o :: r => if o = "]".toList then some (.comp a x p.1 q.1, r) else none
            | _ => none
        else none
      | _ => none
/-- Subscripts separated by commas, up to the closing bracket; at least one. -/
def subscripts : Nat → List Tok → Option (List Py × List Tok)
  | 0, _ => none
  | n + 1, toks =>
    (subscript n toks).bind fun p =>
      match p.2 with
      | .op o :: r =>
        if o = "]".toList then some ([p.1], r)
        else if o = ",".toList then (subscripts n r).map fun q => (p.1 :: q.1, q.2)
        else none
      | _ => none
/-- An expression, or a slice. -/
def subscript : Nat → List Tok → Option (Py × List Tok)
  | 0, _ => none
  | n + 1, toks =>
    (part n toks).bind fun a =>
      if a.2.head? = some (.op ":".toList) then
        (part n a.2.tail).bind fun b =>
          if b.2.head? = some (.op ":".toList) then
            (part n b.2.tail).map fun c => (.slice a.1 b.1 c.1, c.2)
          else some (.slice a.1 b.1 .none, b.2)
      else if missing a.1 then none else some a
/-- A part of a slice, or nothing. -/
def part : Nat → List Tok → Option (Py × List Tok)
  | 0, _ => none
  | n + 1, toks =>
    match toks.head? with
    | some (.op o) => if o = ":".toList ∨ o = ",".toList ∨ o = "]".toList then some (.none, toks) else parse n 1 toks
    | _ => parse n 1 toks
end

/-- `e` is what Python reads in the text `s`. -/
def Reads (s : Str) (e : Py) : Prop :=
  ∃ n toks, tokens n s = some toks ∧ parse n 1 toks = some (e, [])

end PyText
end Verif
