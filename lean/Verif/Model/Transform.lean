import Verif.Model.DrelLex
import Verif.Model.Block
import Verif.Model.CifDic
/-! # The dREL methods of a dictionary

`transform_drel` and `add_drel_funcs`: all methods of all dictionaries are read by one parser and one lexer, which remembers
how many parentheses are open. -/
namespace Verif
namespace Drel
open LR
variable [CaseFold]

/-- The ends of lines for `str.splitlines`, other than carriage return and line feed together. -/
def lineEnd (c : Char) : Bool :=
  c == '\n' || c == '\r' || c == '\x0b' || c == '\x0c' || c == '\x1c' || c == '\x1d' || c == '\x1e' || c == '\u0085' ||
    c == '\u2028' || c == '\u2029'

/-- `text.splitlines()`, with the line so far (reversed). -/
def splitLinesFrom : Str → Str → List Str
  | [], [] => []
  | cur, [] => [cur.reverse]
  | cur, '\r' :: '\n' :: r => cur.reverse :: splitLinesFrom [] r
  | cur, c :: r => if lineEnd c then cur.reverse :: splitLinesFrom [] r else splitLinesFrom (c :: cur) r

/-- `"\n".join(lines)`. -/
def joinNl : List Str → Str
  | [] => []
  | [l] => l
  | l :: r => l ++ '\n' :: joinNl r

/-- `"\n".join(text.splitlines())` (CifFile_module.nw 2820, 2869). -/
def unixLines (s : Str) : Str := joinNl (splitLinesFrom [] s)

/-- The tokens up to the end of the text or an illegal character, each with the number of parentheses that are open after it;
the number at that place; and whether it is the end. -/
def lexed : Nat → Nat → Str → List (Tok Val × Nat) × Nat × Bool
  | 0, d, _ => ([], d, false)
  | n + 1, d, s =>
    match Lex.round d s with
    | .stop => ([], d, true)
    | .error => ([], d, false)
    | .skip d' r => lexed n d' r
    | .tok t d' r =>
      match lexed n d' r with
      | (ts, e, b) => ((t, d') :: ts, e, b)

/-- As `LR.run`, with the number of tokens that are left. -/
def trace {V : Type} (G : List (Rule V)) (T : Table) : Nat → Cfg V → Option (Option V × Nat)
  | 0, _ => none
  | n + 1, c =>
    match step G T c with
    | .error => some (none, c.input.length)
    | .done v => some (some v, c.input.length)
    | .next c' => trace G T n c'

/-- `parser.parse(text,lexer=lexer)` (CifFile_module.nw 2824, 2871) when `d` parentheses are open already, in at most `n` steps:
the tree, or nothing if an exception is raised, and the number of parentheses that are open then. The parser asks for tokens
one by one, so that the lexer stops at the token that is out of place. `none`: not finished. -/
def parseN (n d : Nat) (s : Str) : Option (Option Val × Nat) :=
  match lexed (s.length + 1) d s with
  | (ts, e, ends) =>
    match trace grammar table n ⟨[], ts.map (·.1)⟩ with
    | none => none
    | some (r, 0) => some (if ends then r else none, e)
    | some (_, k + 1) => some (none, ((ts[ts.length - (k + 1)]?).map (·.2)).getD e)

/-- What is done with the text of one method (CifFile_module.nw 2820-2840). After an exception the lexer is set back to its
initial state (2832). `make` stands for `make_python_function`. -/
def methodN {Py : Type} (n : Nat) (make : Val → Except PyErr Py) (d : Nat) (s : Str) : Option (Except PyErr (Option Py) × Nat) :=
  match parseN n d (unixLines s ++ ['\n']) with
  | none => none
  | some (none, _) => some (.ok none, 0)
  | some (some v, d') =>
    match make v with
    | .error e => some (.error e, d')
    | .ok p => some (.ok (some p), d')

/-- The text of a method; others than texts have no `splitlines`. -/
def textOf : PyVal → Option Str
  | .str s => some s
  | _ => none

/-- The loop over the methods of a definition (CifFile_module.nw 2817-2840). -/
def methodsN {Py : Type} (n : Nat) (make : Val → Except PyErr Py) : Nat → List (PyVal × PyVal) → Option (Except PyErr (List Py) × Nat)
  | d, [] => some (.ok [], d)
  | d, (p, e) :: r =>
    if p = .str "Evaluation".toList then
      match textOf e with
      | some s =>
        match methodN n make d s with
        | none => none
        | some (.error x, d') => some (.error x, d')
        | some (.ok o, d') =>
          match methodsN n make d' r with
          | none => none
          | some (.error x, d'') => some (.error x, d'')
          | some (.ok l, d'') => some (.ok (o.toList ++ l), d'')
      | none => some (.error .attribute, d)
    else methodsN n make d r

/-- `isinstance(value,list)`. -/
def isPyList : PyVal → Bool
  | .list _ => true
  | .slist _ => true
  | _ => false

/-- Purposes and expressions of a definition (CifFile_module.nw 2810-2817). -/
def pairsOf (b : Block) : Except PyErr (List (PyVal × PyVal)) := do
  let exprs ← b.getItem "_method.expression".toList
  let purposes ← b.getItem "_method.purpose".toList
  if isPyList exprs then do
    let ps ← Block.pyIter purposes
    let es ← Block.pyIter exprs
    .ok (ps.zip es)
  else .ok [(purposes, exprs)]

/-- `block.get(name,default)`. -/
def getOr (b : Block) (name : Str) (dflt : PyVal) : PyVal :=
  match b.getItem name with
  | .ok v => v
  | .error _ => dflt

/-- Whether a definition is in `derivable_list` (CifFile_module.nw 2804-2805). -/
def derivable (b : Block) : Bool :=
  b.contains "_method.expression".toList && decide (getOr b "_name.category_id".toList (.str []) ≠ .str "function".toList)

/-- Whether the definition is a category (CifFile_module.nw 2835-2837). -/
def isCatDef (b : Block) : Bool := decide (getOr b "_definition.scope".toList (.str "Item".toList) = .str "Category".toList)

/-- `transform_drel` (CifFile_module.nw 2789-2846): the definitions that are given a `_method.py_expression`, with its value.
The definitions are those of the dictionary in the order of its names. Simplified: what the methods need to know of the
dictionary is part of `make`, and storing the value (2842-2845) is left to the reader of the result. -/
def transformN {Py : Type} (n : Nat) (make : Str → Bool → Val → Except PyErr Py) :
    Nat → List (Str × Block) → Option (Except PyErr (List (Str × List Py)) × Nat)
  | d, [] => some (.ok [], d)
  | d, (name, b) :: r =>
    if derivable b then
      match pairsOf b with
      | .error e => some (.error e, d)
      | .ok ms =>
        match methodsN n (make name (isCatDef b)) d ms with
        | none => none
        | some (.error e, d') => some (.error e, d')
        | some (.ok l, d') =>
          match transformN n make d' r with
          | none => none
          | some (.error e, d'') => some (.error e, d'')
          | some (.ok out, d'') => some (.ok (if l.isEmpty then out else (name, l) :: out), d'')
    else transformN n make d r

/-- The loop of `add_drel_funcs` (CifFile_module.nw 2868-2875) over the names and bodies of functions. Exceptions are not caught,
and the lexer is left as it is. Simplified: `SyntaxError` and `LexError` are one error. -/
def functionsN {Py : Type} (n : Nat) (make : Str → Val → Except PyErr Py) : Nat → List (Str × Str) → Option (Except PyErr (List Py) × Nat)
  | d, [] => some (.ok [], d)
  | d, (name, body) :: r =>
    match parseN n d (unixLines body) with
    | none => none
    | some (none, d') => some (.error .syntax, d')
    | some (some v, d') =>
      match make name v with
      | .error e => some (.error e, d')
      | .ok p =>
        match functionsN n make d' r with
        | none => none
        | some (.error e, d'') => some (.error e, d'')
        | some (.ok l, d'') => some (.ok (p :: l), d'')

end Drel
end Verif
