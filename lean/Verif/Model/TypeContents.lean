import Verif.Model.Scan
import Verif.Model.Value
/-! # Type expressions of DDLm

Models the parser generated by Yapps (`/repo/src/yapps3/parsetree.py`) from `/repo/src/TypeContentsParser.nw`, as used by
`interpret_structure` (`/repo/src/CifFile_module.nw` 4255-4260), and `Parser` of `/repo/src/yapps3_compiled_rt.py` 268-289. -/
namespace Verif

namespace Yapps
variable {N : Type} [DecidableEq N]

/-- `Parser` (yapps3_compiled_rt.py 268-275): the scanner and the number of tokens consumed. -/
structure State (N : Type) where
  scan : Scanner N
  pos : Nat := 0

/-- `_peek(*types)` (yapps3_compiled_rt.py 277-281). -/
def peek (lx : Lexer N) (types : List N) (p : State N) : Except PyErr (N × State N) :=
  match p.scan.token lx p.pos types with
  | (_, .error e) => .error e
  | (s, .ok t) => .ok (t.name, { p with scan := s })

/-- `_scan(type)` (yapps3_compiled_rt.py 283-289). -/
def take (lx : Lexer N) (type : N) (p : State N) : Except PyErr (Str × State N) :=
  match p.scan.token lx p.pos [type] with
  | (_, .error e) => .error e
  | (s, .ok t) => if t.name ≠ type then .error .syntax else .ok (t.text, { scan := s, pos := p.pos + 1 })

/-- The test after a repetition (parsetree.py 640-651). -/
def afterStar (lx : Lexer N) (follow : List N) (p : State N) : Except PyErr (State N) :=
  match peek lx [] p with
  | .error e => .error e
  | .ok (t, p') => if t ∈ follow then .ok p' else .error .syntax

/-- Named regular expressions and the names to be ignored as a lexer. -/
def lexer (tb : List (N × Rx)) (ignore : List N) : Lexer N := { patterns := tb.map fun p => (p.1, p.2.pattern), ignore := ignore }

end Yapps

namespace TypeContents
open Yapps

/-- The tokens (TypeContentsParser.nw 42-50). -/
inductive Tok where
  | blank | container | identifier | close | opening | comma | fin
  deriving DecidableEq, Repr

/-- `[A-Za-z]` -/
def isLetter (c : Char) : Bool := (decide ('A' ≤ c) && decide (c ≤ 'Z')) || (decide ('a' ≤ c) && decide (c ≤ 'z'))

/-- `[ \t\n\r]` -/
def isBlank (c : Char) : Bool := c == ' ' || c == '\t' || c == '\n' || c == '\r'

/-- The patterns in the order of the file (TypeContentsParser.nw 43-50). -/
def table : List (Tok × Rx) :=
  [(.blank, .cls isBlank), (.container, .seq (Rx.plus (.cls isLetter)) (Rx.ch '(')), (.identifier, Rx.plus (.cls isLetter)),
   (.close, Rx.ch ')'), (.opening, Rx.ch '('), (.comma, Rx.ch ','), (.fin, .eol)]

/-- The scanner of the type parser. -/
def lx : Lexer Tok := lexer table [.blank]

mutual
/-- `base_element` (TypeContentsParser.nw 67-69). The first argument bounds the number of nested calls and is never used up. -/
def baseElement : Nat → State Tok → Except PyErr (PyVal × State Tok)
  | 0, _ => .error .depth
  | n + 1, p =>
    match peek lx [.container, .identifier] p with
    | .error e => .error e
    | .ok (t, p1) =>
      if t = .container then
        match take lx .container p1 with
        | .error e => .error e
        | .ok (_, p2) =>
          match elementList n p2 with
          | .error e => .error e
          | .ok (vs, p3) =>
            match take lx .close p3 with
            | .error e => .error e
            | .ok (_, p4) => .ok (.list vs, p4)
      else
        match take lx .identifier p1 with
        | .error e => .error e
        | .ok (w, p2) => .ok (.str w, p2)
/-- `element_list` (TypeContentsParser.nw 71-74). -/
def elementList : Nat → State Tok → Except PyErr (List PyVal × State Tok)
  | 0, _ => .error .depth
  | n + 1, p =>
    match baseElement n p with
    | .error e => .error e
    | .ok (v, p1) => moreElements n [.comma, .close] [v] p1
/-- The repetition in `element_list` and in `input`, with its FOLLOW set. -/
def moreElements : Nat → List Tok → List PyVal → State Tok → Except PyErr (List PyVal × State Tok)
  | 0, _, _, _ => .error .depth
  | n + 1, follow, acc, p =>
    match peek lx follow p with
    | .error e => .error e
    | .ok (t, p1) =>
      if t = .comma then
        match take lx .comma p1 with
        | .error e => .error e
        | .ok (_, p2) =>
          match baseElement n p2 with
          | .error e => .error e
          | .ok (v, p3) => moreElements n follow (acc ++ [v]) p3
      else
        match afterStar lx follow p1 with
        | .error e => .error e
        | .ok p2 => .ok (acc, p2)
end

/-- `if len(p)==1: p = p[0]` (TypeContentsParser.nw 62). -/
def single : List PyVal → PyVal
  | [v] => v
  | vs => .list vs

/-- `input` (TypeContentsParser.nw 57-64). -/
def input (n : Nat) (p : State Tok) : Except PyErr PyVal :=
  match baseElement n p with
  | .error e => .error e
  | .ok (v, p1) =>
    match moreElements n [.comma, .fin] [v] p1 with
    | .error e => .error e
    | .ok (vs, p2) =>
      match take lx .fin p2 with
      | .error e => .error e
      | .ok _ => .ok (single vs)

/-- `interpret_structure` (CifFile_module.nw 4255-4260). -/
def interpretStructure (s : Str) : Except PyErr PyVal := input (2 * s.length + 2) { scan := { input := s } }

end TypeContents
end Verif
