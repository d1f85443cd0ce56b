import Verif.Model.Regex
/-! # The scanner

Models `Scanner.interp_scan` and `Scanner.interp_token` of `/repo/src/yapps3_compiled_rt.py` (160-184, 204-254), for any
patterns. The C scanner is not modelled. -/
namespace Verif

/-- A compiled pattern: the length of the match of `regexp.match(input,pos)`, if there is one. -/
abbrev Pattern := Str → Nat → Option Nat

/-- A regular expression as a pattern. -/
def Rx.pattern (r : Rx) : Pattern := fun input pos => r.matchLen (input.drop pos)

/-- A token (yapps3_compiled_rt.py 105): begin, end, name, matched text. -/
structure Token (N : Type) where
  start : Nat
  stop : Nat
  name : N
  text : Str
  deriving DecidableEq, Repr

/-- The patterns of a scanner and the names to be ignored (yapps3_compiled_rt.py 90-125). -/
structure Lexer (N : Type) where
  patterns : List (N × Pattern)
  ignore : List N

/-- The changing part of a scanner (yapps3_compiled_rt.py 105-108). -/
structure Scanner (N : Type) where
  input : Str
  pos : Nat := 0
  tokens : List (Token N) := []
  restrictions : List (List N) := []
  deriving DecidableEq, Repr

namespace Scanner
variable {N : Type} [DecidableEq N]

/-- `accepted_patterns` (yapps3_compiled_rt.py 208-219). -/
def accepted (lx : Lexer N) (restrict : List N) : List (N × Pattern) :=
  if restrict ≠ [] then
    lx.patterns.filter fun p => !(decide (p.1 ∉ restrict) && decide (p.1 ∉ lx.ignore))
  else lx.patterns

/-- The search for the longest match (yapps3_compiled_rt.py 224-231); `best` is what has been found so far, `none` for
`best_match = -1`. -/
def search (input : Str) (pos : Nat) : Option (N × Nat) → List (N × Pattern) → Option (N × Nat)
  | best, [] => best
  | best, (n, p) :: r =>
    match p input pos with
    | none => search input pos best r
    | some k =>
      match best with
      | none => search input pos (some (n, k)) r
      | some (_, b) => if k > b then search input pos (some (n, k)) r else search input pos best r

/-- A slice `input[a:b]`. -/
def slice (input : Str) (a b : Nat) : Str := (input.take b).drop a

/-- Add a token unless it equals the last one (yapps3_compiled_rt.py 247-249). -/
def push (s : Scanner N) (t : Token N) (restrict : List N) : Scanner N :=
  if s.tokens = [] ∨ s.tokens.getLast? ≠ some t then
    { s with tokens := s.tokens ++ [t], restrictions := s.restrictions ++ [restrict] }
  else s

/-- The `while` loop of `interp_scan` (yapps3_compiled_rt.py 221-254). The bound on the number of rounds is reached only
when the Python loop does not end (`C06_terminates`). -/
def scanLoop (lx : Lexer N) (restrict : List N) : Nat → Scanner N → Scanner N × Except PyErr Unit
  | 0, s => (s, .error .depth)
  | fuel + 1, s =>
    match search s.input s.pos none (accepted lx restrict) with
    | none => (s, .error .syntax)
    | some (n, k) =>
      if n ∉ lx.ignore then
        ({ s with pos := s.pos + k }.push ⟨s.pos, s.pos + k, n, slice s.input s.pos (s.pos + k)⟩ restrict, .ok ())
      else scanLoop lx restrict fuel { s with pos := s.pos + k }

/-- `interp_scan` (yapps3_compiled_rt.py 204-254). -/
def scan (lx : Lexer N) (restrict : List N) (s : Scanner N) : Scanner N × Except PyErr Unit :=
  scanLoop lx restrict (s.input.length + 1) s

/-- The second half of `interp_token` (yapps3_compiled_rt.py 175-184). -/
def fetch (s : Scanner N) (i : Nat) (restrict : List N) : Except PyErr (Token N) :=
  match s.tokens[i]?, s.restrictions[i]? with
  | some t, some r =>
    if restrict ≠ [] ∧ r ≠ [] then
      if restrict.any (fun x => decide (x ∉ r)) then .error .notImpl else .ok t
    else .ok t
  | _, _ => .error .tokens

/-- `interp_token` (yapps3_compiled_rt.py 160-184). -/
def token (lx : Lexer N) (s : Scanner N) (i : Nat) (restrict : List N) : Scanner N × Except PyErr (Token N) :=
  if i = s.tokens.length then
    match s.scan lx restrict with
    | (s', .error e) => (s', .error e)
    | (s', .ok ()) => (s', s'.fetch i restrict)
  else (s, s.fetch i restrict)

/-- `get_line_number` (yapps3_compiled_rt.py 141-144, 152). -/
def lineNumber (s : Scanner N) : Nat := 1 + (s.input.take s.pos).count '\n'

end Scanner
end Verif
