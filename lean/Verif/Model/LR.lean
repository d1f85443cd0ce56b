import Verif.Model.Dict
/-! # Table-driven parsing

The loop of the parser that PLY builds from the grammar in `/repo/src/drel/drel_ast_yacc.py` (`parser = yacc.yacc()`, line 582): a stack of states
and values, a table of actions for a state and the kind of the next token, and a table of the states that follow a reduction. PLY is not part of
`/repo`; that it works in this way is taken from its documentation. It reduces without looking at the next token in states with a single
action, which makes a difference only for the place of an error. -/
namespace Verif
namespace LR

/-- A symbol of a grammar: a kind of tokens or a nonterminal, both numbered. -/
inductive Sym where
  | t (k : Nat)
  | n (k : Nat)
  deriving DecidableEq, Repr

/-- A production with the function that computes its value from the values of the right hand side. -/
structure Rule (V : Type) where
  lhs : Nat
  rhs : List Sym
  act : List V → V

/-- A token: its kind and its value. -/
abbrev Tok (V : Type) := Nat × V

/-- Entries of the table of actions. -/
inductive Act where
  | shift (s : Nat)
  | reduce (p : Nat)
  | accept
  deriving DecidableEq, Repr

/-- The row of a state; rows are kept in groups of sixteen. -/
def row (t : List (List (List Nat))) (s : Nat) : List Nat := (t.getD (s / 16) []).getD (s % 16) []

/-- The tables. Each state has a row. An entry of the table of actions is a number `64 * x + k` for the kind `k` of the next token, where `x` is 0
for acceptance, `2 * s + 1` for going on to state `s` and `2 * p + 2` for reducing by production `p`. An entry of the other table is
`128 * s + a` for the nonterminal `a` and the state `s` that follows. -/
structure Table where
  action : List (List (List Nat))
  goto : List (List (List Nat))

/-- The meaning of an entry. -/
def decode (x : Nat) : Act := if x = 0 then .accept else if x % 2 = 1 then .shift (x / 2) else .reduce (x / 2 - 1)

/-- The action for a state and the kind of the next token. -/
def Table.act (T : Table) (s k : Nat) : Option Act :=
  ((row T.action s).find? fun c => c % 64 == k).map fun c => decode (c / 64)

/-- The state that follows the reduction to nonterminal `a` in state `s`. -/
def Table.next (T : Table) (s a : Nat) : Option Nat :=
  ((row T.goto s).find? fun c => c % 128 == a).map fun c => c / 128

/-- The stack above the first state, and the tokens that are left. -/
structure Cfg (V : Type) where
  stack : List (Nat × V)
  input : List (Tok V)

/-- The present state; the first state is 0. -/
def top {V : Type} : List (Nat × V) → Nat
  | [] => 0
  | (s, _) :: _ => s

/-- The kind of the next token; 0 at the end. -/
def look {V : Type} : List (Tok V) → Nat
  | [] => 0
  | (k, _) :: _ => k

/-- What one step leads to. -/
inductive Out (V : Type) where
  | next (c : Cfg V)
  | done (v : V)
  | error

/-- Reducing by production `r`. -/
def reduceBy {V : Type} (T : Table) (c : Cfg V) (r : Rule V) : Out V :=
  match T.next (top (c.stack.drop r.rhs.length)) r.lhs with
  | none => .error
  | some s =>
    .next ⟨(s, r.act ((c.stack.take r.rhs.length).reverse.map (·.2))) :: c.stack.drop r.rhs.length, c.input⟩

/-- One step of the parser. -/
def step {V : Type} (G : List (Rule V)) (T : Table) (c : Cfg V) : Out V :=
  match T.act (top c.stack) (look c.input) with
  | none => .error
  | some (.shift s) =>
    match c.input with
    | [] => .error
    | tok :: r => .next ⟨(s, tok.2) :: c.stack, r⟩
  | some (.reduce p) =>
    match G[p]? with
    | none => .error
    | some r => reduceBy T c r
  | some .accept =>
    match c.stack with
    | [] => .error
    | (_, v) :: _ => .done v

/-- At most `n` steps. `none`: not finished; `some none`: a syntax error; `some (some v)`: the value of the text. -/
def run {V : Type} (G : List (Rule V)) (T : Table) : Nat → Cfg V → Option (Option V)
  | 0, _ => none
  | n + 1, c =>
    match step G T c with
    | .error => some none
    | .done v => some (some v)
    | .next c' => run G T n c'

/-- The parser returns `v` for the tokens. -/
def Parses {V : Type} (G : List (Rule V)) (T : Table) (toks : List (Tok V)) (v : V) : Prop :=
  ∃ n, run G T n ⟨[], toks⟩ = some (some v)

end LR
end Verif
