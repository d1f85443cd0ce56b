import Verif.Model.Scan
/-! # Specification of scanning -/
namespace Verif.Scanner
variable {N : Type} [DecidableEq N]

/-- Names the scanner may match when asked for one of `restrict` (any name, if that is empty). -/
def Permitted (lx : Lexer N) (restrict : List N) (n : N) : Prop := restrict = [] ∨ n ∈ restrict ∨ n ∈ lx.ignore

/-- At `pos`, the pattern called `n` is permitted and matches `k` characters; no permitted pattern matches more, and those
listed before it match less. -/
def Wins (lx : Lexer N) (restrict : List N) (input : Str) (pos : Nat) (n : N) (k : Nat) : Prop :=
  ∃ (pre : List (N × Pattern)) (p : Pattern) (post : List (N × Pattern)), lx.patterns = pre ++ (n, p) :: post ∧ Permitted lx restrict n ∧ p input pos = some k ∧
    (∀ q ∈ pre, Permitted lx restrict q.1 → ∀ j, q.2 input pos = some j → j < k) ∧
    (∀ q ∈ post, Permitted lx restrict q.1 → ∀ j, q.2 input pos = some j → j ≤ k)

/-- No permitted pattern matches at `pos`. -/
def NoMatch (lx : Lexer N) (restrict : List N) (input : Str) (pos : Nat) : Prop :=
  ∀ q ∈ lx.patterns, Permitted lx restrict q.1 → q.2 input pos = none

/-- The text between two positions is a row of ignored winners. -/
inductive Skipped (lx : Lexer N) (restrict : List N) (input : Str) : Nat → Nat → Prop
  | nil (p : Nat) : Skipped lx restrict input p p
  | cons {p q : Nat} (n : N) (k : Nat) : Wins lx restrict input p n k → n ∈ lx.ignore →
      Skipped lx restrict input (p + k) q → Skipped lx restrict input p q

/-- The text between two positions is a row of matches of ignored patterns. -/
inductive Blank (lx : Lexer N) (input : Str) : Nat → Nat → Prop
  | nil (p : Nat) : Blank lx input p p
  | cons {p q : Nat} (n : N) (f : Pattern) (k : Nat) : (n, f) ∈ lx.patterns → n ∈ lx.ignore → f input p = some k →
      Blank lx input (p + k) q → Blank lx input p q

/-- From `p` to `q` the input consists of the given tokens and ignored text around them. -/
def Tiled (lx : Lexer N) (input : Str) : Nat → List (Token N) → Nat → Prop
  | p, [], q => Blank lx input p q
  | p, t :: ts, q => Blank lx input p t.start ∧ t.start ≤ t.stop ∧ t.text = slice input t.start t.stop ∧
      Tiled lx input t.stop ts q

/-- Gaps and tokens taken in turn. -/
def weave : List Str → List Str → Str
  | [], _ => []
  | g :: _, [] => g
  | g :: gs, t :: ts => g ++ t ++ weave gs ts

/-- The states a scanner for `input` can get into by any sequence of requests for tokens, successful or not. -/
inductive Reachable (lx : Lexer N) (input : Str) : Scanner N → Prop
  | start : Reachable lx input { input := input }
  | request (s : Scanner N) (i : Nat) (restrict : List N) : Reachable lx input s →
      Reachable lx input (s.token lx i restrict).1

/-- Patterns find text inside the input only. -/
def Inside (lx : Lexer N) : Prop :=
  ∀ p ∈ lx.patterns, ∀ input pos k, p.2 input pos = some k → pos ≤ input.length → pos + k ≤ input.length

/-- Ignored patterns do not match the empty text. -/
def Solid (lx : Lexer N) : Prop :=
  ∀ p ∈ lx.patterns, p.1 ∈ lx.ignore → ∀ input pos, p.2 input pos ≠ some 0

end Verif.Scanner
