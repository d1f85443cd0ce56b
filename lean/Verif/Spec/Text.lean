import Verif.Model.Text
/-! Specification vocabulary for the text protocols: no model function is used except the
type `Str` and the character class `isBlank`. -/
namespace Verif

/-- Python `'\n'.join(lines)`. -/
def joinNl : List Str → Str
  | [] => []
  | [l] => l
  | l :: m :: ls => l ++ '\n' :: joinNl (m :: ls)

/-- The line ends in a backslash followed by one or more blanks. -/
def endsMarkBlank (l : Str) : Prop := ∃ a b, l = a ++ '\\' :: b ∧ b ≠ [] ∧ ∀ c ∈ b, isBlank c

/-- A usable prefix: at least two characters on one line, not starting with `;`,
without a backslash. -/
def GoodPrefix (p : Str) : Prop :=
  2 ≤ p.length ∧ p.head? ≠ some ';' ∧ '\\' ∉ p ∧ '\n' ∉ p

/-- `t` occurs in `s` as a contiguous piece. -/
def Occurs (t s : Str) : Prop := ∃ a b, s = a ++ t ++ b

/-- `s` starts with a folding header: a backslash, blanks, a line end. -/
def HasFoldHeader (s : Str) : Prop := ∃ b r, s = '\\' :: (b ++ '\n' :: r) ∧ ∀ c ∈ b, isBlank c = true

end Verif
