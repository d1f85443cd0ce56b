import Verif.Model.Text
/-! # What the type expressions of a dictionary should become -/
namespace Verif
namespace TypeInfo
namespace Spec

/-- The text before a mark opens a bracket and goes on with something; the text after it closes one on the same line. -/
structure Enclosed (u v : Str) : Prop where
  opened : ∃ a x, u = a ++ '[' :: x ∧ x ≠ []
  closed : ∃ b r, v = b ++ ']' :: r ∧ '\n' ∉ b
  line : '\n' ∉ u

/-- Every `c` `d` is replaced. -/
def replacePairs (c d : Char) (new : Str) : Str → Str
  | [] => []
  | [x] => [x]
  | x :: y :: r => if x = c ∧ y = d then new ++ replacePairs c d new r else x :: replacePairs c d new (y :: r)

/-- `c` `d` occurs once at most, and between brackets on one line. -/
structure Regular (c d : Char) (s : Str) : Prop where
  once : ∀ u v u' v', s = u ++ c :: d :: v → s = u' ++ c :: d :: v' → u = u'
  inside : ∀ u v, s = u ++ c :: d :: v → Enclosed u v

/-- What a construct should become: in brackets, a backslash before a brace is a backslash, and a carriage return goes with each line feed. -/
def fixed (s : Str) : Str := replacePairs '\\' 'n' ['\\', 'n', '\\', 'r'] (replacePairs '\\' '{' ['\\', '\\', '{'] s)

end Spec
end TypeInfo
end Verif
