import Verif.Spec.TemplateLoop
/-! # Specification: headers of loops in templates -/
namespace Verif
namespace Template

/-- White space between the words of a header. -/
def Sep (s : Str) : Prop := s ≠ [] ∧ ∀ c ∈ s, c = ' ' ∨ c = '\t' ∨ c = '\n' ∨ c = '\r'

/-- A data name: an underscore and something more, without white space. -/
def DataName (s : Str) : Prop := ∃ c r, s = '_' :: c :: r ∧ ∀ x ∈ s, isSpace x = false

/-- Further names of a header: white space and names in turn. -/
def flatNames : List (Str × Str) → Str
  | [] => []
  | (g, n) :: r => g ++ (n ++ flatNames r)

/-- The line with which the text begins has something like the name first. -/
def BeginsWith (name s : Str) : Prop := ∃ indent w r, s = indent ++ (w ++ r) ∧ Blank indent ∧ Like name w

/-- The line with which the text begins has `loop_` first, and then something like the name. -/
def BeginsLoop (name s : Str) : Prop :=
  ∃ indent kw g w r, s = indent ++ (kw ++ (g ++ (w ++ r))) ∧ Blank indent ∧ Same "loop_".toList kw ∧ Sep g ∧ Like name w

/-- The first line that begins with something like the name begins with the name, after so many blanks. -/
def FirstAt (name : Str) (k : Nat) (text : Str) : Prop :=
  ∃ pre indent w r, text = pre ++ (indent ++ (w ++ r)) ∧ LineStart pre ∧ Blank indent ∧ indent.length = k ∧ Same name w ∧
    ∀ a b, pre = a ++ b → b ≠ [] → LineStart a → ¬BeginsWith name (b ++ (indent ++ (w ++ r)))

end Template
end Verif
