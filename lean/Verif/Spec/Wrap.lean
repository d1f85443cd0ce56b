import Verif.Spec.Text
import Verif.Model.Regex
/-! Vocabulary for texts laid out anew: no function of the model is used, apart from the class of whitespace characters. -/
namespace Verif
namespace Wrap

/-- The characters of a text that are not whitespace. -/
def solid (s : Str) : Str := s.filter fun c => !isSpace c

/-- The whitespace known to CIF, together with the two other marks for moving on. -/
def White (c : Char) : Prop := c = ' ' ∨ c = '\t' ∨ c = '\n' ∨ c = '\r' ∨ c = '\x0b' ∨ c = '\x0c'

instance (c : Char) : Decidable (White c) := by unfold White; infer_instance

/-- The text cut at every whitespace character. -/
def pieces : Str → List Str
  | [] => [[]]
  | c :: r =>
    if White c then [] :: pieces r
    else match pieces r with
      | [] => [[c]]
      | l :: ls => (c :: l) :: ls

/-- The words of a text. -/
def words (s : Str) : List Str := (pieces s).filter fun w => !w.isEmpty

/-- The text has three blanks in a row somewhere. -/
def Formatted (s : Str) : Prop := Occurs [' ', ' ', ' '] s

/-- The lines of a text. -/
def linesOf : Str → List Str
  | [] => [[]]
  | c :: r =>
    if c = '\n' then [] :: linesOf r
    else match linesOf r with
      | [] => [[c]]
      | l :: ls => (c :: l) :: ls

/-- The only whitespace is that known to CIF. -/
def Plain (s : Str) : Prop := ∀ c ∈ s, isSpace c = true → White c

end Wrap
end Verif
