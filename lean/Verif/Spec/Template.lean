import Verif.Model.Text
import Verif.Model.Regex
/-! # Specification: where an item is in a template -/
namespace Verif
namespace Template

/-- Blanks. -/
def Blank (s : Str) : Prop := ∀ c ∈ s, c = ' ' ∨ c = '\t'

/-- Blanks and ends of lines. -/
def Gap (s : Str) : Prop := s ≠ [] ∧ ∀ c ∈ s, c = ' ' ∨ c = '\t' ∨ c = '\n'

/-- Data names made of characters that stand for themselves in regular expressions, and dots. -/
def Plain (item : Str) : Prop := item.head? = some '_' ∧ ∀ c ∈ item, c ∉ ['\\', '^', '$', '*', '+', '?', '{', '}', '|', '(', ')', '[']

/-- The same letter, in either case. -/
def Same (item w : Str) : Prop := item.map Char.toLower = w.map Char.toLower

/-- The words are the same, except that anything may stand for a dot of the first. -/
def Like (item w : Str) : Prop := w.length = item.length ∧ ∀ p ∈ item.zip w, p.1 = '.' ∨ p.1.toLower = p.2.toLower

/-- On the line with which the text begins, there is something like the name first, followed by blanks or ends of lines and then something else. -/
def Begins (item s : Str) : Prop :=
  ∃ indent w gap c r, s = indent ++ (w ++ (gap ++ c :: r)) ∧ Blank indent ∧ Like item w ∧ Gap gap ∧ isSpace c = false

/-- The same with one of the given characters after the name. -/
def BeginsOneOf (stem cs s : Str) : Prop :=
  ∃ indent w x gap c r, s = indent ++ (w ++ x :: (gap ++ c :: r)) ∧ Blank indent ∧ Like stem w ∧ (∃ y ∈ cs, y.toLower = x.toLower) ∧ Gap gap ∧ isSpace c = false

/-- The part of a text ends where a line begins. -/
def LineStart (a : Str) : Prop := a = [] ∨ a.getLast? = some '\n'

end Template
end Verif
