import Verif.Model.Value
/-! # Specification of type expressions

A type expression is a word, or a word and bracketed type expressions separated by commas. -/
namespace Verif.Spec.TypeContents

/-- A letter of the Latin alphabet. -/
def Letter (c : Char) : Prop := ('A' ≤ c ∧ c ≤ 'Z') ∨ ('a' ≤ c ∧ c ≤ 'z')

/-- A word: one or more letters. -/
def Word (w : Str) : Prop := w ≠ [] ∧ ∀ c ∈ w, Letter c

/-- Blanks, tabs and line ends, perhaps none. -/
def Blanks (g : Str) : Prop := ∀ c ∈ g, c = ' ' ∨ c = '\t' ∨ c = '\n' ∨ c = '\r'

mutual
/-- The text is a type expression of this structure: a word stands for itself, a container for the list of what is in it. -/
inductive Element : Str → PyVal → Prop
  | name {g w : Str} : Blanks g → Word w → Element (g ++ w) (.str w)
  | container {g w body g' : Str} {vs : List PyVal} : Blanks g → Word w → Elements body vs → Blanks g' →
      Element (g ++ w ++ '(' :: body ++ g' ++ [')']) (.list vs)
/-- The text is a list of type expressions separated by commas. -/
inductive Elements : Str → List PyVal → Prop
  | one {t : Str} {v : PyVal} : Element t v → Elements t [v]
  | more {t g r : Str} {v : PyVal} {vs : List PyVal} : Element t v → Blanks g → Elements r vs → Elements (t ++ g ++ ',' :: r) (v :: vs)
end

/-- The text of a `_type.contents` value and its structure: one expression, or several, which count as a list. -/
inductive Contents : Str → PyVal → Prop
  | one {t g : Str} {v : PyVal} : Elements t [v] → Blanks g → Contents (t ++ g) v
  | several {t g : Str} {v w : PyVal} {vs : List PyVal} : Elements t (v :: w :: vs) → Blanks g → Contents (t ++ g) (.list (v :: w :: vs))

/-- A type expression. -/
inductive Expr where
  | name (w : Str)
  | container (w : Str) (args : List Expr)

namespace Expr

mutual
/-- How an expression is written. -/
def printed : Expr → Str
  | .name w => w
  | .container w args => w ++ '(' :: printedAll args ++ [')']
/-- Expressions separated by commas. -/
def printedAll : List Expr → Str
  | [] => []
  | [e] => printed e
  | e :: e' :: es => printed e ++ ',' :: printedAll (e' :: es)
end

mutual
/-- The nested structure of an expression: a name stands for itself, a container for the list of what is in it. -/
def shape : Expr → PyVal
  | .name w => .str w
  | .container _ args => .list (shapes args)
/-- The structures of several expressions. -/
def shapes : List Expr → List PyVal
  | [] => []
  | e :: es => shape e :: shapes es
end

mutual
/-- All names are words, and no container is empty. -/
def Named : Expr → Prop
  | .name w => Word w
  | .container w args => Word w ∧ args ≠ [] ∧ AllNamed args
/-- All expressions are so. -/
def AllNamed : List Expr → Prop
  | [] => True
  | e :: es => Named e ∧ AllNamed es
end

end Expr

end Verif.Spec.TypeContents
