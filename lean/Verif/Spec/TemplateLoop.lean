import Verif.Spec.Template
import Verif.Model.Print
/-! # Specification: columns of a template -/
namespace Verif
namespace Template

/-- Number of characters between the end of the last line before the position and the position: the column, counted from 0. -/
def columnAt (text : Str) (p : Nat) : Nat := ((text.take p).reverse.takeWhile (· != '\n')).length

/-- A row: every value at its column, counted from 1, and followed by a blank; the first argument is the column where the row begins. -/
def rowAt : Nat → List (Nat × Str) → Str
  | _, [] => []
  | pos, (c, t) :: r => List.replicate (c - pos) ' ' ++ t ++ ' ' :: rowAt (c + t.length + 1) r

/-- The columns leave room for every value, with more than one blank between them, and the row fits. -/
def Room (width : Nat) : Nat → List (Nat × Str) → Prop
  | _, [] => True
  | pos, (c, t) :: r => pos < c ∧ c + t.length + 1 ≤ width ∧ Room width (c + t.length + 1) r

/-- The values that are recognised in the rows of templates, with their delimiters: without delimiters, in quotes, in double quotes, and in triple quotes. -/
inductive Word : Str → Option Str → Prop
  | bare (s : Str) : s ≠ [] → (∀ c ∈ s, isSpace c = false) → s.head? ≠ some '\'' → s.head? ≠ some '"' → Word s none
  | single (s : Str) : (∀ c ∈ s, c ≠ '\n' ∧ c ≠ '\r' ∧ c ≠ '\x0c' ∧ c ≠ '\'') → Word ('\'' :: (s ++ ['\''])) (some ['\''])
  | double (s : Str) : (∀ c ∈ s, c ≠ '\n' ∧ c ≠ '\r' ∧ c ≠ '"') → Word ('"' :: (s ++ ['"'])) (some ['"'])
  | triple (s : Str) : (∀ c ∈ s, c ≠ '\n' ∧ c ≠ '\r' ∧ c ≠ '\x0c' ∧ c ≠ '\'') → Word (['\'', '\'', '\''] ++ (s ++ ['\'', '\'', '\''])) (some ['\'', '\'', '\''])

/-- White space before a value, the value, and its delimiter. -/
abbrev Cell := Str × Str × Option Str

/-- The values of a loop as text. -/
def flat : List Cell → Str
  | [] => []
  | (g, w, _) :: r => g ++ (w ++ flat r)

/-- Where the values begin, and their delimiters. -/
def starts : Nat → List Cell → List (Nat × Option Str)
  | _, [] => []
  | p, (g, w, d) :: r => (p + g.length, d) :: starts (p + g.length + w.length) r

/-- No name begins in the text: underscores are followed by white space. -/
def Unnamed (s : Str) : Prop := ∀ (a : Str) (c : Char) (b : Str), s = a ++ '_' :: c :: b → isSpace c = true

section Laws
open Print
variable [CaseFold]

/-- A value of a row: its name, the value, the column and the word for it. -/
structure Placed where
  name : Str
  value : PyVal
  column : Nat
  word : Str

/-- The hint for the name asks for the column, and the value is the word with the delimiter of the hint; words stand on one line and do not end in blanks. -/
def Placed.Ok (st : Style) (hints : List Hint) (x : Placed) : Prop :=
  ∃ h, loopHint hints x.name = some h ∧ h.column = x.column ∧ ((∃ s, x.value = .str s ∧ formatString st s h.delimiter = .ok x.word) ∨ x.value = .num x.word) ∧
    '\n' ∉ x.word ∧ ∃ c, x.word.getLast? = some c ∧ c ≠ ' ' ∧ c ≠ '\n' ∧ c ≠ '\t'

end Laws

end Template
end Verif
