import Verif.Model.ReadStar
import Verif.Spec.Text
/-! # Specification of the treatment of the input before parsing -/
namespace Verif.ReadStar

/-- A piece of text in front of a marker: no marker begins in it. -/
def Clean (piece : Str) : Prop := ∀ k < piece.length, ¬ marker <+: piece.drop k ++ marker

/-- A CBF file: text, then binary sections between markers with text after each; perhaps a last section that is not closed. -/
def cbfText (first : Str) : List (Str × Str) → Option Str → Str
  | [], none => first
  | [], some bin => first ++ marker ++ bin
  | (bin, out) :: r, last => first ++ marker ++ bin ++ marker ++ cbfText out r last

/-- What should be left of it. -/
def cbfKept (first : Str) (l : List (Str × Str)) : Str := first ++ l.flatMap fun p => omitted ++ p.2

/-- The pieces of a CBF file are separated by the markers only. -/
def CleanParts (first : Str) : List (Str × Str) → Option Str → Prop
  | [], none => ¬ Occurs marker first
  | [], some bin => Clean first ∧ ¬ Occurs marker bin
  | (bin, out) :: r, last => Clean first ∧ Clean bin ∧ CleanParts out r last

end Verif.ReadStar
