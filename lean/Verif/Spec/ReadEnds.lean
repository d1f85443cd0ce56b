import Verif.Model.Block
/-! # Names of blocks and frames in a text -/
namespace Verif

/-- `name`, without blanks and line ends, stands in the text directly after `word`, written in capitals or small letters. -/
def Heads (word text name : Str) : Prop :=
  ∃ before w after, text = before ++ w ++ name ++ after ∧ asciiLower w = word ∧ name ≠ [] ∧
    ∀ c ∈ name, c ≠ ' ' ∧ c ≠ '\t' ∧ c ≠ '\n' ∧ c ≠ '\r'

/-- The grammars that can be asked for. -/
def KnownGrammar (req : Option Str) : Prop :=
  ∀ g, req = some g → g ∈ ["auto".toList, "1.0".toList, "1.1".toList, "2.0".toList, "STAR2".toList]

/-- Two names that stay different when either is followed by plus signs. -/
def Apart (a b : Str) : Prop := ∀ i j, a ++ List.replicate i '+' ≠ b ++ List.replicate j '+'

end Verif
