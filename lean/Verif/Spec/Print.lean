import Verif.Model.Print
import Verif.Spec.Reader
/-! # Specification of printing

What a block says as a sequence of entries, the words in which it is written, and what it means that words stand apart. -/
namespace Verif.Print
variable [CaseFold]

/-- White space that a printer may put between words. -/
def IsGap (g : Str) : Prop := ∀ c ∈ g, c = ' ' ∨ c = '\n'

/-- The text consists of the given words, in this order, with white space between them: before every word there is at least one
blank or line feed, unless the word is a text field, which starts with its own line feed. -/
def Laid (words : List Str) (text : Str) : Prop :=
  ∃ (l : List (Str × Str)) (tail : Str), words = l.map (·.2) ∧ text = l.flatMap (fun p => p.1 ++ p.2) ++ tail ∧ IsGap tail ∧
    ∀ p ∈ l, IsGap p.1 ∧ (p.1 ≠ [] ∨ semiDelim <+: p.2)

/-- The value as a word: text in some representation of `formatString`, or a number as it is. -/
def Formatted (st : Style) (v : PyVal) (w : Str) : Prop :=
  (∃ s d, v = .str s ∧ formatString st s d = .ok w) ∨ v = .num w

/-- The values, one word for each. -/
def FormattedAll (st : Style) : List PyVal → List Str → Prop
  | [], [] => True
  | v :: vs, w :: ws => Formatted st v w ∧ FormattedAll st vs ws
  | _, _ => False

/-- An entry as words. -/
def EntryWords (st : Style) : Entry → List Str → Prop
  | .item n v, ws => ∃ w, ws = [n, w] ∧ Formatted st v w
  | .loop ns vs, ws => ∃ ws', ws = "loop_".toList :: ns ++ ws' ∧ FormattedAll st vs ws'

/-- Entries as words. -/
def DocWords (st : Style) : List Entry → List Str → Prop
  | [], ws => ws = []
  | e :: es, ws => ∃ a c, ws = a ++ c ∧ EntryWords st e a ∧ DocWords st es c

/-- Names in the spelling in which they were given. -/
def spelled (b : Block) : List Str → Option (List Str)
  | [] => some []
  | n :: r =>
    match dget b.trueCase n, spelled b r with
    | some t, some ts => some (t :: ts)
    | _, _ => none

/-- The entry for one element of the output order: an item, or a loop with the rows one after the other. -/
def entryOf (b : Block) : Ref → Option Entry
  | .name n =>
    match b.getItem n, dget b.trueCase n with
    | .ok v, some t => some (.item t v)
    | _, _ => none
  | .loop n =>
    match dget b.loops n with
    | none => none
    | some names =>
      match spelled b names, columns b names with
      | some ts, .ok cols => some (.loop ts (rows cols).flatten)
      | _, _ => none

/-- The entries of a block in a given output order. -/
def docOf (b : Block) : List Ref → Option (List Entry)
  | [] => some []
  | r :: rs =>
    match entryOf b r, docOf b rs with
    | some e, some es => some (e :: es)
    | _, _ => none

/-- The value is text or a number. -/
def Simple : PyVal → Prop
  | .str _ => True
  | .num t => t ≠ []
  | _ => False

/-- All values of an entry are texts or numbers. -/
def SimpleEntry : Entry → Prop
  | .item _ v => Simple v
  | .loop _ vs => ∀ v ∈ vs, Simple v

end Verif.Print
