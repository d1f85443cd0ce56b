import Verif.Lemmas.Lex
import Verif.Spec.Print
/-! # What the readers of 1.1 and 2.0 have in common

Blocks, items and loops are read in the same way in both; what differs is collected here. -/
set_option linter.unusedSectionVars false
namespace Verif.Lex
open Rx Scanner Reader Print
variable [CaseFold]

/-- A white space character that a printer may put between words, or the end of the text. -/
def Stops (rest : Str) : Prop := ∀ c t, rest = c :: t → c = ' ' ∨ c = '\n'

/-- A grammar whose scanner finds names, headings, keywords, white space and the end of the text. -/
structure Dialect where
  g : Gram
  tb : Pat.Table
  lx : g.lx = Pat.lexer tb
  /-- requests for tokens that stand outside text fields -/
  Outside : List Tk → Prop
  /-- characters of names -/
  nameChar : Char → Bool
  nameFix : ∀ c, nameChar c = true → c ≠ ' ' ∧ c ≠ '\t'
  first : Outside g.first
  follow : Outside itemFollow
  both : Outside (itemFollow ++ g.first)
  names : Outside (.dataName :: g.first)
  start : Outside [.fin, .dataHeading]
  apart : ∀ t ∈ itemFollow, t ∉ g.first
  gap : ∀ {R : List Tk}, Outside R → ∀ {s : Str} {n : Tk} {w rest : Str}, s.head? ≠ some ';' → Lexes tb R s n w rest →
    ∀ (a : Str), (∀ c ∈ a, c = ' ' ∨ c = '\n') → Lexes tb R (a ++ s) n w rest
  comment : ∀ {R : List Tk}, Outside R → ∀ {l s : Str} {n : Tk} {w rest : Str}, '\n' ∉ l → s.head? ≠ some ';' → Lexes tb R s n w rest →
    Lexes tb R ('#' :: (l ++ '\n' :: s)) n w rest
  name : ∀ {R : List Tk}, Outside R → Tk.dataName ∈ R → ∀ {w rest : Str}, (∀ c ∈ w, nameChar c = true) → w ≠ [] → Stops rest →
    Lexes tb R (('_' :: w) ++ rest) .dataName ('_' :: w) rest
  loop : ∀ {R : List Tk}, Outside R → Tk.loop ∈ R → ∀ {rest : Str}, Stops rest →
    Lexes tb R ("loop_".toList ++ rest) .loop "loop_".toList rest
  heading : ∀ {R : List Tk}, Outside R → Tk.dataHeading ∈ R → ∀ {w rest : Str}, (∀ c ∈ w, nameChar c = true) → w ≠ [] → Stops rest →
    Lexes tb R (("data_".toList ++ w) ++ rest) .dataHeading ("data_".toList ++ w) rest
  saveHead : ∀ {R : List Tk}, Outside R → Tk.saveHeading ∈ R → ∀ {w rest : Str}, (∀ c ∈ w, nameChar c = true) → w ≠ [] → Stops rest →
    Lexes tb R (("save_".toList ++ w) ++ rest) .saveHeading ("save_".toList ++ w) rest
  saveEnd : ∀ {R : List Tk}, Outside R → Tk.saveEnd ∈ R → ∀ {rest : Str}, Stops rest →
    Lexes tb R ("save_".toList ++ rest) .saveEnd "save_".toList rest
  fin : ∀ {R : List Tk}, Tk.fin ∈ R → Lexes tb R [] .fin [] []
  again : ∀ (fuel : Nat) (p p1 : PState) (t : Tk), peek g.lx g.first p = .ok (t, p1) → peek g.lx g.first p1 = .ok (t, p1) →
    g.value fuel p = g.value fuel p1

/-- Wherever the word stands before white space or at the end, it is read as the value. -/
structure ReadsIn (D : Dialect) (w : Str) (v : PyVal) : Prop where
  start : w.head? ≠ some ';'
  read : ∀ rest, Stops rest → ∃ t x rest1, t ∈ D.g.first ∧ x ≠ [] ∧
    (∀ R, D.Outside R → D.g.first ⊆ R → Lexes D.tb R (w ++ rest) t x rest1) ∧
    ∀ R p fuel, w.length < fuel → D.g.first ⊆ R → Peeked p R t x rest1 →
      ∃ p', D.g.value fuel p = .ok (v, p') ∧ Ready p' rest

end Verif.Lex
