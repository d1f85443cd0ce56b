import Verif.Model.Value
/-! # Specification of numerals

A numeral is written `[-]ddd[.ddd][(dd)][E[+-]dd]`. -/
namespace Verif.Spec

/-- A decimal digit. -/
def Digit (c : Char) : Prop := '0' ≤ c ∧ c ≤ '9'

instance (c : Char) : Decidable (Digit c) := inferInstanceAs (Decidable (_ ∧ _))

/-- The number written by digits: every digit counts for its power of ten. -/
def digitsValue : Str → Nat
  | [] => 0
  | c :: r => (c.toNat - '0'.toNat) * 10 ^ r.length + digitsValue r

/-- The sign of an exponent. -/
inductive ExpSign where
  | none | plus | minus

/-- A decimal numeral. `frac = none`: no decimal point. -/
structure Numeral where
  neg : Bool
  int : Str
  frac : Option Str
  su : Option Str
  exp : Option (Char × ExpSign × Str)

namespace Numeral

/-- At least one digit in the mantissa, in the bracket and in the exponent; the exponent letter is one of `eEdD`. -/
structure WF (n : Numeral) : Prop where
  int : ∀ c ∈ n.int, Digit c
  frac : ∀ f, n.frac = some f → ∀ c ∈ f, Digit c
  some_digit : n.int ≠ [] ∨ ∃ f, n.frac = some f ∧ f ≠ []
  su : ∀ u, n.su = some u → u ≠ [] ∧ ∀ c ∈ u, Digit c
  exp : ∀ l s ds, n.exp = some (l, s, ds) → (l = 'e' ∨ l = 'E' ∨ l = 'd' ∨ l = 'D') ∧ ds ≠ [] ∧ ∀ c ∈ ds, Digit c

/-- The sign of the exponent as written. -/
def signText : ExpSign → Str
  | .none => []
  | .plus => ['+']
  | .minus => ['-']

/-- The decimal point and what follows it. -/
def fracText : Option Str → Str
  | none => []
  | some f => '.' :: f

/-- The bracket. -/
def suText : Option Str → Str
  | none => []
  | some u => '(' :: u ++ [')']

/-- The exponent. -/
def expText : Option (Char × ExpSign × Str) → Str
  | none => []
  | some (l, s, ds) => l :: signText s ++ ds

/-- The numeral as written. -/
def text (n : Numeral) : Str := (if n.neg then ['-'] else []) ++ n.int ++ fracText n.frac ++ suText n.su ++ expText n.exp

/-- The digits after the point. -/
def places (n : Numeral) : Str := (n.frac).getD []

/-- The exponent as a number. -/
def power (n : Numeral) : Int :=
  match n.exp with
  | none => 0
  | some (_, .minus, ds) => -(digitsValue ds : Int)
  | some (_, _, ds) => digitsValue ds

/-- The value: all digits as one number, scaled by the decimal places and the exponent. -/
def value (n : Numeral) : Rat :=
  (if n.neg then -1 else 1) * (digitsValue (n.int ++ n.places) : Rat) * (10 : Rat) ^ (n.power - (n.places.length : Int))

/-- The uncertainty: the digits in the bracket, scaled in the same way. -/
def uncertainty (n : Numeral) : Option Rat :=
  n.su.map fun u => (digitsValue u : Rat) * (10 : Rat) ^ (n.power - (n.places.length : Int))

end Numeral
end Verif.Spec
