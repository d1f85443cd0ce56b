import Verif.Model.Convert
import Verif.Spec.Number
import Verif.Spec.TypeContents
/-! # Specification of conversions -/
namespace Verif.Spec.Convert
open Verif.Convert

/-- `cs` holds, place by place, the results of `f` for the elements of `l`. -/
def Converted {α : Type} (f : α → Except PyErr CVal) (l : List α) (cs : List CVal) : Prop :=
  cs.length = l.length ∧ ∀ (i : Nat) (a : α), l[i]? = some a → ∃ c, cs[i]? = some c ∧ f a = .ok c

/-- `f` fails with `e` at some place of `l` and at none before it. -/
def FirstFails {α : Type} (f : α → Except PyErr CVal) (l : List α) (e : PyErr) : Prop :=
  ∃ (i : Nat) (a : α), l[i]? = some a ∧ f a = .error e ∧ ∀ (j : Nat) (b : α), j < i → l[j]? = some b → ∃ c, f b = .ok c

/-- The result of converting elements one by one. -/
def Each {α : Type} (f : α → Except PyErr CVal) (l : List α) (r : Except PyErr CVal) : Prop :=
  (∃ cs, r = .ok (.list cs) ∧ Converted f l cs) ∨ (∃ e, r = .error e ∧ FirstFails f l e)

/-- The result of converting `vs` by `ts`, element `i` by type `i` with the conversion of single values `single`: the lengths
have to agree. -/
def ByTypes (single : PyVal → PyVal → Except PyErr CVal) (ts vs : List PyVal) (r : Except PyErr CVal) : Prop :=
  if vs.length = ts.length then Each (fun p : PyVal × PyVal => single p.1 p.2) (ts.zip vs) r else r = .error .value

/-- The definition has this container, these contents and this dimension. -/
structure Typed [CaseFold] (b : Block) (container : Str) (contents : PyVal) (dimension : Option (List Str)) : Prop where
  container : b.getItem "_type.container".toList = .ok (.str container)
  contents : ∃ s, b.getItem "_type.contents".toList = .ok (.str s) ∧ TypeContents.Contents s contents
  dimension : match dimension with
    | none => b.getItem "_type.dimension".toList = .error .key
    | some ds => b.getItem "_type.dimension".toList = .ok (.slist (ds.map .str))

/-- The digits of an integer. -/
def Digits (ds : Str) : Prop := ds ≠ [] ∧ ∀ c ∈ ds, Digit c

/-- An integer as written: perhaps a minus sign, then digits. -/
def intText (neg : Bool) (ds : Str) : Str := if neg then '-' :: ds else ds

/-- Its value. -/
def intValue (neg : Bool) (ds : Str) : Int := if neg then -(digitsValue ds : Int) else digitsValue ds

/-- A text that denotes the integer `z`: perhaps a sign, then digits, perhaps with blanks around. -/
def IntegerText (s : Str) (z : Int) : Prop :=
  ∃ pre sign ds post, s = pre ++ (sign ++ ds) ++ post ∧ (∀ c ∈ pre ++ post, isSpace c = true) ∧ Digits ds ∧
    ((sign = [] ∨ sign = ['+']) ∧ z = digitsValue ds ∨ sign = ['-'] ∧ z = -(digitsValue ds : Int))

/-- `z` is `q` without its fraction. -/
def Truncated (q : Rat) (z : Int) : Prop :=
  (0 ≤ q ∧ 0 ≤ z ∧ (z : Rat) ≤ q ∧ q < z + 1) ∨ (q < 0 ∧ z ≤ 0 ∧ (z : Rat) - 1 < q ∧ q ≤ z)

end Verif.Spec.Convert
