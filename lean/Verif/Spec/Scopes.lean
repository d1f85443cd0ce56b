import Verif.Spec.CifDic
import Verif.Spec.Validate
import Verif.Model.Scopes
/-! Vocabulary for the attributes that are demanded and forbidden. -/
namespace Verif.CifDic
variable [CaseFold]

/-- A row of the loop of validity information: for definitions of this scope, these attributes are `Mandatory`, `Prohibited`
or something else. -/
structure ValidRow where
  scope : Str
  option : Str
  attrs : List Str
  deriving DecidableEq, Repr

/-- The block has a loop, with the columns `_dictionary_valid.application` and `_dictionary_valid.attributes` and possibly
others, that consists of these rows. -/
structure LoopOf (b : Block) (rows : List ValidRow) : Prop where
  inLoop : ∃ n names, b.contains appAttr = true ∧ b.getLoop appAttr = .ok n ∧ dget b.loops n = some names ∧
    names.Nodup ∧ (∀ s ∈ names, lower s = s) ∧ appAttr ∈ names ∧ validAttr ∈ names ∧
    ∀ s ∈ names, ∃ l, b.getItem s = .ok (.list l) ∧ l.length = rows.length
  apps : b.getItem appAttr = .ok (.list (rows.map fun r => .slist [.str r.scope, .str r.option]))
  attrs : b.getItem validAttr = .ok (.list (rows.map fun r => .slist (r.attrs.map .str)))

/-- The name `a` means attribute `x`: `a` is a category of the dictionary, in any capitalisation, and `x` an item below it; or
`a` is no category, and `x` is `a` itself. -/
def Means (d : CifDic) (a x : Str) : Prop :=
  (lower a ∈ d.keys ∧ IsCategory d (lower a) ∧ Below d (lower a) x ∧ ¬ IsCategory d x) ∨
  (¬ (lower a ∈ d.keys ∧ IsCategory d (lower a)) ∧ x = a)

/-- A definition is found under its identifier in any capitalisation. -/
def AnyCase (d : CifDic) : Prop := ∀ a, lower a ∈ d.keys → d.getItem a = d.getItem (lower a)

end Verif.CifDic
