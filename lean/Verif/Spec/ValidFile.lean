import Verif.Model.ValidFile
import Verif.Spec.Block
import Verif.Spec.Collection
import Verif.Spec.ValidateRun
/-! # Specification of the validation of files -/
namespace Verif.Spec
open Validate
variable [CaseFold]

/-- `b'` is `b` without the items whose names are not in the dictionary: the other items keep their values, their places and
their loops; a loop that has lost all its names is gone. -/
structure OnlyKnown (D : Dic) (b b' : Block) : Prop where
  keys : b'.keys = b.keys.filter D.known
  printed : b'.printed = b.printed.filter D.known
  values : ∀ x, x ≠ Block.saves → D.known x = true → b'.lookup x = b.lookup x
  loops : ∀ n, dget b'.loops n = (dget b.loops n).bind fun l =>
    if (∃ a ∈ l, D.known a = false) ∧ l.filter D.known = [] then none else some (l.filter D.known)

/-- The collection holds blocks that can arise. -/
def Sound (c : Coll) : Prop := ∀ k b, dget c.dict k = some b → Block.Reachable b

/-- All checks of the block `b` have been carried out, and `v` is the verdict with its report: valid when there is no failure, and
for each key exactly the failures with that key. -/
def Judged (C : Checks) (b : Block) (v : Bool × Dict Str Results) : Prop :=
  ∃ es, BlockRun C b none es ∧ (v.1 = true ↔ ∀ e ∈ es, ¬ Fails e.outcome) ∧
    ∀ k, dget v.2 k = if failuresOf es k = [] then none else some (failuresOf es k)

end Verif.Spec
