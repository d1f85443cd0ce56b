import Verif.Model.LoopView
import Verif.Spec.Block
/-! Specification vocabulary for views of loops. -/
namespace Verif.Block
variable [CaseFold]

/-- A call does not take the name `x` out of its loop. -/
def Op.Leaves (x : Str) : Op → Prop
  | .remove k => lower k ≠ lower x
  | .createLoop ns _ _ => lower x ∉ ns.map lower
  | .addLoopName _ new => lower new ≠ lower x
  | .clear => False
  | _ => True

/-- A history of such calls, made as `Op.Checked` asks. -/
def LeavesRun (x : Str) : Block → List Op → Prop
  | _, [] => True
  | b, o :: os => o.Checked b ∧ o.Leaves x ∧ LeavesRun x (b.step o).1 os

end Verif.Block
