import Verif.Model.ValidCifFile
import Verif.Spec.Collection
import Verif.Spec.ValidFile
/-! # Specification: files of valid blocks -/
namespace Verif
namespace Validate
open Spec
variable [CaseFold]

/-- All checks that are to be run on the block have been run, and none failed. -/
def PassedAll (C : Checks) (b : Block) : Prop := ∃ es, BlockRun C b (some {}) es ∧ ∀ e ∈ es, ¬ Fails e.outcome

/-- Every top-level block of the file has passed the checks. -/
def AllPassed (C : Checks) (c : Coll) : Prop :=
  ∀ k ∈ c.lowerKeys, Coll.parentOf c k = none → ∃ b, c.getItem k = .ok b ∧ PassedAll C b

/-- What is done to a file of valid blocks. -/
inductive VOp where
  | new (name : Str) (contents : Block) (fix : Bool) (parent : Option Str)
  | del (key : Str)
  | scoping (s : Scoping)
  | setParent (parent child : Str)
  | clear

/-- Perform one operation, whatever its result. -/
def vstep (C : Checks) (c : Coll) : VOp → Coll
  | .new n b f p => (vNewBlock C c n b f p).1
  | .del k => (c.delItem k).1
  | .scoping s => c.setScoping s
  | .setParent p k => (c.setParent p k).1
  | .clear => c.clear

/-- The calls covered: a new block passes the checks, its name is one that no block of the file has, and is spelt as the key under which it
is stored: no capitals, and no blanks that are replaced. The rest is as for plain files. -/
def VOp.Fair (C : Checks) (c : Coll) : VOp → Prop
  | .new n b f p => (Coll.Op.new n b f p).Fair c ∧ Coll.wantedKey n f = n ∧ n ∉ c.lowerKeys ∧ PassedAll C (copyOf b)
  | .del k => (Coll.Op.del k).Fair c
  | .scoping s => (Coll.Op.scoping s).Fair c
  | .setParent p k => (Coll.Op.setParent p k).Fair c
  | .clear => True

/-- Files that come from opening a consistent file and such calls. -/
inductive VReachable (C : Checks) : Coll → Prop
  | opened {c c' : Coll} : Coll.Consistent c → openValid C c = (c', .ok ()) → VReachable C c'
  | step {c : Coll} (op : VOp) : VReachable C c → op.Fair C c → VReachable C (vstep C c op)

end Validate
end Verif
