import Verif.Model.FullImport
import Verif.Spec.EditDic
import Verif.Spec.Ddl1
/-! Specification vocabulary for the import of definitions from other dictionaries. -/
namespace Verif.CifDic
variable [CaseFold]

/-- A dictionary as it is after reading: it is in good order, its definitions can be read and changed, and the block around them is no
definition itself. -/
structure Filled (d : CifDic) : Prop where
  sound : Sound d
  readable : Readable d
  lang : d.lang = .ddlm
  outer : ∀ k ∈ d.coll.topLevel, ∃ b, d.coll.getItem k = .ok b ∧ b.contains idAttr = false
  blocks : ∀ i ∈ d.keys, ∃ b, d.getItem i = .ok b ∧ b.Reachable ∧ ∀ m, b.maxName = some m → 75 ≤ m

/-- No frame is inside another one. -/
def FlatFrames (d : CifDic) : Prop := ∀ k p, Coll.parentOf d.coll k = some p → Coll.parentOf d.coll p = none

/-- Nothing that is new to `d` has a name that is used in `d`: neither the definitions of `imp` nor their frames. -/
def Apart (d imp : CifDic) : Prop :=
  ∀ i k, dget imp.table i = some k → i ∉ d.keys →
    i ∉ d.coll.lowerKeys ∧ lower k ∉ d.coll.lowerKeys ∧ lower k ∉ d.keys

/-- Definition `b` has become `b'`, which belongs to category `cat` if it is one of those that move, and is the same otherwise. -/
def Joined (cat : Str) (moves : Prop) (b b' : Block) : Prop :=
  (¬ moves ∧ SameDef b b') ∨ (moves ∧ Edited b b' [(catAttr, .str cat)])

end Verif.CifDic
