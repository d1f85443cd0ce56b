import Verif.Model.FileMerge
import Verif.Spec.Collection
/-! Specification vocabulary for merging files. -/
namespace Verif.Coll
variable [CaseFold]

/-- Every block is stored under its own name, which is not empty, has no blanks and at most 75 characters. -/
def PlainNames (nb : Coll) : Prop :=
  ∀ k pc, (k, pc) ∈ nb.childTable → lower pc.blockId = k ∧ pc.blockId ≠ [] ∧ pc.blockId.length ≤ 75 ∧ ∀ ch ∈ pc.blockId, ch ≠ ' ' ∧ ch ≠ '\t'

/-- Enclosing blocks come before what they enclose. -/
def ParentsFirst (nb : Coll) : Prop :=
  ∀ l1 k pc l2, nb.childTable = l1 ++ (k, pc) :: l2 → ∀ p, pc.parent = some p → p ∈ dkeys l1

/-- The data names of the incoming blocks fit the limit of the receiving file. -/
def NamesFit (c nb : Coll) : Prop :=
  c.standard = some "CIF".toList → ∀ k b, dget nb.dict k = some b → ∀ n ∈ b.keys, n.length ≤ 75

/-- What a block becomes in the receiving file: its contents with the settings of that file, the same name, and the same enclosing block;
blocks that are not enclosed go inside `parent`, if that is given. -/
def incoming (c : Coll) (parent : Option Str) (e : Entry) : Entry :=
  ⟨stored c e.block, e.blockId, match e.parent with | some p => some p | none => parent.map lower⟩

/-- A value of the attribute is the same as, or among, those of another block. -/
def SameAttr (v w : PyVal) : Prop := w = v ∨ ∃ l, (w = .list l ∨ w = .slist l) ∧ v ∈ l

/-- The value of an attribute of a block, `None` without it. -/
def HasAttr (b : Block) (att : Str) (v : PyVal) : Prop :=
  if b.contains att then b.getItem att = .ok v else v = .none

end Verif.Coll
