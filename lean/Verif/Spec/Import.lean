import Verif.Model.Import
/-! # What imports should give -/
namespace Verif.Import

/-- An import reference: the file, the definition in it, and how to import. -/
structure Ref where
  file : Str
  save : Str
  mode : Option Str := none
  miss : Option Str := none
  dupl : Option Str := none

/-- An optional entry of a table. -/
def entry (k : String) : Option Str → List (Str × PyVal)
  | none => []
  | some v => [(k.toList, .str v)]

/-- The reference as it stands in `_import.get`. -/
def Ref.val (r : Ref) : PyVal :=
  .sdict (("file".toList, .str r.file) :: ("save".toList, .str r.save) :: (entry "mode" r.mode ++ (entry "miss" r.miss ++ entry "dupl" r.dupl)))

/-- The reference imports attributes: mode `Contents`, in any capitals, which is also the default. -/
def Ref.Contents [CaseFold] (r : Ref) : Prop := r.mode = none ∨ ∃ m, r.mode = some m ∧ lower m = "contents".toList

/-- A missing definition is to be skipped. -/
def Ref.MayMiss (r : Ref) : Prop := ∃ m, r.miss = some m ∧ m ≠ "Exit".toList

/-- The files that are known, and the definitions in them. -/
abbrev Files := Str → Option Source

/-- The definition that a reference refers to. -/
def Found (fs : Files) (r : Ref) (t : Target) : Prop := ∃ src, fs r.file = some src ∧ src r.save = .ok t

/-- The file has no such definition. -/
def Missing (fs : Files) (r : Ref) : Prop := ∃ src, fs r.file = some src ∧ src r.save = .error .key

/-- The reference provides an attribute with this value. -/
def Gives [CaseFold] (fs : Files) (r : Ref) (name : Str) (v : PyVal) : Prop :=
  r.Contents ∧ ∃ t, Found fs r t ∧ t.contains name = true ∧ t.getItem name = .ok v

/-- The reference does not provide the attribute: its definition may be missing, is imported in another way, or lacks it. -/
def Silent [CaseFold] (fs : Files) (r : Ref) (name : Str) : Prop :=
  (Missing fs r ∧ r.MayMiss) ∨ ∃ t, Found fs r t ∧ (¬ r.Contents ∨ t.contains name = false)

/-- The definition lists these references. -/
def Refers [CaseFold] (b : Block) (refs : List Ref) : Prop :=
  b.contains importAttr = true ∧ (b.getItem importAttr = .ok (.slist (refs.map Ref.val)) ∨ b.getItem importAttr = .ok (.list (refs.map Ref.val)))

end Verif.Import
