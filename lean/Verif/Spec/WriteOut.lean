import Verif.Spec.Collection
import Verif.Model.WriteOut
/-! Specification of the layout of a written collection. -/
namespace Verif.Coll
variable [CaseFold]

/-- The name block `k` is printed with. -/
def printedName (c : Coll) (k : Str) : Str :=
  match entry c k with
  | some e => e.blockId
  | none => []

open Classical in
/-- The blocks below `t`, in the given order. -/
noncomputable def framesOf (c : Coll) (t : Str) (order : List Str) : List Str := order.filter fun x => decide (Under c t x)

/-- The top-level blocks, in the given order. -/
def topsOf (c : Coll) (order : List Str) : List Str := order.filter fun x => decide (parentOf c x = none)

/-- A save frame holding the contents of one block. -/
def frame (c : Coll) (k : Str) : List Piece := [.save (printedName c k), .body k, .endSave]

/-- A data block: heading, and its own contents after what it encloses, or for dictionaries partly before. -/
def dataBlock (c : Coll) (t : Str) (inner : List Piece) : List Piece :=
  if c.standard = some "Dic".toList then .data (printedName c t) :: .front t :: inner ++ [.back t]
  else .data (printedName c t) :: inner ++ [.body t]

/-- The whole file, save frames not nested. -/
noncomputable def flatFile (c : Coll) (order : List Str) : List Piece :=
  (topsOf c order).flatMap fun t => dataBlock c t ((framesOf c t order).flatMap (frame c))

mutual
/-- `Contents c k out`: `out` is the contents of block `k` with everything it encloses written inside it. -/
inductive Contents (c : Coll) : Str → List Piece → Prop
  | dic {k : Str} {kids : List Str} {out : List Piece} : c.standard = some "Dic".toList →
      kids.Nodup → (∀ x, x ∈ kids ↔ parentOf c x = some k) → Frames c kids out → Contents c k (.body k :: out)
  | cif {k : Str} {kids : List Str} {out : List Piece} : c.standard ≠ some "Dic".toList →
      kids.Nodup → (∀ x, x ∈ kids ↔ parentOf c x = some k) → Frames c kids out → Contents c k (out ++ [.body k])
/-- `Frames c ks out`: `out` is a sequence of save frames, one for each of the blocks `ks`. -/
inductive Frames (c : Coll) : List Str → List Piece → Prop
  | nil : Frames c [] []
  | cons {k : Str} {ks : List Str} {out rest : List Piece} : Contents c k out → Frames c ks rest →
      Frames c (k :: ks) (.save (printedName c k) :: out ++ .endSave :: rest)
end

/-- `NestedFile c ts out`: `out` is a sequence of data blocks, one for each of the blocks `ts`, with nested save frames. -/
inductive NestedFile (c : Coll) : List Str → List Piece → Prop
  | nil : NestedFile c [] []
  | cons {t : Str} {ts kids : List Str} {out rest : List Piece} : kids.Nodup → (∀ x, x ∈ kids ↔ parentOf c x = some t) →
      Frames c kids out → NestedFile c ts rest → NestedFile c (t :: ts) (dataBlock c t out ++ rest)

/-- The blocks whose contents are written, in order (for a block written in halves, where the first half is). -/
def written : List Piece → List Str
  | [] => []
  | .body k :: r => k :: written r
  | .front k :: r => k :: written r
  | _ :: r => written r

end Verif.Coll
