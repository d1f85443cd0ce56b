import Verif.Spec.RoundTrip20
import Verif.Spec.WriteOut
import Verif.Model.ReadStar
import Verif.Model.WriteText
/-! # Specification of files with save frames that are written and read back -/
namespace Verif.RoundTrip
open Print
variable [CaseFold]

/-- The order of the blocks in a written file: every data block is followed by what it encloses. -/
noncomputable def fileOrder (c : Coll) : List Str := (Coll.topsOf c c.inputOrder).flatMap fun t => t :: Coll.framesOf c t c.inputOrder

/-- The blocks that are shown when the file has been read. -/
noncomputable def shownKeys (c : Coll) : Scoping → List Str
  | .dictionary => fileOrder c
  | .instance => Coll.topsOf c c.inputOrder

/-- `Restored R c s c'`: the collection `c'` that was read holds what was written from `c`. It has the blocks of `c`, each under its name and with
contents that are the same in the sense of `R`; the save frames of a data block are the blocks it enclosed, directly or not; the
order is that of the file, and the blocks shown are those that the scoping `s` asks for. -/
structure Restored (R : Block → Block → Prop) (c : Coll) (s : Scoping) (c' : Coll) : Prop where
  shown : c'.keys = shownKeys c s
  order : c'.inputOrder = fileOrder c
  all : ∀ k, k ∈ c'.lowerKeys ↔ k ∈ c.lowerKeys
  names : ∀ k ∈ c.lowerKeys, Coll.printedName c' k = Coll.printedName c k
  parents : ∀ k ∈ c.lowerKeys, ∀ t, Coll.parentOf c' k = some t ↔ Coll.parentOf c t = none ∧ Coll.Under c t k
  contents : ∀ k ∈ c.lowerKeys, ∃ b rb, c.getItem k = .ok b ∧ c'.getItem k = .ok rb ∧ R b rb

/-- What is read, compared with the block that was written: the names come in the order that the hints ask for. -/
def ReadInOrder11 (hints : List Hint) (b rb : Block) : Prop :=
  ∃ b' out, b.createOrdering (hints.map (·.dataname)) [] [] = .ok (b', out) ∧ SameRead { b' with order := out } rb

/-- What is read, compared with the block that was written: the names come in the order that the hints ask for. -/
def ReadInOrder (hints : List Hint) (b rb : Block) : Prop :=
  ∃ b' out, b.createOrdering (hints.map (·.dataname)) [] [] = .ok (b', out) ∧ SameRead20 { b' with order := out } rb

/-- Words of a part of the block, when it is written, do not run together. -/
def UngluedPart (st : Style) (hints : List Hint) (b : Block) (finish start : Str) : Prop :=
  StandsApart hints b ∨ ∀ text, Print.printSection st hints b [] 0 finish start = .ok text → ShortLines text

/-- Words of a block do not run together when it is written as a save frame or data block of the collection. The data blocks of
dictionaries are written in two parts. -/
def UngluedIn (st : Style) (hints : List Hint) (c : Coll) (k : Str) (b : Block) : Prop :=
  if c.standard = some "Dic".toList ∧ Coll.parentOf c k = none then
    UngluedPart st hints b WriteText.divider [] ∧ UngluedPart st hints b [] WriteText.divider
  else UngluedPart st hints b [] []

/-- The grammar asked for is 1.1, or it is left open and the header is not that of CIF 2.0. -/
def Asks11 (req : Option Str) (header : Str) : Prop :=
  req = some "1.1".toList ∨ (req = none ∨ req = some "auto".toList) ∧ ¬ ReadStar.header2 <+: header

/-- The grammar asked for is 2.0 or left open, and the header is that of CIF 2.0. -/
def Asks20 (req : Option Str) (header : Str) : Prop :=
  (req = some "2.0".toList ∨ req = none ∨ req = some "auto".toList) ∧ ReadStar.header2 <+: header

end Verif.RoundTrip
