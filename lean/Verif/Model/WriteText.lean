import Verif.Model.WriteOut
import Verif.Model.Print
/-! # The text of a file -/
namespace Verif.WriteText
open Print
variable [CaseFold]

/-- The item that divides the contents of a dictionary (StarFile.nw 869, 891). -/
def divider : Str := "_dictionary_valid.application".toList

/-- The text of one piece of output (StarFile.nw 866, 869, 881-883, 889-891), for the grammars without nested save frames. The second
half of a dictionary block is printed from the block as it was before its first half was printed; by C26 this makes no difference. -/
def pieceText (st : Style) (hints : List Hint) (c : Coll) : Coll.Piece → Except PyErr Str
  | .data n => .ok ("\ndata_".toList ++ n ++ "\n".toList)
  | .save n => .ok ("\n\nsave_".toList ++ n ++ "\n".toList)
  | .endSave => .ok "\n\nsave_\n".toList
  | .body k =>
    match c.getItem k with
    | .error e => .error e
    | .ok b => printSection st hints b
  | .front k =>
    match c.getItem k with
    | .error e => .error e
    | .ok b => printSection st hints b (finish := divider)
  | .back k =>
    match c.getItem k with
    | .error e => .error e
    | .ok b => printSection st hints b (start := divider)

/-- The first lines of a file (StarFile.nw 848-853): the comment, or the header comment if that is empty, and before it the header of CIF
2.0 files if it is missing. -/
def startText (two : Bool) (comment headerComment : Str) : Str :=
  let c := if comment = [] then headerComment else comment
  if two ∧ c.take 10 ≠ "#\\#CIF_2.0".toList then "#\\#CIF_2.0".toList ++ "\n".toList ++ c else c

/-- `WriteOut` (StarFile.nw 837-896) for the grammars 1.0, 1.1 and 2.0: the text. `header` is what `startText` gives, `hints` is the master template, and `st` holds the settings made by `set_grammar` and `SetOutputLength`; the wrap length is 80. -/
def writeOut (st : Style) (hints : List Hint) (header : Str) (c : Coll) : Except PyErr Str :=
  match c.writeOut false with
  | .error e => .error e
  | .ok ps =>
    match Coll.flatE (pieceText st hints c) ps with
    | .error e => .error e
    | .ok t => .ok (header ++ t)

end Verif.WriteText
