import Verif.Model.TemplateHeader
/-! # Whole templates

`process_template` (StarFile.nw 2948-3031), given the block that has been read from the template and its text. Not modelled: reading the template (2950-2955; see `Reader`), and
the hints `reformat` and `reformat_indent` (2979-2985; see `Wrap`). -/
namespace Verif
namespace Template

/-- The body of the loop over the items of the block (StarFile.nw 2963-3031); `none` is outside of the model (`pieces`). -/
def hintsOf (loops : Dict Nat (List Str)) (text : Str) : Ref → Option (Except LoopErr (List Hint))
  | .name s =>
    match itemHint s text with
    | none => none
    | some (.error _) => some (.error .attribute)
    | some (.ok h) => some (.ok [h])
  | .loop n =>
    match dget loops n with
    | none => some (.error .key)
    | some names => templateLoop names text

/-- The loop over the items of the block (StarFile.nw 2962). -/
def allHints (loops : Dict Nat (List Str)) (text : Str) : List Ref → Option (Except LoopErr (List Hint))
  | [] => some (.ok [])
  | r :: rs =>
    match hintsOf loops text r with
    | none => none
    | some (.error e) => some (.error e)
    | some (.ok hs) =>
      match allHints loops text rs with
      | none => none
      | some (.error e) => some (.error e)
      | some (.ok hs') => some (.ok (hs ++ hs'))

/-- `process_template` (StarFile.nw 2948-3031). -/
def processTemplate (t : Block) (text : Str) : Option (Except LoopErr (List Hint)) := allHints t.loops text t.order

end Template
end Verif
