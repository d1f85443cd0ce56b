import Verif.Model.Block
/-! # Print order

Models `create_ordering` (StarFile.nw 3042-3098) and the data names collected by `process_template`
(StarFile.nw 2948-3031; the column and delimiter hints are in `Template`, `TemplateLoop` and `TemplateHeader`). -/
namespace Verif.Block
variable [CaseFold]

/-- The marker `'loop'` that `process_template` puts before the names of a loop (StarFile.nw 3004). -/
def loopMark : Str := "loop".toList

/-- The `dataname` entries of the hints that `process_template` makes from the block of the template
(StarFile.nw 2962-2964, 2990, 3004, 3012, 3030). -/
def hintNames (t : Block) : List Str :=
  t.order.flatMap fun r => match r with
    | .name s => [s]
    | .loop n => match dget t.loops n with
      | some l => loopMark :: l
      | none => []

/-- `requested_order` (StarFile.nw 3044). -/
def requestedOrder (hints : List Str) : List Str := hints.filter fun h => decide (h ≠ loopMark)

/-- The new column order of a loop (StarFile.nw 3054-3057). -/
def reorder (req names : List Str) : List Str :=
  let lo := req.filter fun i => decide (i ∈ names)
  lo ++ names.filter fun i => decide (i ∉ lo)

/-- The body of the `for` loop (StarFile.nw 3046-3057): the block, whose loops may be reordered, and
`new_order`. When the item is neither in the order nor in a loop, `self.loops[-1]` is a `KeyError`. -/
def orderStep (req : List Str) (b : Block) (new : List Ref) (item : Str) : Except PyErr (Block × List Ref) :=
  if Ref.name (lower item) ∈ b.order then .ok (b, new ++ [.name (lower item)])
  else if b.contains item then
    match b.findLoop item with
    | none => .error .key
    | some n =>
      if Ref.loop n ∈ new then .ok (b, new)
      else match dget b.loops n with
        | none => .error .key
        | some names => .ok ({ b with loops := dset b.loops n (reorder req names) }, new ++ [.loop n])
  else .ok (b, new)

/-- The `for` loop (StarFile.nw 3046-3057). -/
def orderLoop (req : List Str) (b : Block) (new : List Ref) : List Str → Except PyErr (Block × List Ref)
  | [] => .ok (b, new)
  | i :: r =>
    match orderStep req b new i with
    | .error e => .error e
    | .ok (b', new') => orderLoop req b' new' r

/-- `extras` (StarFile.nw 3058). -/
def extras (b : Block) (new : List Ref) : List Ref := b.order.filter fun r => decide (r ∉ new)

/-- `cand_pos` (StarFile.nw 3064-3070, 3084-3090) for a requested name; `none` is a `ValueError` of `index`. -/
def candPos (b : Block) (req : List Str) (new out : List Ref) (name : Str) : Option Nat :=
  let tail := req.drop (req.idxOf name)
  let loopOrder := tail.filterMap b.findLoop
  let candidates := out.filter fun r => match r with | .name s => decide (s ∈ tail) | .loop _ => false
  let pos := match candidates with
    | [] => new.length
    | c :: _ => out.idxOf c
  match loopOrder with
  | [] => some pos
  | n :: _ => if Ref.loop n ∈ out then some (min pos (out.idxOf (Ref.loop n))) else none

/-- Keep the part from `name` on (StarFile.nw 3061-3079). -/
def startFrom (b : Block) (req : List Str) (new out : List Ref) (name : Str) : Except PyErr (List Ref) :=
  if name = [] then .ok out
  else if name ∈ req then
    match candPos b req new out name with
    | none => .error .value
    | some p => if p < out.length then .ok (out.drop p) else .ok []
  else if Ref.name name ∈ extras b new then .ok (out.drop (out.idxOf (Ref.name name)))
  else .ok []

/-- Keep the part before `name` (StarFile.nw 3080-3097). -/
def finishAt (b : Block) (req : List Str) (new out : List Ref) (name : Str) : Except PyErr (List Ref) :=
  if name = [] then .ok out
  else if name ∈ req then
    match candPos b req new out name with
    | none => .error .value
    | some p => if p < out.length then .ok (out.take p) else .ok out
  else if Ref.name name ∈ extras b new then
    -- `index` after a cut by `start_from`
    if Ref.name name ∈ out then .ok (out.take (out.idxOf (Ref.name name))) else .error .value
  else .ok out

/-- `create_ordering` (StarFile.nw 3042-3098): the block with reordered loops and `output_order`. The
state after an exception is not modelled. -/
def createOrdering (b : Block) (hints : List Str) (finish start : Str) : Except PyErr (Block × List Ref) :=
  let req := requestedOrder hints
  match orderLoop req b [] req with
  | .error e => .error e
  | .ok (b', new) =>
    match startFrom b' req new (new ++ extras b' new) start with
    | .error e => .error e
    | .ok out =>
      match finishAt b' req new out finish with
      | .error e => .error e
      | .ok out' => .ok (b', out')

end Verif.Block
