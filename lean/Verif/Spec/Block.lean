import Verif.Model.Block
/-! Specification vocabulary for blocks: what a block prints, the operations of a history, and the map
a history defines. -/
namespace Verif.Block
variable [CaseFold]

/-- The data names a block prints, in print order: a loop stands for its names. -/
def printed (b : Block) : List Str :=
  b.order.flatMap fun r => match r with
    | .name s => [s]
    | .loop n => match dget b.loops n with
      | some l => l
      | none => []

/-- The public operations that change a block. `configure` stands for the settings: `overwrite`, the
limit on data name length and the character set. -/
inductive Op where
  | add (key : Str) (value : PyVal) (precheck : Bool)
  | remove (key : Str)
  | createLoop (names : List Str) (order : Int) (lengthCheck : Bool)
  | addLoopName (old new : Str)
  | changeOrder (item : Ref) (pos : Int)
  | clear
  | removePacket (key : Str) (value : PyVal)
  | addPacket (key : Str) (p : Packet)
  | configure (overwrite : Bool) (maxName : Option Nat) (unicode : Bool)

/-- Perform one operation: the new state and what the caller sees. -/
def step (b : Block) : Op → Block × Except PyErr Unit
  | .add k v pre => b.addItem k v pre
  | .remove k => b.removeItem k
  | .createLoop ns o lc => b.createLoop ns o lc
  | .addLoopName o n => b.addLoopName o n
  | .changeOrder r p => b.changeItemOrder r p
  | .clear => (b.clear, .ok ())
  | .removePacket k v => b.removeKeyedPacket k v
  | .addPacket k p =>
    match b.getLoop k with
    | .error e => (b, .error e)
    | .ok n => b.addPacket n p
  | .configure o m u => ({ b with overwrite := o, maxName := m, unicode := u }, .ok ())

/-- A call is sensible if it does not ask for a loop containing the same name twice. -/
def Op.Sensible : Op → Prop
  | .createLoop ns _ _ => (ns.map lower).Nodup
  | _ => True

/-- As `Sensible`, names are not (a variant of) the reserved key `"saves"`, and a loop is made only of names that are stored (which `CreateLoop` checks itself
unless told not to, as the parser does after storing the items). -/
def Op.Checked (b : Block) : Op → Prop
  | .createLoop ns _ lc => (ns.map lower).Nodup ∧ (lc = true ∨ ∀ d ∈ ns, b.contains d = true)
  | .add k _ _ => lower k ≠ saves
  | _ => True

/-- Perform a history of operations, whatever their results. -/
def run (b : Block) : List Op → Block
  | [] => b
  | o :: os => run (b.step o).1 os

/-- An empty block with any settings. -/
def Fresh (b : Block) : Prop := b.block = [] ∧ b.loops = [] ∧ b.order = [] ∧ b.trueCase = []

/-- The blocks that can arise: from an empty block by any history of operations, whether they succeed or
fail, and of merging with other such blocks. -/
inductive Reachable : Block → Prop
  | fresh (b : Block) (h : Fresh b) : Reachable b
  | step (b : Block) (op : Op) (h : Reachable b) (hc : op.Checked b) : Reachable (b.step op).1
  | merge (b nb : Block) (mode : MergeMode) (att : List Str) (h : Reachable b) (h' : Reachable nb) :
      Reachable (b.merge nb mode att).1

/-- The value of a data name, if it can be read. -/
def lookup (b : Block) (key : Str) : Option PyVal :=
  match b.getItem key with
  | .ok v => some v
  | .error _ => none

/-- The loop column of a data name. -/
def column (b : Block) (key : Str) : Option (List PyVal) :=
  match b.lookup key with
  | some (.list l) => some l
  | _ => none

/-- The names in the loop that contains `key`, empty if it is not looped. -/
def loopOf (b : Block) (key : Str) : List Str :=
  match b.loops.find? fun p => decide (lower key ∈ p.2) with
  | some p => p.2
  | none => []

end Verif.Block

namespace Verif.Block
variable [CaseFold]

/-- The effect an operation should have on the map from (lower-case) names to values, given whether it
succeeded. Making a loop of names that all have single values turns each value into a one-row column. -/
def effect (m : Str → Option PyVal) (ok : Bool) : Op → Str → Option PyVal
  | .add k v _ => fun x => if ok = true ∧ x = lower k then some v else m x
  | .remove k => fun x => if x = lower k then none else m x
  | .clear => fun _ => none
  | .createLoop ns _ lc => fun x =>
    if ok = true ∧ lc = true ∧ x ∈ ns.map lower ∧
        (∀ y ∈ ns.map lower, ∃ v, m y = some v ∧ v.isColumn = false)
    then (m x).map fun v => .list [v] else m x
  | _ => m

/-- The operations a map history consists of: everything but the packet operations; values stored without
checks contain no `None`. -/
def Op.MapOp : Op → Prop
  | .add _ v pre => pre = true → notNone v = true
  | .removePacket _ _ => False
  | .addPacket _ _ => False
  | _ => True

/-- A `CreateLoop` that gives up while turning single values into columns (see C17). -/
def FailsWrapping (b : Block) (op : Op) : Prop :=
  ∃ ns o, op = .createLoop ns o true ∧ (∀ d ∈ ns, ∃ v, b.lookup d = some v ∧ v.isColumn = false) ∧
    (b.step op).2 ≠ .ok ()

/-- A history of map operations; `m` is the map that the operations and their outcomes define. -/
inductive History : Block → (Str → Option PyVal) → Prop
  | fresh (b : Block) (h : Fresh b) : History b fun _ => none
  | step (b : Block) (m : Str → Option PyVal) (op : Op) (h : History b m) (hc : op.Checked b) (hm : op.MapOp)
      (hf : ¬ FailsWrapping b op) :
      History (b.step op).1 (effect m (decide ((b.step op).2 = .ok ())) op)

/-- All columns of each loop have the same number of values. -/
def Rect (b : Block) : Prop :=
  ∀ n names, dget b.loops n = some names → ∃ len, ∀ s ∈ names, ∃ col, b.column s = some col ∧ col.length = len

/-- Operations that should keep loops rectangular: a looped name is only given a column of the length it has;
loops made without length check are made of columns of equal length; only columns are added to a loop;
adding and removing packets succeeds. -/
def KeepsShape (b : Block) : Op → Prop
  | .add k v pre => (pre = true → notNone v = true) ∧
      (b.loopOf k = [] ∨ ∃ l c, v = .list l ∧ b.column (lower k) = some c ∧ l.length = c.length)
  | .createLoop ns _ lc => lc = true ∨ ∃ len, ∀ d ∈ ns, ∃ c, b.column (lower d) = some c ∧ c.length = len
  | .addLoopName _ n => ∀ v, b.lookup n = some v → v.isColumn = true
  | .removePacket k v => (b.step (.removePacket k v)).2 = .ok ()
  | .addPacket k p => (b.step (.addPacket k p)).2 = .ok ()
  | _ => True

/-- Histories of such operations. -/
inductive ShapeHistory : Block → Prop
  | fresh (b : Block) (h : Fresh b) : ShapeHistory b
  | step (b : Block) (op : Op) (h : ShapeHistory b) (hc : op.Checked b) (hk : b.KeepsShape op) :
      ShapeHistory (b.step op).1

end Verif.Block
