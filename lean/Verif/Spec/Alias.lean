import Verif.Model.Alias
import Verif.Spec.Block
/-! Specification vocabulary for blocks in a heap: two blocks, calls on either of them, and calls that leave existing loops alone. -/
namespace Verif.Alias
open Block
variable [CaseFold]

/-- The addresses of a block's objects are its own within the block, and taken from the heap. -/
structure Own (h : Heap) (x : HBlock) : Prop where
  keys : (dkeys x.block).Nodup
  loops : (dkeys x.loops).Nodup
  cells : (x.block.map (·.2)).Nodup
  lists : (x.loops.map (·.2)).Nodup
  cellsIn : ∀ a ∈ x.block.map (·.2), a < h.next
  listsIn : ∀ a ∈ x.loops.map (·.2), a < h.next

/-- Perform one operation on a block in the heap. -/
def hStep (h : Heap) (x : HBlock) : Op → Res
  | .add k v pre => hAddItem h x k v pre
  | .remove k => hRemoveItem h x k
  | .createLoop ns o lc => hCreateLoop h x ns o lc
  | .addLoopName o n => hAddLoopName h x o n
  | .changeOrder r p => hChangeItemOrder h x r p
  | .clear => (h, hClear x, .ok ())
  | .removePacket k v => hRemoveKeyedPacket h x k v
  | .addPacket k p =>
    match (view h x).getLoop k with
    | .error e => (h, x, .error e)
    | .ok n => hAddPacket h x n p
  | .configure o m u => (h, { x with overwrite := o, maxName := m, unicode := u }, .ok ())

/-- Two blocks in one heap. -/
structure World where
  heap : Heap
  a : HBlock
  b : HBlock

/-- A call on the first (`true`) or the second block. -/
def World.step (w : World) (side : Bool) (op : Op) : World :=
  if side then ⟨(hStep w.heap w.a op).1, (hStep w.heap w.a op).2.1, w.b⟩
  else ⟨(hStep w.heap w.b op).1, w.a, (hStep w.heap w.b op).2.1⟩

/-- A history of calls on both. -/
def World.run (w : World) : List (Bool × Op) → World
  | [] => w
  | (s, o) :: r => World.run (w.step s o) r

/-- The calls of a history on one of the blocks. -/
def onSide (side : Bool) (hist : List (Bool × Op)) : List Op := (hist.filter fun p => p.1 == side).map (·.2)

/-- A block without items. -/
def Empty (x : HBlock) : Prop := x.block = [] ∧ x.loops = []

/-- The call changes no loop that is there: it adds or replaces items, removes items that are not looped, makes loops of items that are not
looped, moves such items, or forgets everything. -/
def Mild (b : Block) : Op → Prop
  | .add _ _ _ => True
  | .remove k => b.loopOf k = []
  | .createLoop ns _ _ => ∀ n ∈ ns, b.loopOf n = []
  | .addLoopName _ _ => False
  | .changeOrder (.name s) _ => b.loopOf s = []
  | .changeOrder (.loop _) _ => True
  | .clear => True
  | .removePacket _ _ => False
  | .addPacket _ _ => False
  | .configure _ _ _ => True

/-- All calls of the history are mild, each when it is made. -/
def MildHistory : World → List (Bool × Op) → Prop
  | _, [] => True
  | w, (s, o) :: r => Mild (if s then view w.heap w.a else view w.heap w.b) o ∧ MildHistory (w.step s o) r

end Verif.Alias
