import Verif.Model.Collection
/-! Specification vocabulary for block collections. -/
namespace Verif.Coll
variable [CaseFold]

/-- What a collection holds under a key: a block, the name it is printed with, and the key of the enclosing block. -/
structure Entry where
  block : Block
  blockId : Str
  parent : Option Str
  deriving DecidableEq

/-- The entry stored under a (lower-case) key. -/
def entry (c : Coll) (k : Str) : Option Entry :=
  match dget c.dict k, dget c.childTable k with
  | some b, some pc => some ⟨b, pc.blockId, pc.parent⟩
  | _, _ => none

/-- The key of the block enclosing block `k`. -/
def parentOf (c : Coll) (k : Str) : Option Str :=
  match dget c.childTable k with
  | some pc => pc.parent
  | none => none

/-- `Under c a x`: going up from `x` by one or more parent links leads to `a`. -/
inductive Under (c : Coll) (a : Str) : Str → Prop
  | child {x : Str} : parentOf c x = some a → Under c a x
  | deeper {x y : Str} : Under c a x → parentOf c y = some x → Under c a y

/-- The subtree of block `a`. -/
def Within (c : Coll) (a x : Str) : Prop := x = a ∨ Under c a x

/-- The bookkeeping of a collection is consistent: block table, parent table, key set and output order hold the
same lower-case keys, once each; enclosing blocks exist and are not enclosed by what they enclose; the keys
shown to the user are all keys, or those of the top-level blocks, according to the scoping. -/
structure Consistent (c : Coll) : Prop where
  nd_dict : (dkeys c.dict).Nodup
  nd_table : (dkeys c.childTable).Nodup
  nd_keys : c.lowerKeys.Nodup
  nd_order : c.inputOrder.Nodup
  nd_visible : c.keys.Nodup
  mem_dict : ∀ k, k ∈ dkeys c.dict ↔ k ∈ c.lowerKeys
  mem_table : ∀ k, k ∈ dkeys c.childTable ↔ k ∈ c.lowerKeys
  mem_order : ∀ k, k ∈ c.inputOrder ↔ k ∈ c.lowerKeys
  lower_keys : ∀ k ∈ c.lowerKeys, lower k = k
  parents : ∀ k p, parentOf c k = some p → p ∈ c.lowerKeys
  acyclic : ∀ k, ¬ Under c k k
  visible_all : c.scoping = .dictionary → ∀ k, k ∈ c.keys ↔ k ∈ c.lowerKeys
  visible_top : c.scoping = .instance → ∀ k, k ∈ c.keys ↔ k ∈ c.lowerKeys ∧ parentOf c k = none

/-- The public operations that change a collection. -/
inductive Op where
  | new (name : Str) (contents : Block) (fix : Bool) (parent : Option Str)
  | del (key : Str)
  | rename (old new : Str)
  | scoping (s : Scoping)
  | setParent (parent child : Str)
  | clear

/-- Perform one operation, whatever its result. -/
def step (c : Coll) : Op → Coll
  | .new n b f p => (c.newBlock n b f p).1
  | .del k => (c.delItem k).1
  | .rename o n => (c.rename o n).1
  | .scoping s => c.setScoping s
  | .setParent p k => (c.setParent p k).1
  | .clear => c.clear

/-- The key a block called `name` asks for. -/
def wantedKey (name : Str) (fix : Bool) : Str := lower (if fix then fixName name else name)

/-- Calls covered: the enclosing block named in a call exists, and is not itself part of what the call replaces or moves;
blocks to be deleted or renamed are not hidden by the scoping. -/
def Op.Fair (c : Coll) : Op → Prop
  | .new n _ f p =>
    (∀ q, p = some q → lower q ∈ c.lowerKeys) ∧
    (c.standard = none → (∀ x, Within c (wantedKey n f) x → x ∈ c.lowerKeys → x ∈ c.keys) ∧
      ∀ q, p = some q → ¬ Within c (wantedKey n f) (lower q))
  | .del k => ∀ x, Within c (lower k) x → x ∈ c.lowerKeys → x ∈ c.keys
  | .rename o _ => lower o ∈ c.lowerKeys → lower o ∈ c.keys
  | .setParent p k => ¬ Within c (lower k) (lower p)
  | _ => True

/-- The collections that can be built from an empty one, with any settings, by fair calls. -/
inductive Reachable : Coll → Prop
  | start (s : Scoping) (standard : Option Str) (unicode : Bool) :
      Reachable { scoping := s, standard := standard, unicode := unicode }
  | step {c : Coll} (o : Op) : Reachable c → o.Fair c → Reachable (c.step o)

/-- What is stored: the contents with the collection's limit on names and character set. -/
def stored (c : Coll) (b : Block) : Block :=
  { b with
    maxName := if c.standard = some "CIF".toList then some 75 else b.maxName
    unicode := c.unicode }

/-- Two blocks hold the same items, loops, order and spelling of names; their settings may differ. -/
def SameContents (a b : Block) : Prop :=
  a.block = b.block ∧ a.loops = b.loops ∧ a.order = b.order ∧ a.trueCase = b.trueCase

/-- An operation does not concern the block with key `k`: it does not delete, replace, rename or move it. -/
def Op.Spares (c : Coll) (k : Str) : Op → Prop
  | .new n _ f p => if c.standard = none then ¬ Within c (wantedKey n f) k else wantedKey n f = k → p = none
  | .del key => ¬ Within c (lower key) k
  | .rename o _ => lower o ≠ k
  | .clear => False
  | _ => True

/-- A history of fair operations none of which concerns the block with key `k`. -/
def SparedRun (k : Str) : Coll → List Op → Prop
  | _, [] => True
  | c, o :: os => o.Fair c ∧ o.Spares c k ∧ SparedRun k (c.step o) os

/-- Perform a history. -/
def run (c : Coll) : List Op → Coll
  | [] => c
  | o :: os => run (c.step o) os

end Verif.Coll
