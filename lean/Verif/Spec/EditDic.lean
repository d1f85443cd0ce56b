import Verif.Model.EditDic
import Verif.Spec.CifDic
import Verif.Spec.Block
/-! Specification vocabulary for the editing of dictionaries. -/
namespace Verif.CifDic
variable [CaseFold]

/-- The bookkeeping of a dictionary: one block encloses all others, all blocks are shown, the table gives each enclosed block one
lower-case identifier, and no block is called like the identifier of another definition. -/
structure Kept (d : CifDic) : Prop where
  cons : d.coll.Consistent
  shows : d.coll.scoping = .dictionary
  refuses : d.coll.standard ≠ none
  root : ∃ top, d.coll.topLevel = [top]
  nodup : d.keys.Nodup
  low : ∀ i ∈ d.keys, lower i = i
  blocks : ∀ i k, dget d.table i = some k → lower k ∈ d.coll.lowerKeys ∧ Coll.parentOf d.coll (lower k) ≠ none
  inj : ∀ i i' k k', dget d.table i = some k → dget d.table i' = some k' → lower k = lower k' → i = i'
  ident : ∀ k ∈ d.coll.lowerKeys, Coll.parentOf d.coll k ≠ none → ∃ i k', dget d.table i = some k' ∧ lower k' = k
  clash : ∀ i k, dget d.table i = some k → i ∈ d.coll.lowerKeys → lower k = i

/-- A dictionary in good order: the bookkeeping is right, and every definition says itself what it is called. -/
structure Sound (d : CifDic) : Prop extends Kept d where
  ids : ∀ i ∈ d.keys, ∃ b s, d.getItem i = .ok b ∧ Has b idAttr (.str s) ∧ lower s = i

/-- Two definitions are the same, except for the permission to change them. -/
def SameDef (b b' : Block) : Prop := b' = { b with overwrite := b'.overwrite }

/-- Definition `i` is in both dictionaries, and the same. -/
def Unchanged (d d' : CifDic) (i : Str) : Prop :=
  d.contains i = true ∧ d'.contains i = true ∧ ∃ b b', d.getItem i = .ok b ∧ d'.getItem i = .ok b' ∧ SameDef b b'

/-- Definition `b'` has the listed attributes with these values; its other attributes are those of `b`. -/
def Edited (b b' : Block) (l : List (Str × PyVal)) : Prop :=
  (∀ p ∈ l, Has b' p.1 p.2) ∧ ∀ a, (∀ p ∈ l, lower a ≠ lower p.1) → b'.lookup a = b.lookup a

/-- A name without a category: what comes after the last full stop, with the underscores at both ends taken off. -/
def ObjectPart (name obj : Str) : Prop :=
  ∃ pre u u', name = pre ++ u ++ obj ++ u' ∧ (pre = [] ∨ ∃ q, pre = q ++ ['.']) ∧ '.' ∉ u ++ obj ++ u' ∧
    (∀ c ∈ u ++ u', c = '_') ∧ (∀ r, obj ≠ '_' :: r) ∧ (∀ r, obj ≠ r ++ ['_'])

/-- Only blocks of categories enclose the blocks of other definitions, which then belong to that category. -/
def Nested (d : CifDic) : Prop :=
  ∀ i k j l, dget d.table i = some k → dget d.table j = some l → Coll.parentOf d.coll (lower l) = some (lower k) →
    IsCategory d i ∧ InCategory d i j

/-- What goes when `name` is removed: the definition itself and, if it is a category, everything below it. -/
def Goes (d : CifDic) (name x : Str) : Prop := x = lower name ∨ (IsCategory d name ∧ Below d name x)

/-- The definition is one of an item. -/
def IsItem (b : Block) : Prop := b.contains scopeAttr = false ∨ Has b scopeAttr (.str "Item".toList)

/-- The identifier made of category and object name. -/
def joined (cat obj : Str) : Str := '_' :: (cat ++ '.' :: obj)

/-- What becomes of a child of a category that is renamed: definition `b`, listed as `c`, becomes `b'`, listed as `n`. -/
def Child (newname c n : Str) (b b' : Block) : Prop :=
  (IsItem b ∧ ∃ o, Has b objAttr (.str o) ∧ n = lower (newname ++ '.' :: o) ∧
    Edited b b' [(catAttr, .str newname), (idAttr, .str (joined newname o))]) ∨
  ((∃ sc, Has b scopeAttr sc ∧ sc ≠ .str "Item".toList) ∧ n = c ∧ Edited b b' [(catAttr, .str newname)])

/-- Every definition is protected against changes. -/
def Locked (d : CifDic) : Prop := ∀ i b, d.contains i = true → d.getItem i = .ok b → b.overwrite = false

end Verif.CifDic
