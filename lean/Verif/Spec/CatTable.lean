import Verif.Model.CatTable
import Verif.Spec.CifDic
/-! # Specification of the tables of names, keys and parents of looped categories -/
namespace Verif.CifDic
variable [CaseFold]

/-- Definition `a` has the attribute with this value. -/
def Attr (d : CifDic) (a attr : Str) (v : PyVal) : Prop := ∃ b, d.getItem a = .ok b ∧ Has b attr v

/-- Definition `a` is an item: it says so or says nothing. -/
def ItemDef (d : CifDic) (a : Str) : Prop :=
  ∃ b, d.getItem a = .ok b ∧ (b.contains scopeAttr = false ∨ Has b scopeAttr (.str "Item".toList))

/-- `a` defines the item with category `c` and object `o`, up to case. -/
structure ItemAt (d : CifDic) (c o a : Str) : Prop where
  key : a ∈ d.keys
  item : ItemDef d a
  category : InCategory d c a
  object : ∃ s, Attr d a objAttr (.str s) ∧ lower s = lower o

/-- `a` is the key of a category. -/
def IsKey (d : CifDic) (a : Str) : Prop := Attr d a purposeAttr (.str "Key".toList)

/-- `c` is a looped category. -/
def LoopCat (d : CifDic) (c : Str) : Prop := c ∈ d.keys ∧ Attr d c classAttr (.str "Loop".toList)

/-- The looped category `c` is in the looped category `p`. -/
def LoopChild (d : CifDic) (p c : Str) : Prop := LoopCat d p ∧ LoopCat d c ∧ InCategory d p c

/-- Looped categories are not nested more than once. -/
def Shallow (d : CifDic) : Prop := ∀ p c c', LoopChild d p c → ¬ LoopChild d c c'

/-- The looped category `x` is in the looped category `c`, or in one that is in it, and so on. -/
inductive LoopBelow (d : CifDic) (c : Str) : Str → Prop
  | child {x : Str} : LoopChild d c x → LoopBelow d c x
  | deeper {y x : Str} : LoopBelow d c y → LoopChild d y x → LoopBelow d c x

/-- What the table of names needs: every item has an object and an identifier, and no object is called like the identifier of an item. -/
structure Described (d : CifDic) : Prop where
  objects : ∀ a ∈ d.keys, ItemDef d a → ∃ o, Attr d a objAttr (.str o) ∧ lower o ≠ []
  ids : ∀ a ∈ d.keys, ItemDef d a → ∃ i, Attr d a defIdAttr (.str i)
  purposes : ∀ a ∈ d.keys, ∀ b, d.getItem a = .ok b → b.contains purposeAttr = true → ∃ v, b.getItem purposeAttr = .ok v
  apart : ∀ a ∈ d.keys, ∀ a' ∈ d.keys, ∀ o i, Attr d a objAttr (.str o) → Attr d a' defIdAttr (.str i) → lower o ≠ i

/-- `n` is the name of an item of category `c` with object `o`. -/
def OwnName (d : CifDic) (c o n : Str) : Prop := ∃ a, ItemAt d c o a ∧ Attr d a defIdAttr (.str n)

/-- `n` is the name of an item with object `o` in a looped category in the looped category `c`, and not of a key. -/
def ChildName (d : CifDic) (c o n : Str) : Prop := ∃ c' a, LoopChild d (lower c) c' ∧ ItemAt d c' o a ∧ ¬ IsKey d a ∧ Attr d a defIdAttr (.str n)

/-- A category as it can be written: with or without an underscore at the start. -/
def Spells (category c : Str) : Prop := lower c ≠ [] ∧ (category = '_' :: c ∨ (category = c ∧ c ≠ [] ∧ c.head? ≠ some '_'))

/-- The key of a looped category: the values of `_category_key.name`, otherwise that of `_category.key_id`, otherwise nothing. -/
inductive KeyOf (d : CifDic) (c : Str) : List PyVal → Prop
  | names {v : PyVal} {k : List PyVal} : Attr d c keysAttr v → Validate.listify v = .ok k → KeyOf d c k
  | single {b : Block} {v : PyVal} : d.getItem c = .ok b → b.contains keysAttr = false → Has b keyAttr v → KeyOf d c [v]
  | missing {b : Block} : d.getItem c = .ok b → b.contains keysAttr = false → b.contains keyAttr = false → KeyOf d c [.none]

/-- Two lists whose elements are related one by one. -/
inductive Matched {α β : Type} (R : α → β → Prop) : List α → List β → Prop
  | nil : Matched R [] []
  | cons {a : α} {b : β} {l : List α} {r : List β} : R a b → Matched R l r → Matched R (a :: l) (b :: r)

/-- The keys of all looped categories can be read. -/
def Keyed (d : CifDic) : Prop :=
  ∀ c b, LoopCat d c → d.getItem c = .ok b → (b.contains keysAttr = true → ∃ v k, b.getItem keysAttr = .ok v ∧ Validate.listify v = .ok k) ∧
    (b.contains keyAttr = true → ∃ v, b.getItem keyAttr = .ok v)

/-- No looped category is below itself. -/
def LoopAcyclic (d : CifDic) : Prop := ∀ c, ¬ LoopBelow d c c

/-- The looped category `r` is `c` or above it. -/
def AtOrAbove (d : CifDic) (r c : Str) : Prop := r = c ∨ LoopBelow d r c

/-- `r` is the topmost looped category at or above `c`. -/
def TopOf (d : CifDic) (c r : Str) : Prop := AtOrAbove d r c ∧ ∀ p, ¬ LoopChild d p r

/-- `k` is one of the names in `_category_key.name` of `c`. -/
def KeyName (d : CifDic) (c k : Str) : Prop := ∃ v l, Attr d c keysAttr v ∧ Validate.listify v = .ok l ∧ .str k ∈ l

/-- The keys equivalent to a key: those reached from it by following links, as long as the category of the key is in a looped category. -/
inductive Equivs (d : CifDic) : Str → List Str → Prop
  | top {k s : Str} : Attr d k catAttr (.str s) → (∀ p, LoopCat d p → IsCategory d p → ¬ InCategory d p s) → Equivs d k []
  | up {k s p l : Str} {r : List Str} : Attr d k catAttr (.str s) → LoopCat d p → IsCategory d p → InCategory d p s →
      Attr d k linkAttr (.str l) → KeyName d p l → Equivs d l r → Equivs d k (l :: r)

/-- `key_equivs.get(k,[])` -/
def equivsOf (t : Dict Str (List Str)) (k : Str) : List Str := (dget t k).elim [] id

/-- The keys of a looped category are items of that category, and named once. -/
def OwnKeys (d : CifDic) : Prop :=
  ∀ c v l, LoopCat d c → IsCategory d c → Attr d c keysAttr v → Validate.listify v = .ok l →
    l.Nodup ∧ ∀ k, PyVal.str k ∈ l → InCategory d c k

/-- Every looped category names its category and its keys, and the keys of a looped category in another one are linked to all the keys of that one. -/
structure Linkable (d : CifDic) : Prop where
  parents : ∀ c, LoopCat d c → IsCategory d c → ∃ s, Attr d c catAttr (.str s)
  keys : ∀ c, LoopCat d c → IsCategory d c → ∃ (v : PyVal) (l : List Str), Attr d c keysAttr v ∧ Validate.listify v = .ok (l.map PyVal.str)
  links : ∀ p c k, LoopChild d p c → IsCategory d p → IsCategory d c → KeyName d c k → ∃ l, Attr d k linkAttr (.str l) ∧ KeyName d p l
  all : ∀ p c l, LoopChild d p c → IsCategory d p → IsCategory d c → KeyName d p l → ∃ k, KeyName d c k ∧ Attr d k linkAttr (.str l)

/-- Every identifier has its block. -/
def Present (d : CifDic) : Prop := ∀ i k, dget d.table i = some k → ∃ b, d.coll.getItem k = .ok b

end Verif.CifDic
