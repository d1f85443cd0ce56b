import Verif.Model.CifDic
import Verif.Spec.Collection
/-! Specification vocabulary for dictionaries. -/
namespace Verif.CifDic
variable [CaseFold]

/-- Attribute `a` is present in block `b` with value `v`. -/
def Has (b : Block) (a : Str) (v : PyVal) : Prop := b.contains a = true ∧ b.getItem a = .ok v

/-- The identifier of the definition in block `k`: its category identifier, otherwise its item name, otherwise the name
of the block. -/
def Identifier (L : Lang) (b : Block) (k : Str) (v : PyVal) : Prop :=
  Has b (catIdSpec L) v ∨
  (b.contains (catIdSpec L) = false ∧ (Has b (defIdSpec L) v ∨ (b.contains (defIdSpec L) = false ∧ v = .str k)))

/-- Block `k` of the collection is a definition with identifier `s`. -/
def Names (c : Coll) (L : Lang) (k s : Str) : Prop :=
  k ∈ c.keys ∧ ∃ b, c.getItem k = .ok b ∧ Identifier L b k (.str s)

/-- The blocks that are no definitions: in DDL1 the block about the dictionary, otherwise the outermost blocks. -/
def Outer (c : Coll) (L : Lang) (k : Str) : Prop :=
  match L with
  | .ddl1 => k = "on_this_dictionary".toList
  | _ => k ∈ c.keys ∧ Coll.parentOf c k = none

/-- Every block shown can be read, and identifiers are texts (not lists of texts). -/
def Texts (c : Coll) (L : Lang) : Prop :=
  ∀ k ∈ c.keys, ∃ b, c.getItem k = .ok b ∧
    ∀ a, a = catIdSpec L ∨ a = defIdSpec L → b.contains a = true → ∃ s, b.getItem a = .ok (.str s)

/-! ## The tree of categories -/

/-- Definition `a` says that it belongs to category `c`. -/
def InCategory (d : CifDic) (c a : Str) : Prop :=
  ∃ b s, d.getItem a = .ok b ∧ Has b catAttr (.str s) ∧ lower s = lower c

/-- Definition `a` is a category. -/
def IsCategory (d : CifDic) (a : Str) : Prop :=
  ∃ b, d.getItem a = .ok b ∧ Has b scopeAttr (.str "Category".toList)

/-- Definition `x` reaches category `c` through one or more links from a definition to its category. -/
inductive Below (d : CifDic) (c : Str) : Str → Prop
  | child {x : Str} : x ∈ d.keys → InCategory d c x → Below d c x
  | deeper {y x : Str} : Below d c y → IsCategory d y → x ∈ d.keys → InCategory d y x → Below d c x

/-- No definition is below itself. -/
def Acyclic (d : CifDic) : Prop := ∀ x, ¬ Below d x x

/-- The three attributes that shape the tree can be read, and a category is named by a text. -/
def Plain (b : Block) : Prop :=
  (b.contains catAttr = true → ∃ s, b.getItem catAttr = .ok (.str s)) ∧
  (b.contains scopeAttr = true → ∃ v, b.getItem scopeAttr = .ok v) ∧
  (b.contains classAttr = true → ∃ v, b.getItem classAttr = .ok v)

/-- A dictionary whose definitions can be read: identifiers are in lower case, occur once and are not empty, as after
building the table. -/
structure Readable (d : CifDic) : Prop where
  nodup : d.keys.Nodup
  low : ∀ a ∈ d.keys, lower a = a
  named : ∀ a ∈ d.keys, a ≠ []
  found : ∀ a ∈ d.keys, ∃ b, d.getItem a = .ok b ∧ Plain b

/-- Definition `a` is of class `Head`. -/
def IsHead (d : CifDic) (a : Str) : Prop :=
  a ∈ d.keys ∧ ∃ b, d.getItem a = .ok b ∧ Has b classAttr (.str "Head".toList)

/-- Definition `a` has no defined category: it names none, or one that is neither `r` nor a category defined here. -/
def Rootless (d : CifDic) (r a : Str) : Prop :=
  a ∈ d.keys ∧ a ≠ r ∧ ¬ ∃ p ∈ d.keys, (p = r ∨ IsCategory d p) ∧ InCategory d p a

/-! ## Order of output -/

/-- A dictionary as it is after reading: block `top` encloses all definitions, and the table gives each other block one
identifier. -/
structure Filed (d : CifDic) (top : Str) : Prop where
  cons : d.coll.Consistent
  top_only : d.coll.topLevel = [top]
  blocks : ∀ i k, dget d.table i = some k → k ∈ dkeys d.coll.childTable ∧ k ≠ top
  ident : ∀ k ∈ dkeys d.coll.childTable, k ≠ top → ∃ i, dget d.table i = some k
  inj : ∀ i i' k, dget d.table i = some k → dget d.table i' = some k → i = i'

/-- What the order of output needs: no block is called like the identifier of another definition, categories are kept in blocks
named by their identifiers, the enclosing block names no category, and every definition is an item or a category. -/
structure Tidy (d : CifDic) (top root : Str) : Prop where
  clash : ∀ k ∈ dkeys d.coll.childTable, ∀ k', dget d.table k = some k' → k' = k
  cats : ∀ i k, dget d.table i = some k → IsCategory d i ∨ i = root → k = i
  top_plain : ∃ b, d.coll.getItem top = .ok b ∧ Plain b ∧ b.contains catAttr = false
  scopes : ∀ i ∈ d.keys, i ≠ root → IsCategory d i ∨
    ∃ b, d.getItem i = .ok b ∧ (b.contains scopeAttr = false ∨ Has b scopeAttr (.str "Item".toList))

/-- A definition that does not reach the `Head`. -/
def Dangling (d : CifDic) (root x : Str) : Prop := x ∈ d.keys ∧ x ≠ root ∧ ¬ Below d root x

/-- A name of the form `category.object`. -/
def Dotted (x : Str) : Prop := ∃ c o, x = c ++ '.' :: o ∧ c ≠ [] ∧ '.' ∉ c ∧ '.' ∉ o

/-- What the order of output needs of definitions that do not reach the `Head`. -/
structure Loose (d : CifDic) (root : Str) : Prop where
  head : ∀ p, Dangling d root p → ¬ InCategory d p root
  named : ∀ i, Dangling d root i → dget d.table i = some i
  nested : ∀ x y, Dangling d root x → Dangling d root y → IsCategory d x → IsCategory d y → ¬ InCategory d x y
  linked : (∃ x, Dangling d root x ∧ IsCategory d x) → ∀ y, Dangling d root y → ∃ c, InCategory d c y
  dotted : ∀ y, Dangling d root y → ¬ IsCategory d y → (¬ ∃ x, Dangling d root x ∧ IsCategory d x ∧ InCategory d x y) → Dotted y

/-- `x` comes before `y` in `l`. -/
def Precedes (l : List Str) (x y : Str) : Prop := ∃ p q, l = p ++ x :: q ∧ y ∈ q

end Verif.CifDic
