import Verif.Model.Ddl1
import Verif.Spec.CifDic
import Verif.Spec.Block
import Verif.Spec.Collection
import Verif.Spec.Validate
/-! Specification vocabulary for DDL1 dictionaries. -/
namespace Verif.Ddl1
open CifDic Validate Spec
variable [CaseFold]

/-- Printable ASCII without blanks. -/
def Solid (s : Str) : Prop := ∀ ch ∈ s, 33 ≤ ch.toNat ∧ ch.toNat ≤ 126

/-- Printable ASCII. -/
def Printable (s : Str) : Prop := ∀ ch ∈ s, 32 ≤ ch.toNat ∧ ch.toNat ≤ 126

/-- The names a block gives definitions for: one, or a column of them. -/
inductive NamesOf (b : Block) : List Str → Prop
  | one {n : Str} : Has b nameAttr (.str n) → NamesOf b [n]
  | many {ns : List Str} : Has b nameAttr (.list (ns.map .str)) → NamesOf b ns

/-- The file has block `b`, other than the one about the dictionary itself, under key `k`. -/
def DefBlock (c : Coll) (k : Str) (b : Block) : Prop := dget c.dict k = some b ∧ k ≠ dicBlock

/-- Block `b`, with key `k`, of the file defines `n`. -/
def Defines (c : Coll) (k : Str) (b : Block) (n : Str) : Prop := DefBlock c k b ∧ ∃ ns, NamesOf b ns ∧ n ∈ ns

/-- The definition is one of a category. -/
def Overview (b : Block) : Prop := Has b categoryAttr (.str overview)

/-- What a definition is found as: a category as what stands between the first underscore and the last one of its name
(`_atom_site_[]` is `atom_site`), an item as its name. -/
def FoundAs (b : Block) (n i : Str) : Prop :=
  (Overview b ∧ ∃ t, n = '_' :: (i ++ '_' :: t) ∧ '_' ∉ t) ∨ (¬ Overview b ∧ i = n)

/-- Some definition belongs to the category. -/
def Uses (c : Coll) (cat : Str) : Prop := ∃ k b n, Defines c k b n ∧ Has b categoryAttr (.str cat)

/-- The file has a definition of the category. -/
def Declares (c : Coll) (cat : Str) : Prop := ∃ k b n, Defines c k b n ∧ Overview b ∧ FoundAs b n cat

/-- The category has to be made up: definitions belong to it, but it has none itself. -/
def Missing (c : Coll) (cat : Str) : Prop := Uses c cat ∧ ¬ Declares c cat

/-- The name of the block made up for a category. -/
def madeName (cat : Str) : Str := '_' :: (cat ++ "_[]".toList)

/-- A range of values is written `min:max`, where either number may be missing. -/
def RangeText (s : Str) (lo hi : Option Numeral) : Prop :=
  s = sideText lo ++ ':' :: sideText hi ∧ (∀ n, lo = some n → Bound.FloatText n) ∧ (∀ n, hi = some n → Bound.FloatText n)

/-- A block that can become definitions: its names are printable and not too long, the attributes that are used have texts of the
expected form, and those that are to be made are not there yet. -/
structure DefOk (b : Block) : Prop where
  reach : b.Reachable
  limit : ∀ m, b.maxName = some m → 75 ≤ m
  named : ∃ ns, NamesOf b ns ∧ (ns.map lower).Nodup ∧ ∀ n ∈ ns, Solid n ∧ n.length ≤ 75 ∧ ∃ i, FoundAs b n i
  category : b.contains categoryAttr = true → ∃ cat, Has b categoryAttr (.str cat) ∧ Solid cat ∧ cat.length ≤ 71
  range : b.contains rangeAttr = true → ∃ s lo hi, Has b rangeAttr (.str s) ∧ RangeText s lo hi
  construct : b.contains constructAttr = true → ∃ s t, Has b constructAttr (.str s) ∧ Has b typeAttr (.str t) ∧ Printable s ∧ Printable t
  mandatory : b.contains mandatoryAttr = true → b.contains categoryAttr = true ∧ ∃ v, Has b mandatoryAttr v
  unique : b.contains uniqueAttr = true → b.contains categoryAttr = true ∧ ∃ u, Has b uniqueAttr (.str u) ∧ Printable u
  fresh : ∀ a ∈ [maxAttr, minAttr, catIdAttr, catMandatoryAttr, catKeyAttr], b.contains a = false

/-- The files covered: a block for the dictionary, and blocks of definitions, none of them inside another; names, and categories, that
differ, differ in more than case, and names differ from those of the blocks. -/
structure Regular (c : Coll) : Prop where
  cons : c.Consistent
  flat : ∀ k, Coll.parentOf c k = none
  shows : c.scoping = .dictionary
  dic : ∃ m, dget c.dict dicBlock = some m ∧ m.Reachable ∧ (∀ l, m.maxName = some l → 75 ≤ l) ∧
    ∀ a ∈ [nameAttr, categoryAttr, rangeAttr, constructAttr, catIdAttr, codeAttr, codeConstructAttr, primitiveAttr], m.contains a = false
  defs : ∀ k b, DefBlock c k b → DefOk b
  keys : ∀ k b n, Defines c k b n → lower n ∉ c.lowerKeys
  apart : ∀ k b n k' b' n', Defines c k b n → Defines c k' b' n' → lower n = lower n' → k = k' ∧ n = n'
  idents : ∀ k b n i k' b' n' i', Defines c k b n → FoundAs b n i → Defines c k' b' n' → FoundAs b' n' i' → lower i = lower i' →
    k = k' ∧ n = n'
  reserved : ∀ k b n i, Defines c k b n → FoundAs b n i → lower i ≠ dicBlock
  cats : ∀ cat cat', Uses c cat → Uses c cat' ∨ Declares c cat' → lower cat = lower cat' → cat = cat'
  items : ∀ cat k b n, Uses c cat → Defines c k b n → ¬ Overview b → lower cat ≠ lower n
  made : ∀ cat, Missing c cat → lower cat ≠ dicBlock ∧ ∀ k b n, Defines c k b n → lower (madeName cat) ≠ lower n

/-- The attributes that are worked out when the dictionary is opened. -/
def workedOut : List Str :=
  [nameAttr, listAttr, condAttr, maxAttr, minAttr, typeAttr, catIdAttr, catMandatoryAttr, catKeyAttr]

/-- What the definition of `n` in block `b` becomes: it has that one name, says whether it is looped and what conditions there are on
its values, and, if it comes with a pattern, has a type of its own; what is not worked out is as it was. -/
structure Becomes (b : Block) (n : Str) (b' : Block) : Prop where
  name : Has b' nameAttr (.str n)
  list : (b.contains listAttr = true → b'.lookup listAttr = b.lookup listAttr) ∧
    (b.contains listAttr = false → Has b' listAttr (.str "no".toList))
  cond : (b.contains condAttr = true → b'.lookup condAttr = b.lookup condAttr) ∧
    (b.contains condAttr = false → Has b' condAttr (.str "none".toList))
  type : (b.contains constructAttr = true → Has b' typeAttr (.str (n ++ "_type".toList))) ∧
    (b.contains constructAttr = false → b'.lookup typeAttr = b.lookup typeAttr)
  noRange : b.contains rangeAttr = false → b'.contains maxAttr = false ∧ b'.contains minAttr = false
  ident : (∀ i, Overview b → FoundAs b n i → Has b' catIdAttr (.str i)) ∧ (¬ Overview b → b'.contains catIdAttr = false)
  rest : ∀ a, lower a ∉ workedOut → b'.contains a = b.contains a ∧ b'.lookup a = b.lookup a

/-- The types of a DDL1 dictionary: name, pattern and primitive type. -/
inductive TypeRow (c : Coll) : Str → Str → Str → Prop
  | char : TypeRow c "char".toList ".*".toList "char".toList
  | numb : TypeRow c "numb".toList "(-?(([0-9]*[.][0-9]+)|([0-9]+)[.]?)([(][0-9]+[)])?([eEdD][+-]?[0-9]+)?)|\\?|\\.".toList "numb".toList
  | null : TypeRow c "null".toList "\"\" ".toList "null".toList
  | own {k : Str} {b : Block} {n s t : Str} : Defines c k b n → Has b constructAttr (.str s) → Has b typeAttr (.str t) →
      TypeRow c (n ++ "_type".toList) (s ++ ['$']) t

/-- Definition `x` (in lower case) of the category has to be given. -/
def Obliged (c : Coll) (cat x : Str) : Prop :=
  ∃ k b n i, Defines c k b n ∧ FoundAs b n i ∧ x = lower i ∧ Has b categoryAttr (.str cat) ∧ Has b mandatoryAttr (.str "yes".toList)

/-- Item `x` is part of the key of the category: it is, or is named by, a definition that speaks of uniqueness. -/
def Identifying (c : Coll) (cat x : Str) : Prop :=
  ∃ k b n i u, Defines c k b n ∧ FoundAs b n i ∧ Has b categoryAttr (.str cat) ∧ Has b uniqueAttr (.str u) ∧ (x = lower i ∨ x = u)

/-- Attribute `a` lists exactly the texts with property `P`, each once; without any it is not there. -/
def Lists (b : Block) (a : Str) (P : Str → Prop) : Prop :=
  (∃ l : List Str, Has b a (.list (l.map .str)) ∧ l ≠ [] ∧ l.Nodup ∧ ∀ x, x ∈ l ↔ P x) ∨ (b.contains a = false ∧ ∀ x, ¬ P x)

end Verif.Ddl1
