import Verif.Model.Validate
import Verif.Spec.Number
/-! # Specification of the checks

What the checks should say, in terms of the values of an item and of the information in its definition. -/
namespace Verif.Spec
open Validate

/-- The values of an item: one text, or the elements of a list. -/
def valuesOf : PyVal → Option (List PyVal)
  | .str s => some [.str s]
  | .list l => some l
  | .slist l => some l
  | _ => none

/-- The values that every check of values lets pass. -/
def Unstated (v : PyVal) : Prop := v = .str ['.'] ∨ v = .str ['?']

open Classical in
/-- The result due when values are permitted according to `P`: success, or failure with the list of the values that are
not permitted, in their order. -/
noncomputable def judge (P : PyVal → Prop) (vals : List PyVal) : Outcome :=
  if ∀ v ∈ vals, P v then .good else .bad { values := some (vals.filter fun v => decide ¬ P v) }

/-! ## Ranges -/

/-- An end of an interval as written in a dictionary: a dot for no limit, or a numeral (as text or as a number). -/
inductive Bound where
  | open_
  | text (n : Numeral)
  | number (n : Numeral)

namespace Bound

/-- What stands in the dictionary. -/
def written : Bound → PyVal
  | open_ => .str ['.']
  | text n => .str n.text
  | number n => .num n.text

/-- The limit; `none`: unlimited. -/
def limit : Bound → Option Rat
  | open_ => none
  | text n => some n.value
  | number n => some n.value

/-- The numeral is one that Python's `float` understands: no bracket, and exponent letter `e` or `E`. -/
def FloatText (n : Numeral) : Prop :=
  n.WF ∧ n.su = none ∧ ∀ l s ds, n.exp = some (l, s, ds) → l = 'e' ∨ l = 'E'

/-- The numeral of the bound, if any, is understood by `float`. -/
def OK : Bound → Prop
  | open_ => True
  | text n => FloatText n
  | number n => FloatText n

end Bound

/-- `x` lies strictly between the limits, or is itself given as both of them. -/
def InInterval (x : Rat) (lo hi : Bound) : Prop :=
  ((∀ l, lo.limit = some l → l < x) ∧ (∀ h, hi.limit = some h → x < h)) ∨ (lo.limit = some x ∧ hi.limit = some x)

/-- The value is unstated, or a numeral whose value lies in one of the intervals (given as minimum and maximum). -/
def InRange (bs : List (Bound × Bound)) (v : PyVal) : Prop :=
  Unstated v ∨ ∃ n : Numeral, n.WF ∧ v = .str n.text ∧ ∃ b ∈ bs, InInterval n.value b.1 b.2

/-- The value is unstated or a numeral. -/
def Numeric (v : PyVal) : Prop := Unstated v ∨ ∃ n : Numeral, n.WF ∧ v = .str n.text

/-- The value is a text that does not start with a numeral. -/
def NoNumber (v : PyVal) : Prop := ∃ s : Str, v = .str s ∧ ∀ (n : Numeral) (r : Str), n.WF → s ≠ n.text ++ r

/-- A side of a DDL1 range. -/
def sideText : Option Numeral → Str
  | none => []
  | some n => n.text

/-- `min:max` permits the value: both ends are included. -/
def InClosed (lo hi : Option Numeral) (v : PyVal) : Prop :=
  Unstated v ∨ ∃ n : Numeral, n.WF ∧ v = .str n.text ∧ (∀ l, lo = some l → l.value ≤ n.value) ∧ (∀ h, hi = some h → n.value ≤ h.value)

/-! ## Types -/

/-- The whole of `s` can be matched by `r`. -/
def WholeMatch (r : Rx) (s : Str) : Prop := s.length ∈ r.lens s

instance (r : Rx) (s : Str) : Decidable (WholeMatch r s) := inferInstanceAs (Decidable (_ ∈ _))

/-! ## Relations between items -/

/-- A name occurs in a block, whatever the case. -/
def Present [CaseFold] (wb : Block) (n : Str) : Prop := ∃ k ∈ wb.keys, k = lower n

end Verif.Spec

namespace Verif.Spec
open Validate
variable [CaseFold]

/-- The definition `b` relates its item to others: pairs of a name and the function it has. Nothing, one pair, or lists. -/
def Related (D : Dic) (b : Block) (pairs : List (PyVal × PyVal)) : Prop :=
  (b.getItem D.names.relatedFunc = .error .key ∧ pairs = []) ∨
  (∃ n f, b.getItem D.names.relatedItem = .ok (.str n) ∧ b.getItem D.names.relatedFunc = .ok (.str f) ∧ pairs = [(.str n, .str f)]) ∨
  (b.getItem D.names.relatedItem = .ok (.list (pairs.map (·.1))) ∧ b.getItem D.names.relatedFunc = .ok (.list (pairs.map (·.2))))

/-- The other names of the item defined by `b`. -/
def Aliases (b : Block) (names : List PyVal) : Prop :=
  (b.getItem "_item_aliases.alias_name".toList = .error .key ∧ names = []) ∨
  (∃ v, b.getItem "_item_aliases.alias_name".toList = .ok v ∧ valuesOf v = some names)

/-- The functions of a related item that make it a permitted replacement, or one that excludes it. -/
def replacing : List PyVal := [.str "alternate".toList, .str "replace".toList]
def excluding : List PyVal := [.str "alternate_exclusive".toList, .str "replace".toList]

/-- `alts` are the names that can stand for the item called `name`: related names with one of the functions `funcs`, and
other names. -/
def Alternates (D : Dic) (name : Str) (funcs alts : List PyVal) : Prop :=
  ∃ b pairs als, D.find name = some b ∧ Related D b pairs ∧ Aliases b als ∧
    alts = (pairs.filter fun p => decide (p.2 ∈ funcs)).map (·.1) ++ als

/-- An entry of the list of keys of a category: one name, or a list of names. -/
inductive KeyEntry where
  | one (k : Str)
  | group (ks : List Str)

/-- What stands in the dictionary. -/
def KeyEntry.written : KeyEntry → PyVal
  | .one k => .str k
  | .group ks => .list (ks.map .str)

/-- The names of an entry. -/
def KeyEntry.names : KeyEntry → List Str
  | .one k => [k]
  | .group ks => ks

/-- The text that the uniqueness check makes of a row of key values. -/
def joined : List Str → Str
  | [] => []
  | a :: r => a ++ r.flatMap fun b => ' ' :: b

/-- What is known of the item `n`: among the items about to be added, or else in the block. -/
def Given (wb : Block) (prov : Dict Str PyVal) (n : Str) (v : PyVal) : Prop :=
  dget prov n = some v ∧ ((∃ w, wb.getItem n = .ok w) ∨ wb.getItem n = .error .key)
    ∨ dget prov n = none ∧ wb.getItem n = .ok v

/-- The item `n` is neither about to be added nor in the block. -/
def Absent (wb : Block) (prov : Dict Str PyVal) (n : Str) : Prop := dget prov n = none ∧ wb.getItem n = .error .key

/-- The values of the item `n`, when it is given. -/
def Values (wb : Block) (prov : Dict Str PyVal) (n : Str) (vs : List PyVal) : Prop := ∃ v, Given wb prov n v ∧ valuesOf v = some vs

/-- A value of a child item is in order: it occurs among those of the parent, or is unstated. -/
def Linked (parents : List PyVal) (v : PyVal) : Prop := v ∈ parents ∨ Unstated v

open Classical in
/-- The result due for a comparison of a child with its parent: success, or failure with the values that are not those of
the parent; `d` says where the failure was found. -/
noncomputable def linkResult (parents children : List PyVal) (d : Detail) : Outcome :=
  if ∀ v ∈ children, Linked parents v then .good
  else .bad { d with values := some (children.filter fun v => decide ¬ Linked parents v) }

/-- A name is listed, in whatever case. -/
def Listed (names : List Str) (n : Str) : Prop := ∃ k ∈ names, lower k = lower n

/-- A name, or one that can stand for it, is among `names`. -/
def Covered (D : Dic) (names : List Str) (n : Str) : Prop :=
  n ∈ names ∨ ∃ alts m, Alternates D n replacing alts ∧ .str m ∈ alts ∧ m ∈ names

/-- The category of an item according to the dictionary. -/
def CategoryIs (D : Dic) (n c : Str) : Prop := ∃ b, D.find n = some b ∧ b.getItem D.names.cat = .ok (.str c)

/-- The item belongs, through the parents of its category, to the category `f`. -/
def FinalIs (D : Dic) (n f : Str) : Prop := ∃ c, CategoryIs D n c ∧ dget D.parentLookup (lower c) = some f

/-- The scope of a block: that of a dictionary when it has a title, otherwise the one stated, otherwise that of an item. -/
def ScopeIs (wb : Block) (s : Str) : Prop :=
  (wb.contains "_dictionary.title".toList = true ∧ s = "Dictionary".toList ∧
    ((∃ v, wb.getItem "_definition.scope".toList = .ok v) ∨ wb.getItem "_definition.scope".toList = .error .key)) ∨
  (wb.contains "_dictionary.title".toList = false ∧ wb.getItem "_definition.scope".toList = .ok (.str s)) ∨
  (wb.contains "_dictionary.title".toList = false ∧ wb.getItem "_definition.scope".toList = .error .key ∧ s = "Item".toList)

/-- The definition called `k` is that of the mandatory category `c`. -/
def MandatoryIs (D : Dic) (k : Str) (c : PyVal) : Prop :=
  ∃ b, D.find k = some b ∧ b.getItem "_category.mandatory_code".toList = .ok (.str "yes".toList) ∧ b.getItem "_category.id".toList = .ok c

/-- The names an item refers to, in lower case. -/
def References (D : Dic) (n : Str) (refs : List Str) : Prop :=
  ∃ b, D.find n = some b ∧
    ((b.getItem D.names.listRef = .error .key ∧ refs = []) ∨
      ∃ (v : PyVal) (ns : List Str), b.getItem D.names.listRef = .ok v ∧ valuesOf v = some (ns.map .str) ∧ refs = ns.map lower)

/-- A loop with the key items `keys`: a row gives a text for each of them. `item` is the one being checked. -/
structure KeyLoop (D : Dic) (item : Str) (wb : Block) (prov : Dict Str PyVal) (keys : List Str) (rows : List (Str → Str)) : Prop where
  /-- The key items of the category of `item`. -/
  defined : ∃ b c cb kv, D.find item = some b ∧ b.getItem D.names.cat = .ok (.str c) ∧ D.find c = some cb ∧
    cb.getItem "_category_key.name".toList = .ok kv ∧ valuesOf kv = some (keys.map .str)
  mem : item ∈ keys
  nodup : keys.Nodup
  /-- The columns of the other key items. -/
  columns : ∀ k ∈ keys, k ≠ item → Given wb prov k (.list (rows.map fun r => .str (r k)))

/-- The dictionary marks the item as implicit. -/
def Implicit (D : Dic) (k : Str) : Prop := ∃ b, D.find k = some b ∧ b.getItem D.names.mustExist = .ok (.str "implicit".toList)

end Verif.Spec
