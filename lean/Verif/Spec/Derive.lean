import Verif.Model.Derive
/-! Specification vocabulary for derivations. -/
namespace Verif.Derive
open Validate
variable [CaseFold]

/-- A program asks only for names in `S`. -/
def Prog.Within (S : List Str) : Prog → Prop
  | .ret _ => True
  | .fail _ => True
  | .ask n k => n ∈ S ∧ ∀ r, (k r).Within S
  | .derive n k => n ∈ S ∧ ∀ r, (k r).Within S
  | .look k => ∀ b, (k b).Within S
  | .edit _ k => ∀ r, (k r).Within S
  | .sub _ p k => p.Within S ∧ ∀ r, (k r).Within S

/-- The names that occur in the dictionary, and those its methods ask for, are in `S`. -/
structure Closed (E : Engine) (S : List Str) : Prop where
  keys : ∀ a ∈ E.dic.keys, a ∈ S
  aliases : ∀ a v, (a, v) ∈ E.aliases → a ∈ S ∧ ∀ l s, Block.pyIter v = .ok l → PyVal.str s ∈ l → s ∈ S
  named : ∀ k b a s, E.dic.getItem k = .ok b → a ∈ [CifDic.catAttr, defIndexAttr, keyIdAttr] → b.getItem a = .ok (.str s) → s ∈ S
  parts : ∀ k b v l s, E.dic.getItem k = .ok b → b.getItem componentsAttr = .ok v → Block.pyIter v = .ok l → PyVal.str s ∈ l → s ∈ S
  objects : ∀ p l s, (p, l) ∈ E.catObj → PyVal.str s ∈ l → s ∈ S
  methods : ∀ f, (E.exec f).Within S

/-- Calls that are refused outright for the names in `c`. -/
def refusing (c : List Str) (call : Call) : Call := fun key store allow s =>
  if key ∈ c then some (s, .error .recursion) else call key store allow s

/-- The pairs of rows, one of each category, with equal linking values, each once. -/
def Joined (m1 m2 : List PyVal) (rows : List (Nat × Nat)) : Prop :=
  rows.Nodup ∧ ∀ i j, (i, j) ∈ rows ↔ i < m1.length ∧ j < m2.length ∧ m1[i]? = m2[j]?

/-- The entries of a column in the given rows. -/
def entries (col : List PyVal) (rows : List Nat) (vals : List PyVal) : Prop := rows.map (fun i => col[i]?) = vals.map some

/-- Reading item `n` gives the column `l` and changes nothing. -/
def Column (ask : Str → St → Res) (s : St) (n : Str) (l : List PyVal) : Prop := ask n s = some (s, .ok (.list l))

/-- The objects defined in both categories, but for those in `skip`. -/
def SharedObj (E : Engine) (c1 c2 : Str) (skip : List Str) (o : Str) : Prop :=
  ∃ s t, objectsIn E (.str c1) = .ok s ∧ objectsIn E (.str c2) = .ok t ∧ PyVal.str o ∈ s ∧ PyVal.str o ∈ t ∧ o ∉ skip

/-- What is copied from a category of `size` rows with key column `key` to another one: object `o` of the first has the column
`col o`; it is copied to `dst o`, a name of its own. -/
structure Copied (E : Engine) (ask : Str → St → Res) (s : St) (c1 c2 : Str) (key : Str) (size : Nat) (skip : List Str)
    (dst : Str → Str) (col : Str → List PyVal) : Prop where
  keyed : attrOf E (.str c1) keyIdAttr = .ok (.str key)
  objs1 : ∃ l : List Str, objectsIn E (.str c1) = .ok (l.map .str)
  objs2 : ∃ l : List Str, objectsIn E (.str c2) = .ok (l.map .str)
  from_ : ∀ o, SharedObj E c1 c2 skip o → ∃ a r, dget E.catObj (lower c1, lower o) = some (.str a :: r) ∧ Column ask s a (col o)
  to_ : ∀ o, SharedObj E c1 c2 skip o → ∃ r, dget E.catObj (lower c2, lower o) = some (.str (dst o) :: r)
  len : ∀ o, SharedObj E c1 c2 skip o → (col o).length = size
  inj : ∀ o o', SharedObj E c1 c2 skip o → SharedObj E c1 c2 skip o' → dst o = dst o' → o = o'

/-- Category `cat`, with definition `b`, is constructed by pullback along items `f1` and `f2` of categories `c1` and `c2` with
key items `k1` and `k2`; its key items are `n1` and `n2`, objects `o1` and `o2`. -/
structure IsPullback (E : Engine) (cat f1 f2 c1 c2 k1 k2 o1 o2 n1 n2 : Str) (b : Block) : Prop where
  found : E.dic.getItem cat = .ok b
  type_ : b.getItem constructAttr = .ok pullbackType
  parts : b.getItem componentsAttr = .ok (.list [.str f1, .str f2])
  ids : b.getItem newIdsAttr = .ok (.list [.str o1, .str o2])
  cat1 : attrOf E (.str f1) CifDic.catAttr = .ok (.str c1)
  cat2 : attrOf E (.str f2) CifDic.catAttr = .ok (.str c2)
  key1 : attrOf E (.str c1) keyIdAttr = .ok (.str k1)
  key2 : attrOf E (.str c2) keyIdAttr = .ok (.str k2)
  name1 : ∃ r, dget E.catObj (cat, o1) = some (.str n1 :: r)
  name2 : ∃ r, dget E.catObj (cat, o2) = some (.str n2 :: r)

/-- Category `cat`, with definition `b`, is constructed from the rows of category `c` where item `f` has one of the values
`vals`; the key item of `c` is `k`, that of the new category `n`, object `o`. -/
structure IsFilter (E : Engine) (cat f c k o n : Str) (vals : List PyVal) (b : Block) : Prop where
  found : E.dic.getItem cat = .ok b
  type_ : b.getItem constructAttr = .ok filterType
  parts : b.getItem componentsAttr = .ok (.list [.str f])
  ids : b.getItem newIdsAttr = .ok (.list [.str o])
  cat1 : attrOf E (.str f) CifDic.catAttr = .ok (.str c)
  key1 : attrOf E (.str c) keyIdAttr = .ok (.str k)
  name1 : ∃ r, dget E.catObj (cat, o) = some (.str n :: r)
  values : (b.contains intFilterAttr = false ∧ b.getItem textFilterAttr = .ok (.list vals)) ∨
    (∃ w, b.getItem intFilterAttr = .ok (.list w) ∧ mapE E.toInt w = .ok vals ∧ b.contains textFilterAttr = false)

/-! ## Aliases -/

/-- The definition `k` of the dictionary lists `a` among its aliases. -/
def Lists (d : CifDic) (k a : Str) : Prop :=
  k ∈ d.keys ∧ ∃ b l, d.getItem k = .ok b ∧ b.getItem aliasAttr = .ok (.list l) ∧ PyVal.str a ∈ l

/-- Every definition is found, and its aliases, if any, are in a loop. -/
structure AliasLoops (d : CifDic) : Prop where
  once : d.keys.Nodup
  found : ∀ k ∈ d.keys, ∃ b, d.getItem k = .ok b ∧ (b.contains aliasAttr = true → ∃ l, b.getItem aliasAttr = .ok (.list l))

/-- The table of aliases holds lists of names. -/
structure AliasLists (E : Engine) : Prop where
  once : (dkeys E.aliases).Nodup
  lists : ∀ k v, (k, v) ∈ E.aliases → ∃ l : List Str, v = .list (l.map .str)

/-- In the table, `a` is an alias of `k`. -/
def IsAlias (E : Engine) (k a : Str) : Prop := ∃ l : List Str, (k, PyVal.list (l.map .str)) ∈ E.aliases ∧ a ∈ l

/-- `a` is the first of the aliases of `k` in the table that is in the block. -/
def FirstAlias (E : Engine) (b : Block) (k a : Str) : Prop :=
  ∃ pre post : List Str, (k, PyVal.list ((pre ++ a :: post).map .str)) ∈ E.aliases ∧ b.contains a = true ∧
    ∀ x ∈ pre, b.contains x = false

/-- None of the aliases of `k` is in the block. -/
def NoAlias (E : Engine) (b : Block) (k : Str) : Prop := ∀ a, IsAlias E k a → b.contains a = false

/-- Defaults are allowed: the outermost call does not forbid them, or has allowed them for the calls made during it. -/
def Allowed (allow : Option Bool) (s : St) : Prop :=
  (s.called = [] ∧ allow ≠ some false) ∨ (s.called ≠ [] ∧ s.useDefaults = true)

instance (allow : Option Bool) (s : St) : Decidable (Allowed allow s) := by unfold Allowed; infer_instance

/-! ## Methods -/

/-- Running the methods `fs` in turn, each with values converted, in a state gives the value `o` of the first that has one; those
before it return nothing, or cannot find what they need. -/
inductive Tried (ask der : Str → St → Res) (exec : PyVal → Prog) : List PyVal → St → St → Option PyVal → Prop
  | none (s : St) : Tried ask der exec [] s s none
  | found {f : PyVal} {fs : List PyVal} {s s1 : St} {v : PyVal} :
      run ask der (exec f) { s with provide := true } = some (s1, .ok v) → v ≠ .none →
      Tried ask der exec (f :: fs) s { s1 with provide := s.provide } (some v)
  | next {f : PyVal} {fs : List PyVal} {s s1 s2 : St} {r : Except PyErr PyVal} {o : Option PyVal} :
      run ask der (exec f) { s with provide := true } = some (s1, r) →
      r = .ok .none ∨ r = .error .recursion ∨ r = .error .derivation →
      Tried ask der exec fs { s1 with provide := s.provide } s2 o → Tried ask der exec (f :: fs) s s2 o

/-- Item `key` of category `cat` (defined in `cb`) is not in the block under any name; its category is not filled by itself; its
methods are `fs` and its default is `dflt`, or depends on item `idx`; both are empty texts if there is none. `has` lists the items of the category in the block. -/
structure Underived (E : Engine) (b : Block) (key cat : Str) (cb : Block) (has : List Str) (fs : List PyVal) (dflt idx : PyVal) : Prop where
  alias_ : NoAlias E b key
  noAlias : ∀ k, ¬ IsAlias E k key
  cat_ : E.dic.attrI key CifDic.catAttr = .ok (.str cat)
  def_ : E.dic.getItem cat = .ok cb
  items : ∃ names, catNames E (.str cat) = .ok names ∧ select (hasKeyOrAlias E b) names = .ok has
  empty : has = [] → cb.contains constructAttr = false ∧ cb.contains methodAttr = false ∧ pulledTo E (.str cat) = .ok []
  methods : (fs = [] ∧ E.dic.attrD key methodAttr (.str []) = .ok (.str [])) ∨ (fs ≠ [] ∧ E.dic.attrD key methodAttr (.str []) = .ok (.list fs))
  default_ : E.dic.attrD key defaultAttr (.str []) = .ok dflt
  index_ : E.dic.attrD key defIndexAttr (.str []) = .ok idx
  item : E.dic.attrD key CifDic.scopeAttr itemScope = .ok itemScope

/-- `a` is the first of the index values that equals `s` ignoring case, and `w` is the value beside it. -/
def FirstIndex (index vals : List PyVal) (s : Str) (w : PyVal) : Prop :=
  ∃ (pre post : List Str) (a : Str), index = (pre ++ a :: post).map .str ∧ lower a = lower s ∧ (∀ x ∈ pre, lower x ≠ lower s) ∧
    vals[pre.length]? = some w

/-! ## Reading -/

/-- A value with no `?` and no `.` in it. -/
def Known : PyVal → Prop
  | .list l => query ∉ l ∧ dot ∉ l
  | .slist l => query ∉ l ∧ dot ∉ l
  | v => v ≠ query ∧ v ≠ dot

instance (v : PyVal) : Decidable (Known v) := by cases v <;> unfold Known <;> infer_instance

/-- The value `?`, or a list of nothing but `?`. -/
def Unknown : PyVal → Prop
  | .list l => l ≠ [] ∧ ∀ a ∈ l, a = query
  | .slist l => l ≠ [] ∧ ∀ a ∈ l, a = query
  | v => v = query

instance (v : PyVal) : Decidable (Unknown v) := by cases v <;> unfold Unknown <;> infer_instance

end Verif.Derive
