import Verif.Model.Block
import Verif.Model.Number
import Verif.Model.Regex
/-! # Dictionary-driven checks of a data block

The validation functions of `CifDic` (CifFile_module.nw 1885-2690). The dictionary enters through the definitions it
returns (`find`), its own list of definitions and the tables computed when it was loaded. The argument `globals` is
left out: no caller passes it, so it is always the empty dictionary. -/
namespace Verif
namespace Validate
variable [CaseFold]

/-- The further entries of a failing result (`bad_values`, `bad_items`, `parent`, `child`). -/
structure Detail where
  values : Option (List PyVal) := none
  items : Option (List PyVal) := none
  parent : Option PyVal := none
  child : Option PyVal := none
  deriving DecidableEq, Repr

/-- The value of the key `result` returned by a check: `True`, `None` (check not relevant) or `False`. -/
inductive Outcome where
  | good
  | skip
  | bad (d : Detail)
  deriving DecidableEq, Repr

/-- The names under which a dictionary language keeps its information, set by `dic_determine` (CifFile_module.nw 599-659). -/
structure Names where
  type : Str := []
  enum : Str := []
  cat : Str := []
  esd : Str := []
  mustLoop : Str := []
  mustExist : Str := []
  listRef : Str := []
  key : Str := []
  child : Str := []
  parent : Str := []
  relatedFunc : Str := []
  relatedItem : Str := []
  primitive : Str := []
  dep : Str := []
  deriving DecidableEq, Repr

/-- DDL1 (CifFile_module.nw 602-617). -/
def ddl1Names : Names where
  type := "_type".toList
  enum := "_enumeration".toList
  cat := "_category".toList
  esd := "_type_conditions".toList
  mustLoop := "_list".toList
  mustExist := "_list_mandatory".toList
  listRef := "_list_reference".toList
  key := "_list_mandatory".toList
  child := "_list_link_child".toList
  parent := "_list_link_parent".toList
  relatedFunc := "_related_function".toList
  relatedItem := "_related_item".toList
  primitive := "_type".toList
  dep := "xxx".toList

/-- DDL2 (CifFile_module.nw 640-657). -/
def ddl2Names : Names where
  key := "_category_mandatory.name".toList
  type := "_item_type.code".toList
  enum := "_item_enumeration.value".toList
  esd := "_item_type_conditions.code".toList
  cat := "_item.category_id".toList
  mustLoop := "xxx".toList
  mustExist := "_item.mandatory_code".toList
  child := "_item_linked.child_name".toList
  parent := "_item_linked.parent_name".toList
  relatedFunc := "_item_related.function_code".toList
  relatedItem := "_item_related.related_name".toList
  listRef := "xxx".toList
  primitive := "_type".toList
  dep := "_item_dependent.dependent_name".toList

/-- DDLm (CifFile_module.nw 630-636). The names that are not set there are not used by the checks installed for DDLm. -/
def ddlmNames : Names where
  enum := "_enumeration_set.state".toList
  key := "_category.key_id".toList
  cat := "_name.category_id".toList
  primitive := "_type.contents".toList

/-- What the checks use of a `CifDic`: `find n` is `self[n]` (CifFile_module.nw 1157), `none` being a `KeyError`; `keys`
are the lower-case names of the definitions (1195); `typedic` gives for a type code the length of the match found by
`re.match` of the compiled construct (2719-2745); `parentLookup` and `catKeyTable` are the category tables
(1568, 1109); `mandatory` and `naughty` are `scopes_mandatory` and `scopes_naughty` (1348). -/
structure Dic where
  names : Names
  find : Str → Option Block
  keys : List Str
  typedic : Dict Str (Str → Option Nat) := []
  parentLookup : Dict Str Str := []
  catKeyTable : Dict Str (List (List Str)) := []
  mandatory : Dict Str (List Str) := []
  naughty : Dict Str (List Str) := []

/-- `in` for a dictionary (CifFile_module.nw 1205). -/
def Dic.known (D : Dic) (n : Str) : Bool := decide (lower n ∈ D.keys)

/-- `self[n]`. -/
def getDef (D : Dic) (n : Str) : Except PyErr Block :=
  match D.find n with
  | some b => .ok b
  | none => .error .key

/-- `self[n]` for a value that should be a name. -/
def getDefV (D : Dic) : PyVal → Except PyErr Block
  | .str s => getDef D s
  | _ => .error .type

/-- `definition.get(a)` (StarFile.nw 1629), and `definition[a]` with `KeyError` handled: `none` when there is no such
attribute. -/
def attr (b : Block) (a : Str) : Except PyErr (Option PyVal) :=
  match b.getItem a with
  | .ok v => .ok (some v)
  | .error .key => .ok none
  | .error e => .error e

/-- `whole_block.get(a)` for a value that should be a name. -/
def attrV (b : Block) : PyVal → Except PyErr (Option PyVal)
  | .str s => attr b s
  | _ => .ok none

/-- `listify` (CifFile_module.nw 4284) followed by iteration. -/
def listify : PyVal → Except PyErr (List PyVal)
  | .str s => .ok [.str s]
  | v => Block.pyIter v

/-- `v[:]` for a text or a list, the elements being used as a list of names after a single text has been wrapped. -/
def slice : PyVal → Except PyErr (List PyVal)
  | .str s => .ok [.str s]
  | .list l => .ok l
  | .slist l => .ok l
  | _ => .error .type

/-- The text "." -/
def dot : PyVal := .str ['.']

/-- The text "?" -/
def query : PyVal := .str ['?']

/-- The last three lines of most item checks. -/
def verdict (bad : List PyVal) : Outcome :=
  if bad = [] then .good else .bad { values := some bad }

/-- `[a for a in l if f(a)]` for a test that may raise. -/
def select {α : Type} (f : α → Except PyErr Bool) : List α → Except PyErr (List α)
  | [] => .ok []
  | a :: r =>
    match f a with
    | .error e => .error e
    | .ok t =>
      match select f r with
      | .error e => .error e
      | .ok s => .ok (if t then a :: s else s)

/-- `[f(a) for a in l]` for a function that may raise. -/
def mapE {α β : Type} (f : α → Except PyErr β) : List α → Except PyErr (List β)
  | [] => .ok []
  | a :: r =>
    match f a with
    | .error e => .error e
    | .ok y =>
      match mapE f r with
      | .error e => .error e
      | .ok s => .ok (y :: s)

/-! ## Checks of one item -/

/-- `mymatch(m,a) != a` inside `validate_item_type` (CifFile_module.nw 1979-1982, 1992). -/
def typeBad (m : Str → Option Nat) : PyVal → Except PyErr Bool
  | .str s =>
    match m s with
    | some n => .ok (decide (s.take n ≠ s))
    | none => .ok (decide ([] ≠ s))
  | _ => .error .type

/-- The compiled construct of a type code (CifFile_module.nw 1986). -/
def typeMatcher (D : Dic) : PyVal → Except PyErr (Str → Option Nat)
  | .str c =>
    match dget D.typedic c with
    | some m => .ok m
    | none => .error .key
  | .num _ => .error .key
  | .none => .error .key
  | _ => .error .type

/-- `$` with the flag `MULTILINE` (CifFile_module.nw 2741): at the end, or before a line feed. -/
def lineEnd : Rx := .alt (.notAhead (.cls fun _ => true)) (.ahead (.ch '\n'))

/-- The entry of `typedic` made from a construct of the dictionary, to which `$` is appended (CifFile_module.nw 2723, 2741).
The construct is given as it is after `regex_fiddle`. -/
def construct (r : Rx) : Str → Option Nat := Rx.matchLen (.seq r lineEnd)

/-- The entry of `typedic` for the type `numb` of DDL1 (CifFile_module.nw 706): the `$` appended to it belongs to the last
alternative only. -/
def numbConstruct : Str → Option Nat := Rx.matchLen (.alt Number.numRx (.alt (.ch '?') (.seq (.ch '.') lineEnd)))

/-- `validate_item_type` (CifFile_module.nw 1978-1994). -/
def validateItemType (D : Dic) (item : Str) (value : PyVal) : Except PyErr Outcome := do
  let b ← getDef D item
  match ← attr b D.names.type with
  | none => .ok .good
  | some t =>
    let m ← typeMatcher D t
    let vs ← listify value
    let bad ← select (typeBad m) (vs.filter fun a => decide (a ≠ dot ∧ a ≠ query))
    .ok (verdict bad)

/-- `get_number_with_esd(a)[1] != None`. -/
def hasEsd (a : PyVal) : Except PyErr Bool :=
  match Number.getNumber a with
  | .error e => .error e
  | .ok r => .ok r.2.isSome

/-- `validate_item_esd` (CifFile_module.nw 2038-2046). -/
def validateItemEsd (D : Dic) (item : Str) (value : PyVal) : Except PyErr Outcome := do
  let b ← getDef D item
  let p ← attr b D.names.primitive
  if p ≠ some (.str "numb".toList) then .ok .skip
  else
    let e ← attr b D.names.esd
    if e = some (.str "esd".toList) then .ok .good
    else
      let vs ← listify value
      let bad ← select hasEsd vs
      .ok (verdict bad)

/-- The types listed in `validate_item_esd_ddlm` (CifFile_module.nw 2050). -/
def esdTypes : List PyVal :=
  ["Count", "Index", "Integer", "Real", "Imag", "Complex", "Binary", "Hexadecimal", "Octal"].map fun s => .str s.toList

/-- `validate_item_esd_ddlm` (CifFile_module.nw 2048-2060): the attribute asked for is literally `self.primitive_type`.
The failing result holds the uncertainties rather than the values; the model gives the values. -/
def validateItemEsdDdlm (D : Dic) (item : Str) (value : PyVal) : Except PyErr Outcome := do
  let b ← getDef D item
  let p ← attr b "self.primitive_type".toList
  match p with
  | none => .ok .skip
  | some t =>
    if t ∈ esdTypes then
      let u ← attr b "_type.purpose".toList
      let can := decide (u = some (.str "Measurand".toList))
      let vs ← listify value
      let bad ← select (fun a => do let h ← hasEsd a; .ok (h != can)) vs
      .ok (verdict bad)
    else .ok .skip

/-- `makefloat` inside `validate_enum_range` (CifFile_module.nw 2075-2077); `none` is the text ".". -/
def makeFloat : PyVal → Except PyErr (Option Rat)
  | .str s =>
    if s = ['.'] then .ok none
    else match Number.pyFloat s with
      | some x => .ok (some x)
      | none => .error .value
  | .num s =>
    match Number.pyFloat s with
    | some x => .ok (some x)
    | none => .error .value
  | _ => .error .type

/-- `list(zip(minvals,maxvals))` (CifFile_module.nw 2078-2080), the two `map`s being evaluated as `zip` asks for their
elements. -/
def ranges : List PyVal → List PyVal → Except PyErr (List (Option Rat × Option Rat))
  | [], _ => .ok []
  | a :: r, bs =>
    match makeFloat a with
    | .error e => .error e
    | .ok x =>
      match bs with
      | [] => .ok []
      | b :: t =>
        match makeFloat b with
        | .error e => .error e
        | .ok y =>
          match ranges r t with
          | .error e => .error e
          | .ok l => .ok ((x, y) :: l)

/-- The loop over the ranges in `map_check` (CifFile_module.nw 2086-2091). -/
def inRanges (iv : Rat) : List (Option Rat × Option Rat) → Bool
  | [] => false
  | (l, u) :: r =>
    let lower := l.elim (iv - 1) id
    let upper := u.elim (iv + 1) id
    if iv > lower ∧ iv < upper then true
    else if upper = lower ∧ iv = upper then true
    else inRanges iv r

/-- `map_check(rangelist,item_value) != True` (CifFile_module.nw 2082-2094). -/
def rangeBad (rs : List (Option Rat × Option Rat)) (a : PyVal) : Except PyErr Bool :=
  if a = query ∨ a = dot then .ok false
  else match Number.getNumber a with
    | .error e => .error e
    | .ok (none, _) => .ok true
    | .ok (some iv, _) => .ok (!inRanges iv rs)

/-- `validate_enum_range` (CifFile_module.nw 2069-2097). The bounds are iterated over as they are, so a bound that is
a text rather than a list is taken apart into characters. -/
def validateEnumRange (D : Dic) (item : Str) (value : PyVal) : Except PyErr Outcome := do
  let b ← getDef D item
  let lo ← attr b "_item_range.minimum".toList
  let hi ← attr b "_item_range.maximum".toList
  if lo = none ∧ hi = none then .ok .skip
  else
    let los ← Block.pyIter (lo.getD (.list [dot]))
    let his ← Block.pyIter (hi.getD (.list [dot]))
    let rs ← ranges los his
    let vs ← listify value
    let bad ← select (rangeBad rs) vs
    .ok (verdict bad)

/-- One number of a DDL1 range as matched by `getmaxmin` (CifFile_module.nw 3424), and what follows. The repetition in the
expression is left out: at most one number is matched. -/
def rangeNumber (s : Str) : Option Str × Str :=
  match Number.matchBase s with
  | none => (none, s)
  | some (b, _, r) => (some (b ++ ((Number.matchExp r).1).getD []), (Number.matchExp r).2)

/-- A number of a range: `.` when there is none, otherwise the result of `float` (CifFile_module.nw 3432-3435). -/
def rangeBound : Option Str → Except PyErr PyVal
  | none => .ok dot
  | some t => if (Number.pyFloat t).isSome then .ok (.num t) else .error .value

/-- `getmaxmin` (CifFile_module.nw 3423-3436): maximum and minimum. As a number holds no colon, everything before the
first colon has to be matched. When nothing matches, the variables are not set (`UnboundLocalError`, given here as an
attribute error). -/
def getMaxMin (s : Str) : Except PyErr (PyVal × PyVal) :=
  match s.dropWhile (· != ':') with
  | [] => .error .attribute
  | _ :: post =>
    let lo := rangeNumber (s.takeWhile (· != ':'))
    if lo.2 ≠ [] then .error .attribute
    else
      match rangeBound lo.1 with
      | .error e => .error e
      | .ok mn =>
        match rangeBound (rangeNumber post).1 with
        | .error e => .error e
        | .ok mx => .ok (mx, mn)

/-- The columns of maxima and of minima made from a DDL1 range (CifFile_module.nw 733-740). -/
def rangeColumns (mx mn : PyVal) : List PyVal × List PyVal :=
  if mn = dot then ([mx, mx], [mx, mn])
  else if mx = dot then ([mx, mn], [mn, mn])
  else ([mx, mx, mn], [mx, mn, mn])

/-- The list of permitted values: `[:]` and then `append`, which a text does not have (CifFile_module.nw 2107-2111). -/
def enumList : PyVal → Except PyErr (List PyVal)
  | .list l => .ok (l ++ [dot, query])
  | .slist l => .ok (l ++ [dot, query])
  | .str _ => .error .attribute
  | _ => .error .type

/-- `validate_item_enum` (CifFile_module.nw 2105-2116); a definition that is missing altogether also gives `KeyError`. -/
def validateItemEnum (D : Dic) (item : Str) (value : PyVal) : Except PyErr Outcome :=
  match D.find item with
  | none => .ok .skip
  | some b => do
    match ← attr b D.names.enum with
    | none => .ok .skip
    | some e =>
      let l ← enumList e
      let vs ← listify value
      .ok (verdict (vs.filter fun a => decide (a ∉ l)))

/-- `isinstance(v,(unicode,str))`. -/
def isText : PyVal → Bool
  | .str _ => true
  | _ => false

/-- `validate_looping` (CifFile_module.nw 2128-2137). -/
def validateLooping (D : Dic) (item : Str) (value : PyVal) : Except PyErr Outcome :=
  match D.find item with
  | none => .ok .skip
  | some b => do
    match ← attr b D.names.mustLoop with
    | none => .ok .skip
    | some m =>
      if m = .str "yes".toList ∧ isText value = true then .ok (.bad {})
      else if m = .str "no".toList ∧ isText value = false then .ok (.bad {})
      else .ok .good

/-! ## Checks of a loop -/

/-- `self[a][self.cat_spec].lower()` (CifFile_module.nw 2178); a `KeyError` becomes `ValidCifError`. -/
def category (D : Dic) (n : Str) : Except PyErr Str :=
  match D.find n with
  | none => .error .valid
  | some b =>
    match attr b D.names.cat with
    | .error e => .error e
    | .ok none => .error .valid
    | .ok (some (.str c)) => .ok (lower c)
    | .ok (some _) => .error .attribute

/-- `get_final_cats` (CifFile_module.nw 2174-2182). -/
def finalCats (D : Dic) (loopNames : List Str) : Except PyErr (List Str) := do
  let cs ← mapE (category D) loopNames
  .ok (cs.filterMap (dget D.parentLookup))

/-- `validate_loop_membership` (CifFile_module.nw 2167-2172). -/
def validateLoopMembership (D : Dic) (loopNames : List Str) : Except PyErr Outcome := do
  let fs ← finalCats D loopNames
  match fs with
  | [] => .ok .good
  | f :: r =>
    let bad := (f :: r).filter fun a => decide (a ≠ f)
    .ok (if bad = [] then .good else .bad { items := some (bad.map .str) })

/-- `validate_looping_ddlm` (CifFile_module.nw 2139-2146). -/
def validateLoopingDdlm (D : Dic) (loopNames : List Str) : Except PyErr Outcome := do
  let fs ← finalCats D loopNames
  if fs.length < loopNames.length then
    let cs ← mapE (category D) loopNames
    let bad := (loopNames.zip cs).filter fun a => decide (dget D.parentLookup a.2 = none)
    .ok (.bad { items := some (bad.map fun a => .str a.1) })
  else .ok .good

/-- `a in names` for a value that should be a name. -/
def isIn (a : PyVal) (names : List Str) : Bool :=
  match a with
  | .str s => decide (s ∈ names)
  | _ => false

/-- The pairs of a related name and its function (CifFile_module.nw 2296-2301). -/
def relatedPairs (func : PyVal) : Option PyVal → Except PyErr (List (PyVal × PyVal))
  | none => .error .type
  | some (.str n) => .ok [(.str n, func)]
  | some v =>
    match Block.pyIter v, Block.pyIter func with
    | .ok ns, .ok fs => .ok (ns.zip fs)
    | .error e, _ => .error e
    | _, .error e => .error e

/-- The functions that make a related name an alternate (CifFile_module.nw 2302-2306). -/
def alternateFunc (exclusive : Bool) (f : PyVal) : Bool :=
  if exclusive then decide (f = .str "alternate_exclusive".toList ∨ f = .str "replace".toList)
  else decide (f = .str "alternate".toList ∨ f = .str "replace".toList)

/-- The first half of `get_alternates` (CifFile_module.nw 2294-2307). -/
def relatedNames (D : Dic) (b : Block) (exclusive : Bool) : Except PyErr (List PyVal) :=
  match attr b D.names.relatedFunc with
  | .error e => .error e
  | .ok none => .ok []
  | .ok (some f) =>
    match attr b D.names.relatedItem with
    | .error e => .error e
    | .ok rel =>
      match relatedPairs f rel with
      | .error e => .error e
      | .ok ps => .ok ((ps.filter fun p => alternateFunc exclusive p.2).map (·.1))

/-- The names under which an item is also known (CifFile_module.nw 2309). -/
def aliasNames (b : Block) : Except PyErr (List PyVal) :=
  match attr b "_item_aliases.alias_name".toList with
  | .error e => .error e
  | .ok none => .ok []
  | .ok (some v) => listify v

/-- `get_alternates` (CifFile_module.nw 2293-2312). -/
def getAlternates (D : Dic) (name : PyVal) (exclusive : Bool := false) : Except PyErr (List PyVal) := do
  let b ← getDefV D name
  let alts ← relatedNames D b exclusive
  let ali ← aliasNames b
  .ok (alts ++ ali)

/-- The elements of one entry of the key list after a single text has been wrapped (CifFile_module.nw 2197-2198). -/
def keyGroup : PyVal → Except PyErr (List PyVal)
  | .str s => .ok [.str s]
  | v => Block.pyIter v

/-- The alternates of a missing key: each is taken apart into characters (CifFile_module.nw 2207-2210). -/
def keyAltsOk (loopNames : List Str) : List PyVal → Except PyErr Bool
  | [] => .ok true
  | a :: r =>
    match Block.pyIter a with
    | .error e => .error e
    | .ok cs => if (cs.filter fun c => isIn c loopNames) = [] then .ok false else keyAltsOk loopNames r

/-- The body of the loop over the keys (CifFile_module.nw 2199-2210): whether the key counts as present. -/
def keyPresent (D : Dic) (loopNames : List Str) (k : PyVal) : Except PyErr Bool :=
  if isIn k loopNames then .ok true
  else do
    let b ← getDefV D k
    let m ← attr b D.names.mustExist
    if m = some (.str "implicit".toList) then .ok true
    else
      let alts ← getAlternates D k
      if alts = [] then .ok false else keyAltsOk loopNames alts

/-- The loop over one group of keys: the first key that is missing. -/
def firstMissing (D : Dic) (loopNames : List Str) : List PyVal → Except PyErr (Option PyVal)
  | [] => .ok none
  | k :: r =>
    match keyPresent D loopNames k with
    | .error e => .error e
    | .ok true => firstMissing D loopNames r
    | .ok false => .ok (some k)

/-- The loop over the groups of keys (CifFile_module.nw 2196). -/
def firstMissingGroup (D : Dic) (loopNames : List Str) : List PyVal → Except PyErr (Option PyVal)
  | [] => .ok none
  | g :: r =>
    match keyGroup g with
    | .error e => .error e
    | .ok ks =>
      match firstMissing D loopNames ks with
      | .error e => .error e
      | .ok (some k) => .ok (some k)
      | .ok none => firstMissingGroup D loopNames r

/-- `self[item][a]` with `KeyError` left alone. -/
def need (b : Block) (a : Str) : Except PyErr PyVal :=
  match attr b a with
  | .error e => .error e
  | .ok none => .error .key
  | .ok (some v) => .ok v

/-- `validate_loop_key` (CifFile_module.nw 2192-2211). -/
def validateLoopKey (D : Dic) (loopNames : List Str) : Except PyErr Outcome :=
  match loopNames with
  | [] => .error .index
  | n :: r => do
    let b ← getDef D n
    let c ← need b D.names.cat
    let cb ← getDefV D c
    let ks ← attr cb D.names.key
    let groups ← Block.pyIter (ks.getD (.list []))
    match ← firstMissingGroup D (n :: r) groups with
    | none => .ok .good
    | some k => .ok (.bad { items := some [k] })

/-- `validate_loop_key_ddlm` (CifFile_module.nw 2218-2229). -/
def validateLoopKeyDdlm (D : Dic) (loopNames : List Str) : Except PyErr Outcome := do
  let fs ← finalCats D loopNames
  match fs with
  | [] => .ok .good
  | f :: _ =>
    match dget D.catKeyTable f with
    | none => .error .key
    | some [] => .error .index
    | some (poss :: _) =>
      if (poss.filter fun a => decide (a ∈ loopNames)) ≠ [] then .ok .good
      else .ok (.bad { items := some (poss.map .str) })

/-- `a.lower()` for a value that should be a text. -/
def lowerV : PyVal → Except PyErr Str
  | .str s => .ok (lower s)
  | _ => .error .attribute

/-- `flat_func` (CifFile_module.nw 2243-2248): the names in one value of `_list_reference`. -/
def flatNames : PyVal → Except PyErr (List Str)
  | .str s => .ok [lower s]
  | v =>
    match Block.pyIter v with
    | .error e => .error e
    | .ok l => mapE lowerV l

/-- The names that a looped item must be accompanied by (CifFile_module.nw 2239-2250). -/
def references (D : Dic) (n : Str) : Except PyErr (List Str) := do
  let b ← getDef D n
  match ← attr b D.names.listRef with
  | none => .ok []
  | some v => flatNames v

/-- `a[-1]=="_"` (CifFile_module.nw 2251). -/
def isGroup (s : Str) : Except PyErr Bool :=
  match s.getLast? with
  | some c => .ok (decide (c = '_'))
  | none => .error .index

/-- `check_gr` (CifFile_module.nw 2254-2257). -/
def groupPresent (loopNames : List Str) (s : Str) : Bool :=
  decide (s ∈ loopNames.map fun a => a.take s.length)

/-- `validate_loop_references` (CifFile_module.nw 2238-2272). The set of names reported when some have no alternates is
given as a list. -/
def validateLoopReferences (D : Dic) (loopNames : List Str) : Except PyErr Outcome := do
  let flat ← mapE (references D) loopNames
  let flat := flat.flatten
  let groups ← select isGroup flat
  let singles ← select (fun s => do let g ← isGroup s; .ok (!g)) flat
  let res := singles.filter fun a => decide (a ∉ loopNames)
  let resG := groups.filter (groupPresent loopNames)
  if res = [] ∧ resG = [] then .ok .good
  else
    let alts ← mapE (fun a => do let l ← getAlternates D (.str a); .ok (a, l)) res
    let none_ := alts.filter fun a => decide (a.2 = [])
    if none_ ≠ [] then .ok (.bad { items := some (none_.map fun a => .str a.1) })
    else
      match alts.find? fun a => decide ((a.2.filter fun n => isIn n loopNames) = []) with
      | some a => .ok (.bad { items := some [.str a.1] })
      | none => .ok .good

/-! ## Checks that look at other items -/

/-- What is remembered while optimisation is on (CifFile_module.nw 2679-2690). -/
structure Done where
  keys : List (List PyVal) := []
  children : List PyVal := []
  parents : List PyVal := []
  deriving DecidableEq, Repr

/-- `validate_exclusion` (CifFile_module.nw 2332-2340). -/
def validateExclusion (D : Dic) (item : Str) (wb : Block) (prov : Dict Str PyVal) : Except PyErr Outcome := do
  let l ← getAlternates D (.str item) true
  let alts ← mapE lowerV l
  let names := wb.keys.map lower ++ (dkeys prov).map lower
  let bad := alts.filter fun a => decide (a ∈ names)
  .ok (if bad = [] then .good else .bad { items := some (bad.map .str) })

/-- Python truth of a value (`if not parent_item`). -/
def truthy : PyVal → Bool
  | .none => false
  | .str s => decide (s ≠ [])
  | .num _ => true
  | .slist l => decide (l ≠ [])
  | .sdict l => decide (l ≠ [])
  | .list l => decide (l ≠ [])

/-- `if not v` where `v` may also be missing. -/
def truthyO : Option PyVal → Bool
  | none => false
  | some v => truthy v

/-- The first parent when several are given (CifFile_module.nw 2370-2371). -/
def firstParent : PyVal → PyVal
  | .list (x :: _) => x
  | .slist (x :: _) => x
  | v => v

/-- `provisional_items.get(n,whole_block.get(n))` (CifFile_module.nw 2394). -/
def provOrBlock (prov : Dict Str PyVal) (wb : Block) (n : PyVal) : Except PyErr (Option PyVal) := do
  let w ← attrV wb n
  match n with
  | .str s => .ok (match dget prov s with | some v => some v | none => w)
  | _ => .ok w

/-- `check_parent_child` (CifFile_module.nw 2454-2460). -/
def missingFrom (parents children : List PyVal) : List PyVal :=
  children.filter fun a => decide (a ∉ parents ++ [dot, query])

/-- The comparison at the end of `validate_parent` (CifFile_module.nw 2406-2413); `None[:]` is a `TypeError`. -/
def compareParent (p : PyVal) (parentValues : Option PyVal) (children : List PyVal) : Except PyErr Outcome :=
  match parentValues with
  | none => .error .type
  | some v =>
    match slice v with
    | .error e => .error e
    | .ok pv =>
      let m := missingFrom pv children
      .ok (if m = [] then .good else .bad { values := some m, parent := some p })

/-- `validate_parent` after the parent has been chosen (CifFile_module.nw 2379-2413). -/
def checkParent (D : Dic) (p value : PyVal) (wb : Block) (prov : Dict Str PyVal) : Except PyErr Outcome := do
  let children ← slice value
  let pv ← provOrBlock prov wb p
  if truthyO pv = true then compareParent p pv children
  else
    let alts ← getAlternates D p
    match alts.filter fun a => isIn a (wb.keys ++ dkeys prov) with
    | [] =>
      if (children.filter fun a => decide (a ≠ dot ∧ a ≠ query)) ≠ [] then .ok (.bad { parent := some p })
      else .ok .skip
    | q :: _ => do
      let pv ← provOrBlock prov wb q
      compareParent q (if truthyO pv then pv else none) children

/-- `validate_parent` (CifFile_module.nw 2367-2413). `opt` is `none` when optimisation is off. -/
def validateParent (D : Dic) (item : Str) (value : PyVal) (wb : Block) (prov : Dict Str PyVal) (opt : Option Done) :
    Except PyErr (Outcome × Option Done) := do
  let b ← getDef D item
  let pi ← attr b D.names.parent
  match pi with
  | none => .ok (.skip, opt)
  | some v =>
    if truthy v = false then .ok (.skip, opt)
    else
      let p := firstParent v
      match opt with
      | none => do
        let o ← checkParent D p value wb prov
        .ok (o, none)
      | some d =>
        if p ∈ d.parents then .ok (.skip, some d)
        else do
          let o ← checkParent D p value wb prov
          .ok (o, some { d with parents := d.parents ++ [p] })

/-- The values of a child that is present: `provisional_items[c][:]` or `whole_block[c][:]` (CifFile_module.nw 2439-2444). -/
def childValues (wb : Block) (prov : Dict Str PyVal) : PyVal → Except PyErr (Option (List PyVal))
  | .str c =>
    match dget prov c with
    | some v =>
      match slice v with
      | .error e => .error e
      | .ok l => .ok (some l)
    | none =>
      match attr wb c with
      | .error e => .error e
      | .ok none => .ok none
      | .ok (some v) =>
        match slice v with
        | .error e => .error e
        | .ok l => .ok (some l)
  | _ => .ok none

/-- The loop over the children (CifFile_module.nw 2431-2450). -/
def checkChildren (wb : Block) (prov : Dict Str PyVal) (parents : List PyVal) (opt : Option Done) :
    List PyVal → Except PyErr (Outcome × Option Done)
  | [] => .ok (.good, opt)
  | c :: r =>
    if (opt.elim false fun d => decide (c ∈ d.children)) then .ok (.skip, opt)
    else
      let opt' := opt.map fun d => { d with children := d.children ++ [c] }
      match childValues wb prov c with
      | .error e => .error e
      | .ok none => checkChildren wb prov parents opt' r
      | .ok (some vs) =>
        let m := missingFrom parents vs
        if m = [] then checkChildren wb prov parents opt' r
        else .ok (.bad { values := some m, child := some c }, opt')

/-- `validate_child` (CifFile_module.nw 2415-2451). -/
def validateChild (D : Dic) (item : Str) (value : PyVal) (wb : Block) (prov : Dict Str PyVal) (opt : Option Done) :
    Except PyErr (Outcome × Option Done) :=
  match D.find item with
  | none => .ok (.skip, opt)
  | some b => do
    match ← attr b D.names.child with
    | none => .ok (.skip, opt)
    | some cv =>
      let cs ← slice cv
      let parents ← slice value
      let alts ← mapE (fun c => getAlternates D c) cs
      checkChildren wb prov parents opt (cs ++ alts.flatten)

/-- `validate_remove_parent_child` (CifFile_module.nw 2462-2472). -/
def validateRemoveParentChild (D : Dic) (item : Str) (wb : Block) : Except PyErr Outcome :=
  match D.find item with
  | none => .ok .skip
  | some b => do
    match ← attr b D.names.child with
    | none => .ok .skip
    | some cv =>
      let cs ← listify cv
      match cs.find? fun c => match c with | .str s => wb.contains s | _ => false with
      | some c => .ok (.bad { child := some c })
      | none => .ok .good

/-- `validate_dependents` (CifFile_module.nw 2481-2501). -/
def validateDependents (D : Dic) (item : Str) (wb : Block) (prov : Dict Str PyVal) : Except PyErr Outcome :=
  match D.find item with
  | none => .ok .skip
  | some b => do
    match ← attr b D.names.dep with
    | none => .ok .skip
    | some dv =>
      let deps ← slice dv
      let actual := wb.keys ++ dkeys prov
      let missing := deps.filter fun a => !isIn a actual
      let alts ← mapE (fun a => do let l ← getAlternates D a; .ok (l, a)) missing
      let bad := alts.filter fun p => decide ((p.1.filter fun a => isIn a actual) = [])
      .ok (if bad = [] then .good else .bad { items := some (bad.map (·.2)) })

/-- `other_data[j][i]` (CifFile_module.nw 2566): indexing a text gives one of its characters. -/
def indexV (v : PyVal) (i : Nat) : Except PyErr PyVal :=
  match v with
  | .str s => match s[i]? with | some c => .ok (.str [c]) | none => .error .index
  | .list l => match l[i]? with | some x => .ok x | none => .error .index
  | .slist l => match l[i]? with | some x => .ok x | none => .error .index
  | .sdict _ => .error .key
  | _ => .error .type

/-- `" ".join([this_entry,x])` (CifFile_module.nw 2566). -/
def joinV : PyVal → PyVal → Except PyErr PyVal
  | .str a, .str b => .ok (.str (a ++ ' ' :: b))
  | _, _ => .error .type

/-- The entry of row `i` (CifFile_module.nw 2564-2566). -/
def rowEntry (i : Nat) (e : PyVal) : List PyVal → Except PyErr PyVal
  | [] => .ok e
  | o :: r =>
    match indexV o i with
    | .error x => .error x
    | .ok y =>
      match joinV e y with
      | .error x => .error x
      | .ok e' => rowEntry i e' r

/-- The loop over the values (CifFile_module.nw 2562-2571): the first entry seen before. -/
def firstRepeat (others : List PyVal) : Nat → List PyVal → List PyVal → Except PyErr (Option PyVal)
  | _, _, [] => .ok none
  | i, seen, v :: r =>
    match rowEntry i v others with
    | .error e => .error e
    | .ok e => if e ∈ seen then .ok (some e) else firstRepeat others (i + 1) (seen ++ [e]) r

/-- The values of the other keys (CifFile_module.nw 2545-2556): the first missing name, or all values. -/
def otherData (D : Dic) (item : Str) (n : Nat) (wb : Block) (prov : Dict Str PyVal) :
    List PyVal → Except PyErr (PyVal ⊕ List PyVal)
  | [] => .ok (.inr [])
  | o :: r => do
    let here ← provOrBlock prov wb o
    let v ← match here with
      | some v => .ok (some v)
      | none => do
        let b ← getDefV D o
        let m ← attr b D.names.mustExist
        .ok (if m = some (.str "implicit".toList) then some (PyVal.list (List.replicate n (.str item))) else none)
    match v with
    | none => .ok (.inl o)
    | some v =>
      match ← otherData D item n wb prov r with
      | .inl x => .ok (.inl x)
      | .inr l => .ok (.inr (v :: l))

/-- The comparison made by `validate_uniqueness` (CifFile_module.nw 2541-2573). The failing result holds the repeated
entry, a text, which the model gives as a list of one. -/
def checkUnique (D : Dic) (item : Str) (vals keys : List PyVal) (wb : Block) (prov : Dict Str PyVal) : Except PyErr Outcome := do
  match ← otherData D item vals.length wb prov (keys.erase (.str item)) with
  | .inl o => .ok (.bad { items := some [o] })
  | .inr others =>
    match ← firstRepeat others 0 [] vals with
    | some e => .ok (.bad { values := some [e] })
    | none => .ok .good

/-- The elements of a looped value: `len(item_value)` and `item_value[i]`. -/
def elements : PyVal → Except PyErr (List PyVal)
  | .list l => .ok l
  | .slist l => .ok l
  | _ => .error .type

/-- `validate_uniqueness` (CifFile_module.nw 2521-2573). With optimisation on, the list remembered is the one from which
the item is removed two lines later. -/
def validateUniqueness (D : Dic) (item : Str) (value : PyVal) (wb : Block) (prov : Dict Str PyVal) (opt : Option Done) :
    Except PyErr (Outcome × Option Done) := do
  let b ← getDef D item
  match ← attr b D.names.cat with
  | none => .ok (.skip, opt)
  | some c =>
    let cb ← getDefV D c
    let kv ← attr cb "_category_key.name".toList
    let keys ← slice (kv.getD (.list []))
    if .str item ∉ keys then .ok (.skip, opt)
    else if isText value then .ok (.skip, opt)
    else
      match opt with
      | none => do
        let vals ← elements value
        let o ← checkUnique D item vals keys wb prov
        .ok (o, none)
      | some d =>
        if keys ∈ d.keys then .ok (.skip, some d)
        else do
          let vals ← elements value
          let o ← checkUnique D item vals keys wb prov
          .ok (o, some { d with keys := d.keys ++ [keys.erase (.str item)] })

/-! ## Checks of a whole block -/

/-- Whether a definition is that of a mandatory category, and of which (CifFile_module.nw 2598). -/
def mandatoryCat (D : Dic) (k : Str) : Except PyErr (List PyVal) := do
  let b ← getDef D k
  match ← attr b "_category.mandatory_code".toList with
  | none => .ok []
  | some m =>
    if m = .str "yes".toList then do
      let c ← need b "_category.id".toList
      .ok [c]
    else .ok []

/-- The category of an item of the block (CifFile_module.nw 2603). -/
def itemCat (D : Dic) (k : Str) : Except PyErr (Option PyVal) := do
  let b ← getDef D k
  attr b D.names.cat

/-- `validate_mandatory_category` (CifFile_module.nw 2597-2607). The missing categories are reported as one text made
from a set, which the model gives as the list of them. -/
def validateMandatoryCategory (D : Dic) (wb : Block) : Except PyErr Outcome := do
  let mand ← mapE (mandatoryCat D) D.keys
  let mand := mand.flatten
  if mand = [] then .ok .good
  else
    let cats ← mapE (itemCat D) wb.keys
    let missing := mand.filter fun c => decide (some c ∉ cats)
    .ok (if missing = [] then .good else .bad { items := some missing })

/-- The scope of a block (CifFile_module.nw 2623-2625). A scope that is not a text is not in the table. -/
def blockScope (wb : Block) : Except PyErr Str := do
  let s ← attr wb "_definition.scope".toList
  if wb.contains "_dictionary.title".toList then .ok "Dictionary".toList
  else match s with
    | none => .ok "Item".toList
    | some (.str s) => .ok s
    | some _ => .error .key

/-- `check_mandatory_items` (CifFile_module.nw 2618-2630). Its second argument is never passed, so the default scope is
always `Item`. -/
def checkMandatoryItems (D : Dic) (wb : Block) : Except PyErr Outcome :=
  if D.mandatory = [] then .ok .good
  else do
    let s ← blockScope wb
    match dget D.mandatory s with
    | none => .error .key
    | some l =>
      let missing := l.filter fun a => !wb.contains a
      .ok (if missing = [] then .good else .bad { items := some (missing.map .str) })

/-- `check_prohibited_items` (CifFile_module.nw 2633-2645). -/
def checkProhibitedItems (D : Dic) (wb : Block) : Except PyErr Outcome :=
  if D.naughty = [] then .ok .good
  else do
    let s ← blockScope wb
    match dget D.naughty s with
    | none => .error .key
    | some l =>
      let present := l.filter fun a => wb.contains a
      .ok (if present = [] then .good else .bad { items := some (present.map .str) })

/-! ## Running the checks -/

/-- The lists of checks of a dictionary (CifFile_module.nw 1898-1950), by name. -/
structure Checks where
  item : List (Str × (Str → PyVal → Except PyErr Outcome))
  loop : List (Str × (List Str → Except PyErr Outcome))
  global : List (Str × (Str → PyVal → Block → Dict Str PyVal → Option Done → Except PyErr (Outcome × Option Done)))
  block : List (Str × (Block → Except PyErr Outcome))

/-- A check that keeps no record. -/
def plain (f : Str → PyVal → Block → Dict Str PyVal → Except PyErr Outcome) :
    Str → PyVal → Block → Dict Str PyVal → Option Done → Except PyErr (Outcome × Option Done) :=
  fun item v wb prov opt => do
    let o ← f item v wb prov
    .ok (o, opt)

/-- The checks installed for DDL1 and DDL2 (CifFile_module.nw 1900-1927). -/
def checks12 (D : Dic) : Checks where
  item := [("validate_item_type".toList, validateItemType D), ("validate_item_esd".toList, validateItemEsd D),
    ("validate_item_enum".toList, validateItemEnum D), ("validate_enum_range".toList, validateEnumRange D),
    ("validate_looping".toList, validateLooping D)]
  loop := [("validate_loop_membership".toList, validateLoopMembership D), ("validate_loop_key".toList, validateLoopKey D),
    ("validate_loop_references".toList, validateLoopReferences D)]
  global := [("validate_exclusion".toList, plain fun i _ wb p => validateExclusion D i wb p),
    ("validate_parent".toList, validateParent D), ("validate_child".toList, validateChild D),
    ("validate_dependents".toList, plain fun i _ wb p => validateDependents D i wb p),
    ("validate_uniqueness".toList, validateUniqueness D)]
  block := [("validate_mandatory_category".toList, validateMandatoryCategory D)]

/-- The checks installed for DDLm (CifFile_module.nw 1928-1945). -/
def checksM (D : Dic) : Checks where
  item := [("validate_item_enum".toList, validateItemEnum D), ("validate_item_esd_ddlm".toList, validateItemEsdDdlm D)]
  loop := [("validate_looping_ddlm".toList, validateLoopingDdlm D), ("validate_loop_key_ddlm".toList, validateLoopKeyDdlm D),
    ("validate_loop_membership".toList, validateLoopMembership D)]
  global := []
  block := [("check_mandatory_items".toList, checkMandatoryItems D), ("check_prohibited_items".toList, checkProhibitedItems D)]

/-- The results of a list of checks, in order. -/
abbrev Results := List (Str × Outcome)

/-- `run_item_validation` (CifFile_module.nw 2654). -/
def runItem (fs : List (Str × (Str → PyVal → Except PyErr Outcome))) (item : Str) (v : PyVal) : Except PyErr Results :=
  mapE (fun f => do let o ← f.2 item v; .ok (f.1, o)) fs

/-- `run_loop_validation` (CifFile_module.nw 2657). -/
def runLoop (fs : List (Str × (List Str → Except PyErr Outcome))) (names : List Str) : Except PyErr Results :=
  mapE (fun f => do let o ← f.2 names; .ok (f.1, o)) fs

/-- `run_global_validation` (CifFile_module.nw 2660). -/
def runGlobal (item : Str) (v : PyVal) (wb : Block) (prov : Dict Str PyVal) :
    Option Done → List (Str × (Str → PyVal → Block → Dict Str PyVal → Option Done → Except PyErr (Outcome × Option Done))) →
    Except PyErr (Results × Option Done)
  | opt, [] => .ok ([], opt)
  | opt, f :: r =>
    match f.2 item v wb prov opt with
    | .error e => .error e
    | .ok (o, opt') =>
      match runGlobal item v wb prov opt' r with
      | .error e => .error e
      | .ok (rs, opt'') => .ok ((f.1, o) :: rs, opt'')

/-- `run_block_validation` (CifFile_module.nw 2664): the scope is not passed on. -/
def runBlock (fs : List (Str × (Block → Except PyErr Outcome))) (wb : Block) : Except PyErr Results :=
  mapE (fun f => do let o ← f.2 wb; .ok (f.1, o)) fs

/-- `update_value` (CifFile_module.nw 4263-4268) for one key: results are appended to those already there. -/
def updateValue (d : Dict Str Results) (k : Str) (rs : Results) : Dict Str Results :=
  match dget d k with
  | some old => dset d k (old ++ rs)
  | none => dset d k rs

/-- The loop over the items in `run_data_checks` (CifFile_module.nw 4062-4064). -/
def itemsPass (C : Checks) (wb : Block) : Dict Str Results → Option Done → List Str → Except PyErr (Dict Str Results × Option Done)
  | d, opt, [] => .ok (d, opt)
  | d, opt, k :: r => do
    let v ← wb.getItem k
    let r1 ← runItem C.item k v
    let (r2, opt') ← runGlobal k v wb [] opt C.global
    itemsPass C wb (updateValue (updateValue d k r1) k r2) opt' r

/-- The loop over the loops in `run_data_checks` (CifFile_module.nw 4065-4066). -/
def loopsPass (C : Checks) : Dict Str Results → List (List Str) → Except PyErr (Dict Str Results)
  | d, [] => .ok d
  | _, [] :: _ => .error .index
  | d, (n :: ns) :: r => do
    let rs ← runLoop C.loop (n :: ns)
    loopsPass C (updateValue d n rs) r

/-- The failing results (`a[1]["result"]==False`). -/
def failing (rs : Results) : Results :=
  rs.filter fun p => match p.2 with | .bad _ => true | _ => false

/-- The contraction at the end of `run_data_checks` (CifFile_module.nw 4069-4074). -/
def contract (d : Dict Str Results) : Dict Str Results :=
  (d.map fun p => (p.1, failing p.2)).filter fun p => decide (p.2 ≠ [])

/-- The key under which the results for the whole block are kept (CifFile_module.nw 2667). -/
def wholeBlock : Str := "whole_block".toList

/-- `run_data_checks` (CifFile_module.nw 4060-4077), and with `opt := some {}` the method of `ValidCifBlock`
(CifFile_module.nw 3551-3573), which switches optimisation on. -/
def runDataChecks (C : Checks) (wb : Block) (opt : Option Done := none) : Except PyErr (Bool × Dict Str Results) := do
  let (d, _) ← itemsPass C wb [] opt wb.keys
  let d ← loopsPass C d (wb.loops.map (·.2))
  let rs ← runBlock C.block wb
  let d := contract (updateValue d wholeBlock rs)
  .ok (decide (d = []), d)

/-! ## Blocks that stay valid -/

/-- `single_item_check` (CifFile_module.nw 3597-3608). -/
def singleItemCheck (D : Dic) (C : Checks) (item : Str) (v : PyVal) : Except PyErr Results :=
  if D.known item then do
    let rs ← runItem C.item item v
    .ok (failing rs)
  else .ok []

/-- `global_item_check` (CifFile_module.nw 3622-3632). -/
def globalItemCheck (D : Dic) (C : Checks) (wb : Block) (item : Str) (v : PyVal) (prov : Dict Str PyVal) : Except PyErr Results :=
  if D.known item then do
    let (rs, _) ← runGlobal item v wb prov none C.global
    .ok (failing rs)
  else .ok []

/-- `loop_item_check` (CifFile_module.nw 3610-3620): the first known name is asked for even when there is none. -/
def loopItemCheck (D : Dic) (C : Checks) (names : List Str) : Except PyErr Results :=
  match names.filter D.known with
  | [] => .error .index
  | n :: r => do
    let rs ← runLoop C.loop (n :: r)
    .ok (failing rs)

/-- `report_if_invalid` (CifFile_module.nw 3690-3695). -/
def reportIfInvalid (bad : Results) : Except PyErr Unit := if bad = [] then .ok () else .error .valid

/-- The checks made by `AddItem` of `ValidCifBlock` (CifFile_module.nw 3681-3687). -/
def addItemChecks (D : Dic) (C : Checks) (wb : Block) (key : Str) (v : PyVal) : Except PyErr Unit := do
  let r1 ← singleItemCheck D C key v
  reportIfInvalid r1
  let r2 ← globalItemCheck D C wb key v []
  reportIfInvalid r2

/-- `AddItem` of `ValidCifBlock` (CifFile_module.nw 3681-3688). -/
def addItem (D : Dic) (C : Checks) (wb : Block) (key : Str) (v : PyVal) : Block × Except PyErr Unit :=
  match addItemChecks D C wb key v with
  | .error e => (wb, .error e)
  | .ok () => wb.addItem key v

end Validate
end Verif
