import Verif.Model.Ddl1
/-! # Opening a DDL2 dictionary

`DDL2_normalise` (CifFile_module.nw 832-896) as Python 3 runs it. There `filter` makes an iterator that can be run through only once:
`listed_defs` and `dodgy_defs` are used up by the first loop, so that the loops over `dodgy_defs` that set up links between parents and
children (905-957), and the one over `single_defs`, have nothing to do. They are left out. Running through the keys while new ones are
entered would raise a `RuntimeError`; entering one raises before that (`setItem`), since the new block has no `_definition.id`.
The constructor has no result when it raises. -/
namespace Verif.Ddl2
open CifDic Validate

def itemAttr : Str := "_item.name".toList
def categoryAttr : Str := "_item.category_id".toList
def mandatoryAttr : Str := "_item.mandatory_code".toList
def aliasAttr : Str := "_item_aliases.alias_name".toList

/-- `v[n]`. -/
def pick (v : PyVal) (n : Nat) : Except PyErr PyVal :=
  match v with
  | .list l => match l[n]? with | some x => .ok x | none => .error .index
  | .slist l => match l[n]? with | some x => .ok x | none => .error .index
  | .str s => match s[n]? with | some c => .ok (.str [c]) | none => .error .index
  | _ => .error .type

variable [CaseFold]

/-- `self[definition][a][n]`. -/
def attrAt (d : CifDic) (k a : Str) (n : Nat) : Except PyErr PyVal :=
  match attrI d k a with
  | .error e => .error e
  | .ok v => pick v n

/-- A definition for a child that has none (CifFile_module.nw 881-883). -/
def ensure (d : CifDic) (child : Str) : CifDic × Except PyErr Unit :=
  if d.contains child then (d, .ok ())
  else seq (setItem d child { maxName := some 75 }) fun d _ => setAttr d child itemAttr (.str child)

/-- One item listed in a definition (CifFile_module.nw 877-885). -/
def populate (k : Str) (d : CifDic) (n : Nat) : CifDic × Except PyErr Unit :=
  read d (attrAt d k itemAttr n) fun child =>
    read d (attrAt d k categoryAttr n) fun cat =>
      read d (attrAt d k mandatoryAttr n) fun mand =>
        match child with
        | .str s => seq (ensure d s) fun d _ => seq (setAttr d s categoryAttr cat) fun d _ => setAttr d s mandatoryAttr mand
        | _ => (d, .error .attribute)

/-- The items listed in a definition but the one it defines. -/
def populateAll (k : Str) (d : CifDic) : List Nat → CifDic × Except PyErr Unit
  | [] => (d, .ok ())
  | n :: r => seq (populate k d n) fun d _ => populateAll k d r

/-- A definition that lists several items (CifFile_module.nw 868-888). -/
def repopulate (d : CifDic) (k : Str) (names : List PyVal) : CifDic × Except PyErr Unit :=
  if .str k ∉ names then (d, .error .value)
  else
    let no := names.idxOf (.str k)
    read d (attrAt d k categoryAttr no) fun cat =>
      read d (attrAt d k mandatoryAttr no) fun mand =>
        seq (populateAll k d ((List.range names.length).filter fun n => decide (n ≠ no))) fun d _ =>
          setAttrs d k [(itemAttr, .str k), (categoryAttr, cat), (mandatoryAttr, mand)]

/-- One round of the loop over `dodgy_defs` (CifFile_module.nw 833-837). -/
def untangle (d : CifDic) (k : Str) : CifDic × Except PyErr Unit :=
  read d (attrD d k itemAttr .none) fun v =>
    match v with
    | .list l => if 1 < l.length then repopulate d k l else (d, .ok ())
    | .slist l => if 1 < l.length then repopulate d k l else (d, .ok ())
    | _ => (d, .ok ())

/-- `listify` (CifFile_module.nw 4284-4286) of something to be run through. -/
def listed : PyVal → Except PyErr (List PyVal)
  | .str s => .ok [.str s]
  | .list l => .ok l
  | .slist l => .ok l
  | _ => .error .type

/-- `del self[key][a]`. -/
def delAttr (d : CifDic) (key a : Str) : CifDic × Except PyErr Unit :=
  match d.getItem key with
  | .error e => (d, .error e)
  | .ok b =>
    match b.removeItem a with
    | (b', r) => (putBlock d key b', r)

/-- One alias of a definition (CifFile_module.nw 853-854). -/
def aliasOne (k : Str) (d : CifDic) : PyVal → CifDic × Except PyErr Unit
  | .str s => read d (d.getItem k) fun b => seq (setItem d s (Ddl1.copied b)) fun d _ => delAttr d s aliasAttr
  | _ => (d, .error .type)

/-- The aliases of a definition. -/
def aliasEach (k : Str) (d : CifDic) : List PyVal → CifDic × Except PyErr Unit
  | [] => (d, .ok ())
  | a :: r => seq (aliasOne k d a) fun d _ => aliasEach k d r

/-- A definition with aliases (CifFile_module.nw 850-854). -/
def aliasDef (d : CifDic) (k : Str) : CifDic × Except PyErr Unit :=
  read d (attrI d k aliasAttr) fun v => read d (listed v) fun l => aliasEach k d l

/-- `self[a].has_key('_item_aliases.alias_name')` (CifFile_module.nw 849). -/
def hasAlias (d : CifDic) (k : Str) : Except PyErr Bool :=
  match d.getItem k with
  | .error e => .error e
  | .ok b => .ok (b.contains aliasAttr)

/-- `DDL2_normalise` (CifFile_module.nw 832-854). -/
def normalise (d : CifDic) : CifDic × Except PyErr Unit :=
  seq (each untangle d d.keys) fun d _ =>
    read d (select (hasAlias d) d.keys) fun l => each aliasDef d l

/-- The constructor for a DDL2 dictionary (CifFile_module.nw 547-563), up to the tables made for all languages. The collection is
as it stands once the file has been read, with `standard` and `scoping` set for dictionaries (544-545). -/
def load (c : Coll) : Except PyErr CifDic :=
  match defTable c .ddl2 with
  | .error e => .error e
  | .ok t =>
    match normalise { coll := c, table := t, lang := .ddl2 } with
    | (_, .error e) => .error e
    | (d, .ok ()) => .ok d

end Verif.Ddl2
