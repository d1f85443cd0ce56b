import Verif.Model.Derive
import Verif.Model.CatTable
/-! # Packets of categories

A block that has a dictionary puts together the packet of a category from the loops of the category and of those nested in it
(StarFile.nw 2264-2362, `StarPacket` 1305-1329). Reading an item of such a block, and deriving one, may change the block; both are
parameters (`Host`), of which `Model/Derive.lean` is an instance (`ofEngine`). Printed messages are left out. -/
namespace Verif.SemPacket
open Block Validate

/-- A block with a dictionary: reading an item (StarFile.nw 1532-1590), deriving one with `store_value=True` (CifFile_module.nw
2903-2941), the definitions, `cat_key_table` and `key_equivs`. -/
structure Host (σ : Type) where
  block : σ → Block
  read : Str → σ → σ × Except PyErr PyVal
  derive : Str → σ → σ × Except PyErr PyVal
  dic : CifDic
  keys : Dict Str (List (List PyVal))
  equivs : Dict Str (List Str)

/-- The packet of a category with the names of its key. -/
structure SemPacket where
  packet : Packet
  key : List Str
  deriving DecidableEq

variable [CaseFold] {σ : Type}

/-- `[self.parent_block[a] for a in self.keys()]` (StarFile.nw 1248); the names are those at the beginning. -/
def readAll (h : Host σ) : List Str → σ → σ × Except PyErr (List PyVal)
  | [], s => (s, .ok [])
  | d :: ds, s =>
    match h.read d s with
    | (s1, .error e) => (s1, .error e)
    | (s1, .ok v) =>
      match readAll h ds s1 with
      | (s2, .error e) => (s2, .error e)
      | (s2, .ok vs) => (s2, .ok (v :: vs))

/-- `LoopBlock.__iter__` (StarFile.nw 1272-1279). -/
def packets (h : Host σ) (n : Nat) (s : σ) : σ × Except PyErr (List Packet) :=
  match dget (h.block s).loops n with
  | none => (s, .error .key)
  | some names =>
    match readAll h names s with
    | (s1, .error e) => (s1, .error e)
    | (s1, .ok vs) =>
      match mapE pyIter vs with
      | .error e => (s1, .error e)
      | .ok cols => (s1, .ok ((zipRows (maxLen cols) cols).map (mkPacket names)))

/-- Exactly one packet, or a `ValueError` (StarFile.nw 2200-2203, 2222-2225). -/
def only : List Packet → Except PyErr Packet
  | [p] => .ok p
  | _ => .error .value

/-- `GetKeyedPacket` (StarFile.nw 2188-2203). -/
def keyedPacket (h : Host σ) (keyname : Str) (keyvalue : PyVal) (noCase : Bool) (s : σ) : σ × Except PyErr Packet :=
  match (h.block s).getLoop keyname with
  | .error e => (s, .error e)
  | .ok n =>
    match packets h n s with
    | (s1, .error e) => (s1, .error e)
    | (s1, .ok ps) =>
      match filterE (keyMatches keyname keyvalue noCase) ps with
      | .error e => (s1, .error e)
      | .ok l => (s1, only l)

/-- `GetCompoundKeyedPacket` (StarFile.nw 2209-2225). -/
def compoundPacket (h : Host σ) (keydict : List (Str × PyVal × Bool)) (s : σ) : σ × Except PyErr Packet :=
  match keydict with
  | [] => (s, .error .index)
  | (k, _, _) :: _ =>
    match (h.block s).getLoop k with
    | .error e => (s, .error e)
    | .ok n =>
      match packets h n s with
      | (s1, .error e) => (s1, .error e)
      | (s1, .ok ps) =>
        match filterKeys ps keydict with
        | .error e => (s1, .error e)
        | .ok l => (s1, only l)

/-- `a[0] == '_' and a[1] != "_"` (StarFile.nw 1308). -/
def mergeable : Str → Except PyErr Bool
  | [] => .error .index
  | ['_'] => .error .index
  | '_' :: c :: _ => .ok (decide (c ≠ '_'))
  | _ => .ok false

/-- `setattr(self,na,getattr(incoming,na))` (StarFile.nw 1311). -/
def copyAttr (from_ to : Dict Str PyVal) (n : Str) : Dict Str PyVal :=
  match dget from_ n with
  | some v => dset to n v
  | none => to

/-- The loop over the attributes (StarFile.nw 1310-1311). -/
def copyAttrs (from_ : Dict Str PyVal) (names : List Str) (to : Dict Str PyVal) : Dict Str PyVal :=
  names.foldl (copyAttr from_) to

/-- `merge_packet` (StarFile.nw 1306-1311). The attributes that `dir` lists besides those set have two underscores or none. -/
def mergePacket (p e : Packet) : Except PyErr Packet :=
  match select mergeable (dkeys e.attrs) with
  | .error x => .error x
  | .ok names => .ok { vals := p.vals ++ e.vals, attrs := copyAttrs e.attrs names p.attrs }

/-- `test_key is not None and not (isinstance(test_key,list) and (None in test_key or len(test_key)==0))` (StarFile.nw 2343-2344). -/
def useful : PyVal → Bool
  | .none => false
  | .list l => decide (PyVal.none ∉ l ∧ l ≠ [])
  | .slist l => decide (PyVal.none ∉ l ∧ l ≠ [])
  | _ => true

/-- A key as a name: anything but a text has no `lower`. -/
def asText : PyVal → Except PyErr Str
  | .str s => .ok s
  | _ => .error .attribute

/-- The loop over the keys (StarFile.nw 2336-2351). `last` is what `extra_packet` is bound to: a key that is generated but of no use
leaves it as it was. -/
def gather (h : Host σ) (v : PyVal) (nc : Bool) : List PyVal → Packet → Option Packet → σ → σ × Except PyErr Packet
  | [], p, _, s => (s, .ok p)
  | kv :: r, p, last, s =>
    match asText kv with
    | .error e => (s, .error e)
    | .ok k =>
      match keyedPacket h k v nc s with
      | (s1, .ok e) =>
        match mergePacket p e with
        | .error x => (s1, .error x)
        | .ok p' => gather h v nc r p' (some e) s1
      | (s1, .error .value) => gather h v nc r p last s1
      | (s1, .error .key) =>
        match h.read k s1 with
        | (s2, .error _) => gather h v nc r p last s2
        | (s2, .ok test) =>
          if useful test then
            match keyedPacket h k v nc s2 with
            | (s3, .error _) => gather h v nc r p last s3
            | (s3, .ok e) =>
              match mergePacket p e with
              | .error x => (s3, .error x)
              | .ok p' => gather h v nc r p' (some e) s3
          else
            match last with
            | none => (s2, .error .unbound)
            | some e =>
              match mergePacket p e with
              | .error x => (s2, .error x)
              | .ok p' => gather h v nc r p' (some e) s2
      | (s1, .error e) => (s1, .error e)

/-- `[k[0] for k in target_keys]` (StarFile.nw 2329). -/
def firstKey : List PyVal → Except PyErr PyVal
  | [] => .error .index
  | k :: _ => .ok k

/-- `hasattr(p,keyname)` -/
def hasAttr (p : Packet) (keyname : PyVal) : Bool :=
  match keyname with
  | .str k => match p.attr k with
    | .ok _ => true
    | .error _ => false
  | _ => false

/-- The first key that the packet has (StarFile.nw 2353-2358). -/
def withKey (keys : List PyVal) (p : Packet) : Except PyErr SemPacket :=
  match keys.find? (hasAttr p) with
  | some (.str k) => .ok { packet := p, key := [k] }
  | _ => .error .value

/-- Whether key values are compared without regard to case (StarFile.nw 2332-2334). -/
def caselessKey (d : CifDic) (k : PyVal) : Except PyErr Bool :=
  match asText k with
  | .error e => .error e
  | .ok k =>
    match d.attrI k Derive.contentsAttr with
    | .error e => .error e
    | .ok t => .ok (decide (t ∈ Derive.caseless))

/-- `GetKeyedSemanticPacket` (StarFile.nw 2320-2362). -/
def keyedSemantic (h : Host σ) (v : PyVal) (cat : Str) (s : σ) : σ × Except PyErr SemPacket :=
  match dget h.keys cat with
  | none => (s, .error .key)
  | some sets =>
    match mapE firstKey sets with
    | .error e => (s, .error e)
    | .ok keys =>
      match firstKey keys with
      | .error e => (s, .error e)
      | .ok k0 =>
        match caselessKey h.dic k0 with
        | .error e => (s, .error e)
        | .ok nc =>
          match gather h v nc keys {} none s with
          | (s1, .error e) => (s1, .error e)
          | (s1, .ok p) => (s1, withKey keys p)

/-- The attributes that `__getattr__` never derives (StarFile.nw 1317). -/
def own : List Str := ["cif_dictionary".toList, "fulldata".toList, "key".toList]

/-- `dict([(v,(getattr(self,v),True)) for v in k])` (StarFile.nw 1327). A key that is not there is asked for again and again: the limit on
nested calls is reached. -/
def keyDict (p : Packet) : List Str → Dict Str (PyVal × Bool) → Except PyErr (Dict Str (PyVal × Bool))
  | [], acc => .ok acc
  | k :: r, acc =>
    match p.attr k with
    | .error _ => .error .depth
    | .ok v => keyDict p r (dset acc k (v, true))

/-- An attribute of the packet of a category (StarFile.nw 1313-1329). -/
def attrOf (h : Host σ) (q : SemPacket) (name : Str) (s : σ) : σ × Except PyErr PyVal :=
  match q.packet.attr name with
  | .ok v => (s, .ok v)
  | .error _ =>
    if name ∈ own then (s, .error .attribute)
    else
      match h.derive name s with
      | (s1, .error e) => (s1, .error e)
      | (s1, .ok _) =>
        match keyDict q.packet q.key [] with
        | .error e => (s1, .error e)
        | .ok kd =>
          match compoundPacket h kd s1 with
          | (s2, .error e) => (s2, .error e)
          | (s2, .ok p) => (s2, p.attr name)

/-! ## Several keys -/

/-- `find_key` (StarFile.nw 2288-2292): the first of the equivalent keys, and then the key itself, that the block has. -/
def findKey (h : Host σ) (s : σ) (key : Str) : Option Str :=
  ((match dget h.equivs key with | some l => l | none => []) ++ [key]).find? (h.block s).contains

/-- `dict([(t,keydict[k]) for t,k in zip(true_keys,one_set)])` (StarFile.nw 2297). -/
def trueDict (kd : Dict Str (PyVal × Bool)) : List (Str × Str) → Dict Str (PyVal × Bool) → Except PyErr (Dict Str (PyVal × Bool))
  | [], acc => .ok acc
  | (t, k) :: r, acc =>
    match dget kd k with
    | none => .error .key
    | some v => trueDict kd r (dset acc t v)

/-- The loop over the keys of the categories (StarFile.nw 2293-2307), with the names used for the last of them. -/
def gatherMulti (h : Host σ) (kd : Dict Str (PyVal × Bool)) : List (List PyVal) → Packet → Option (List Str) → σ →
    σ × Except PyErr (Packet × Option (List Str))
  | [], p, last, s => (s, .ok (p, last))
  | set :: r, p, _, s =>
    match mapE asText set with
    | .error e => (s, .error e)
    | .ok names =>
      let found := names.filterMap (findKey h s)
      if found.length = names.length then
        match trueDict kd (found.zip names) [] with
        | .error e => (s, .error e)
        | .ok td =>
          match compoundPacket h td s with
          | (s1, .error .key) => gatherMulti h kd r p (some found) s1
          | (s1, .error .value) => gatherMulti h kd r p (some found) s1
          | (s1, .error e) => (s1, .error e)
          | (s1, .ok e) =>
            match mergePacket p e with
            | .error x => (s1, .error x)
            | .ok p' => gatherMulti h kd r p' (some found) s1
      else gatherMulti h kd r p (some found) s

/-- `GetMultiKeyedSemanticPacket` (StarFile.nw 2264-2312). The equivalents of the keys that are put into `keydict` at the start (2280-2283)
are tuples of names, which are never looked up: that part has no effect but for the caller's dictionary, which is not modelled. -/
def multiSemantic (h : Host σ) (kd : Dict Str (PyVal × Bool)) (cat : Str) (s : σ) : σ × Except PyErr SemPacket :=
  match dget h.keys cat with
  | none => (s, .error .key)
  | some sets =>
    match gatherMulti h kd sets {} none s with
    | (s1, .error e) => (s1, .error e)
    | (s1, .ok (_, none)) => (s1, .error .unbound)
    | (s1, .ok (p, some keys)) => (s1, .ok { packet := p, key := keys })

/-- Reading and deriving as in `Model/Derive.lean`, with calls nested at most `n` times. -/
def ofEngine (E : Derive.Engine) (n : Nat) (keys : Dict Str (List (List PyVal))) (equivs : Dict Str (List Str)) : Host Derive.St where
  block := Derive.St.block
  read := fun k s => match Derive.getItem E (Derive.derive E n) k s with
    | some r => r
    | none => (s, .error .depth)
  derive := fun k s => match Derive.derive E n k true none s with
    | some r => r
    | none => (s, .error .depth)
  dic := E.dic
  keys := keys
  equivs := equivs

end Verif.SemPacket
