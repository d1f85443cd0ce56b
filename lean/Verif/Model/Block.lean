import Verif.Model.Value
/-! # StarBlock and LoopBlock

Models `/repo/src/StarFile.nw` lines 1221-1398 and 1461-2379 for a block without an attached dictionary.
A method that changes the block is a function `Block → ... → Block × Except PyErr α`: it returns the state
of the block when it returned or raised, and the result or exception. -/
namespace Verif

/-- ASCII lower-casing of one character. -/
def asciiLowerChar (c : Char) : Char :=
  if 'A' ≤ c ∧ c ≤ 'Z' then Char.ofNat (c.toNat + 32) else c

/-- ASCII lower-casing. -/
def asciiLower (s : Str) : Str := s.map asciiLowerChar

/-- Python `str.lower()`. Only three facts are used: it is idempotent, a `+` appended to a lower-case
name leaves it lower-case, and on ASCII text it changes the capital letters only. -/
class CaseFold where
  lower : Str → Str
  lower_lower : ∀ s, lower (lower s) = lower s
  lower_plus : ∀ s, lower s = s → lower (s ++ ['+']) = s ++ ['+']
  lower_ascii : ∀ s, (∀ c ∈ s, c.toNat < 128) → lower s = asciiLower s

export CaseFold (lower)

theorem asciiLowerChar_idem (c : Char) : asciiLowerChar (asciiLowerChar c) = asciiLowerChar c := by
  unfold asciiLowerChar
  split
  · rename_i h
    have h1 : 65 ≤ c.toNat := h.1
    have h2 : c.toNat ≤ 90 := h.2
    have : (Char.ofNat (c.toNat + 32)).toNat = c.toNat + 32 := by
      have hv : (c.toNat + 32).isValidChar := by left; omega
      have key : ∀ n : Nat, n.isValidChar → (Char.ofNat n).toNat = n := by
        intro n hn
        simp [Char.ofNat, hn, Char.ofNatAux, Char.toNat]
      exact key _ hv
    rw [if_neg]
    rintro ⟨_, h4⟩
    have h4' : (Char.ofNat (c.toNat + 32)).toNat ≤ 90 := h4
    omega
  · rfl

/-- The ASCII instance, used for concrete examples. -/
@[reducible] def asciiFold : CaseFold where
  lower := asciiLower
  lower_lower s := by
    simp only [asciiLower, List.map_map]
    apply List.map_congr_left
    intro c _
    exact asciiLowerChar_idem c
  lower_plus s h := by
    simp only [asciiLower] at h ⊢
    rw [List.map_append, h]
    rfl
  lower_ascii _ _ := rfl

/-- An entry of `item_order`: a data name or the number of a loop. -/
inductive Ref where
  | name (s : Str)
  | loop (n : Nat)
  deriving DecidableEq, Repr

/-- `StarBlock` (StarFile.nw 1461-1489). `maxName` is `none` for a non-positive `maxnamelength`. -/
structure Block where
  block : Dict Str (PyVal × PyVal) := []
  loops : Dict Nat (List Str) := []
  order : List Ref := []
  trueCase : Dict Str Str := []
  overwrite : Bool := true
  maxName : Option Nat := none
  unicode : Bool := false
  deriving DecidableEq, Repr

namespace Block
variable [CaseFold]

/-- `keys` (StarFile.nw 1603). -/
def keys (b : Block) : List Str := dkeys b.block

/-- `__contains__` (StarFile.nw 1612). -/
def contains (b : Block) (key : Str) : Bool := decide (lower key ∈ b.keys)

/-- `FindLoop` (StarFile.nw 2135-2143); `none` is `-1`. -/
def findLoop (b : Block) (key : Str) : Option Nat :=
  (b.loops.find? fun p => decide (lower key ∈ p.2)).map (·.1)

/-- The names in loop `n`; `none` is a `KeyError`. -/
def loopNames (b : Block) (n : Nat) : Option (List Str) := dget b.loops n

/-- `GetFullItemValue` (StarFile.nw 1977-1997): the value and whether it is ready for calculation. -/
def getFullItemValue (b : Block) (key : Str) : Except PyErr (PyVal × Bool) :=
  match dget b.block (lower key) with
  | none => .error .key
  | some (s, v) =>
    match s with
    | .list _ =>
      if notNone s then .ok (s, false)
      else match v with
        | .list [] => .ok (v, true)
        | .list (x :: _) => .ok (v, !x.isStarList)
        | .slist [] => .ok (v, true)
        | .slist (x :: _) => .ok (v, !x.isStarList)
        | .none => .error .type
        | .num _ => .error .type
        | .str _ => .ok (v, true)
        | .sdict _ => .ok (v, true)
    | _ => if notNone s then .ok (s, false) else .ok (v, !v.isStarList)

/-- The reserved key refused by `__setitem__` and `__getitem__` (StarFile.nw 1527, 1533). -/
def saves : Str := "saves".toList

/-- `__getitem__` without a dictionary (StarFile.nw 1532-1555). -/
def getItem (b : Block) (key : Str) : Except PyErr PyVal :=
  if key = saves then .error .star
  else match b.getFullItemValue key with
    | .error e => .error e
    | .ok (v, _) => .ok v

/-- The checking half of `AddItem` (StarFile.nw 1725-1740): the pair to be stored. -/
def addItemCheck (b : Block) (key : Str) (value : PyVal) (precheck : Bool) : Except PyErr (PyVal × PyVal) :=
  match (if precheck then .ok () else checkDataName b.unicode b.maxName key) with
  | .error e => .error e
  | .ok () =>
    if b.contains key && !b.overwrite then .error .star
    else if precheck then .ok (value, .none)
    else match regularise value with
      | .error e => .error e
      | .ok (regval, emptyVal) =>
        if checkItemValue b.unicode regval then
          if checkStringiness regval then .ok (regval, emptyVal) else .ok (emptyVal, regval)
        else .error .star

/-- The storing half of `AddItem` (StarFile.nw 1742-1754). -/
def store (b : Block) (key : Str) (sv : PyVal × PyVal) : Block :=
  let k := lower key
  { b with
    order := if !b.contains k && (b.findLoop k).isNone then b.order ++ [.name k] else b.order
    trueCase := ddel b.trueCase k ++ [(k, key)]
    block := dset b.block k sv }

/-- `AddItem` (StarFile.nw 1719-1754). -/
def addItem (b : Block) (key : Str) (value : PyVal) (precheck : Bool := false) : Block × Except PyErr Unit :=
  match b.addItemCheck key value precheck with
  | .error e => (b, .error e)
  | .ok sv => (b.store key sv, .ok ())

/-- `__setitem__` (StarFile.nw 1526-1530). -/
def setItem (b : Block) (key : Str) (value : PyVal) : Block × Except PyErr Unit :=
  if key = saves then (b, .error .star) else b.addItem key value

/-- Remove a name from every loop (StarFile.nw 2052, 2108). -/
def dropFromLoops (loops : Dict Nat (List Str)) (names : List Str) : Dict Nat (List Str) :=
  loops.map fun p => (p.1, names.foldl (fun l n => pyErase l n) p.2)

/-- `RemoveItem` (StarFile.nw 1932-1947). -/
def removeItem (b : Block) (itemname : Str) : Block × Except PyErr Unit :=
  let loopNo := b.findLoop itemname
  let k := lower itemname
  if b.contains k then
    let b1 := { b with block := ddel b.block k }
    if k ∉ dkeys b.trueCase then (b1, .error .key)
    else
      let b2 := { b1 with trueCase := ddel b.trueCase k }
      match loopNo with
      | some n =>
        match dget b.loops n with
        | none => (b2, .error .key)
        | some l =>
          match pyRemove l k with
          | none => (b2, .error .value)
          | some l' =>
            if l' = [] then
              let b3 := { b2 with loops := ddel b.loops n }
              match pyRemove b.order (.loop n) with
              | none => (b3, .error .value)
              | some o => ({ b3 with order := o }, .ok ())
            else ({ b2 with loops := dset b.loops n l' }, .ok ())
      | none =>
        match pyRemove b.order (.name k) with
        | none => (b2, .error .value)
        | some o => ({ b2 with order := o }, .ok ())
  else (b, .ok ())

/-- The loop `for d in datanames: self[d] = [self[d]]` of `CreateLoop` (StarFile.nw 2047-2048). -/
def wrapAll (b : Block) : List Str → Block × Except PyErr Unit
  | [] => (b, .ok ())
  | d :: ds =>
    match b.getItem d with
    | .error e => (b, .error e)
    | .ok v =>
      match b.setItem d (.list [v]) with
      | (b', .error e) => (b', .error e)
      | (b', .ok ()) => wrapAll b' ds

/-- All values of the named items, failing at the first missing one. -/
def getAll (b : Block) : List Str → Except PyErr (List PyVal)
  | [] => .ok []
  | d :: ds =>
    match b.getItem d with
    | .error e => .error e
    | .ok v => match getAll b ds with
      | .error e => .error e
      | .ok vs => .ok (v :: vs)

/-- Length of a loop column. -/
def colLen : PyVal → Nat
  | .list l => l.length
  | _ => 0

/-- The length check of `CreateLoop` (StarFile.nw 2037-2048). -/
def createLoopCheck (b : Block) (datanames : List Str) : Block × Except PyErr Unit :=
  match b.getAll datanames with
  | .error e => (b, .error e)
  | .ok vs =>
    let listed := vs.filter PyVal.isColumn
    if listed.length = datanames.length then
      -- `len(set(lengths)) > 1`
      if (vs.map colLen).any (fun n => (vs.map colLen).any (fun m => m ≠ n)) then (b, .error .value)
      else (b, .ok ())
    else if listed.length ≠ 0 then (b, .error .value)
    else b.wrapAll datanames

/-- Delete the loops that have become empty (StarFile.nw 2054-2057). -/
def dropEmpty (b : Block) : List Nat → Block × Except PyErr Unit
  | [] => (b, .ok ())
  | a :: r =>
    match pyRemove b.order (.loop a) with
    | none => (b, .error .value)
    | some o => dropEmpty { b with order := o, loops := ddel b.loops a } r

/-- The number for a new loop (StarFile.nw 2058-2061). -/
def newLoopNo (loops : Dict Nat (List Str)) : Nat :=
  match dkeys loops with
  | [] => 1
  | l => l.foldl max 0 + 1

/-- The part of `CreateLoop` after the length check (StarFile.nw 2050-2068). -/
def makeLoop (b : Block) (datanames : List Str) (order : Int) : Block × Except PyErr Unit :=
  let lc := datanames.map lower
  let b1 := { b with loops := dropFromLoops b.loops lc }
  match b1.dropEmpty ((b1.loops.filter fun p => p.2.length = 0).map (·.1)) with
  | (b2, .error e) => (b2, .error e)
  | (b2, .ok ()) =>
    let n := newLoopNo b2.loops
    let o := if 0 ≤ order then pyInsert b2.order order (.loop n) else b2.order ++ [.loop n]
    ({ b2 with
       loops := dset b2.loops n lc
       order := o.filter fun r => match r with | .name s => decide (s ∉ lc) | .loop _ => true }, .ok ())

/-- `CreateLoop` (StarFile.nw 2029-2068). -/
def createLoop (b : Block) (datanames : List Str) (order : Int := -1) (lengthCheck : Bool := true) :
    Block × Except PyErr Unit :=
  if lengthCheck then
    match b.createLoopCheck datanames with
    | (b', .error e) => (b', .error e)
    | (b', .ok ()) => b'.makeLoop datanames order
  else b.makeLoop datanames order

/-- `AddLoopName` (StarFile.nw 2089-2115). -/
def addLoopName (b : Block) (oldname newname : Str) : Block × Except PyErr Unit :=
  let k := lower newname
  match b.findLoop oldname with
  | none => (b, .error .key)
  | some n =>
    match dget b.loops n with
    | none => (b, .error .key)
    | some l =>
      if k ∈ l then (b, .ok ())
      else
        match b.getItem oldname with
        | .error e => (b, .error e)
        | .ok ov => match ov.pyLen with
          | .error e => (b, .error e)
          | .ok len =>
            match b.getItem newname with
            | .error e => (b, .error e)
            | .ok nv => match nv.pyLen with
              | .error e => (b, .error e)
              | .ok len' =>
                if len' ≠ len then (b, .error .length)
                else
                  ({ b with
                     loops := dset (dropFromLoops b.loops [k]) n (l ++ [k])
                     order := pyErase b.order (.name k) }, .ok ())

/-- `ChangeItemOrder` (StarFile.nw 1684-1697). With a loop number `FindLoop` calls `.lower()` on an
integer: `AttributeError` as soon as there is a loop. -/
def changeItemOrder (b : Block) (item : Ref) (newpos : Int) : Block × Except PyErr Unit :=
  match item with
  | .loop n =>
    if b.loops ≠ [] then (b, .error .attribute)
    else match pyRemove b.order (.loop n) with
      | none => (b, .error .value)
      | some o => ({ b with order := pyInsert o newpos (.loop n) }, .ok ())
  | .name s =>
    let k := lower s
    match b.findLoop k with
    | none =>
      match pyRemove b.order (.name k) with
      | none => (b, .error .value)
      | some o => ({ b with order := pyInsert o newpos (.name k) }, .ok ())
    | some n =>
      match dget b.loops n with
      | none => (b, .error .key)
      | some l =>
        match pyRemove l k with
        | none => (b, .error .value)
        | some l' => ({ b with loops := dset b.loops n (pyInsert l' newpos k) }, .ok ())

/-- `GetItemPosition` (StarFile.nw 1662-1678): loop (`none` for top level) and place. -/
def getItemPosition (b : Block) (item : Ref) : Except PyErr (Option Nat × Nat) :=
  match item with
  | .loop n => if Ref.loop n ∈ b.order then .ok (none, b.order.idxOf (Ref.loop n)) else .error .value
  | .name s =>
    if b.contains s then
      let k := lower s
      if Ref.name k ∈ b.order then .ok (none, b.order.idxOf (Ref.name k))
      else match b.findLoop k with
        | none => .error .key
        | some n => match dget b.loops n with
          | none => .error .key
          | some l => if k ∈ l then .ok (some n, l.idxOf k) else .error .value
    else .error .value

/-- `GetItemOrder` (StarFile.nw 1700-1703). -/
def getItemOrder (b : Block) : List Ref := b.order

/-- `clear` (StarFile.nw 1637-1641). -/
def clear (b : Block) : Block := { b with block := [], loops := [], order := [], trueCase := [] }

/-- `update` (StarFile.nw 1654-1656). -/
def update (b : Block) : List (Str × PyVal) → Block × Except PyErr Unit
  | [] => (b, .ok ())
  | (k, v) :: r =>
    match b.addItem k v with
    | (b', .error e) => (b', .error e)
    | (b', .ok ()) => update b' r

/-- The second half of `AddToLoop`. -/
def addLoopNames (b : Block) (dataname : Str) : List Str → Block × Except PyErr Unit
  | [] => (b, .ok ())
  | n :: r =>
    match b.addLoopName dataname n with
    | (b', .error e) => (b', .error e)
    | (b', .ok ()) => addLoopNames b' dataname r

/-- `AddToLoop` (StarFile.nw 2166-2174). -/
def addToLoop (b : Block) (dataname : Str) (loopdata : List (Str × PyVal)) : Block × Except PyErr Unit :=
  match b.update loopdata with
  | (b', .error e) => (b', .error e)
  | (b', .ok ()) => b'.addLoopNames dataname (loopdata.map (·.1))

/-- `setmaxnamelength` (StarFile.nw 1491-1497). -/
def setMaxNameLength (b : Block) (m : Option Nat) : Block × Except PyErr Unit :=
  let b' := { b with maxName := m }
  match m with
  | none => (b', .ok ())
  | some n => if b'.keys.any (fun k => decide (k.length > n)) then (b', .error .star) else (b', .ok ())

/-! ## Packets -/

/-- `StarPacket` (StarFile.nw 1305-1329): the values and the attributes set on it. -/
structure Packet where
  vals : List PyVal := []
  attrs : Dict Str PyVal := []
  deriving DecidableEq, Repr

/-- Attribute access on a packet without dictionary (StarFile.nw 1313-1318): the exact name, then the
lower-case name. -/
def Packet.attr (p : Packet) (name : Str) : Except PyErr PyVal :=
  match dget p.attrs name with
  | some v => .ok v
  | none => match dget p.attrs (lower name) with
    | some v => .ok v
    | none => .error .attribute

/-- The elements a value yields when iterated over (`zip(*...)`, StarFile.nw 1273): strings yield
their characters, dictionaries their keys. -/
def pyIter : PyVal → Except PyErr (List PyVal)
  | .none => .error .type
  | .num _ => .error .type
  | .str s => .ok (s.map fun c => .str [c])
  | .slist l => .ok l
  | .sdict d => .ok (d.map fun p => .str p.1)
  | .list l => .ok l

/-- `zip(*columns)`: rows until the shortest column is exhausted. -/
def zipRows : Nat → List (List PyVal) → List (List PyVal)
  | 0, _ => []
  | n + 1, cols =>
    if cols = [] ∨ cols.any (·.isEmpty) then []
    else cols.filterMap List.head? :: zipRows n (cols.map List.tail)

/-- Length of the longest column, enough fuel for `zipRows`. -/
def maxLen (cols : List (List PyVal)) : Nat := (cols.map List.length).foldl max 0

/-- Set attributes `names` to the values of a row (StarFile.nw 1276-1278). -/
def mkPacket (names : List Str) (row : List PyVal) : Packet :=
  { vals := row, attrs := (names.zip row).foldl (fun d p => dset d (lower p.1) p.2) [] }

/-- `LoopBlock.__init__` (StarFile.nw 1237-1241): the number of the loop. -/
def getLoop (b : Block) (key : Str) : Except PyErr Nat :=
  match b.findLoop key with
  | some n => .ok n
  | none => .error .key

/-- All columns of a loop as lists, the first error stopping. -/
def getColumns (b : Block) : List Str → Except PyErr (List (List PyVal))
  | [] => .ok []
  | d :: ds =>
    match b.getItem d with
    | .error e => .error e
    | .ok v => match getColumns b ds with
      | .error e => .error e
      | .ok cs => match pyIter v with
        | .error e => .error e
        | .ok l => .ok (l :: cs)

/-- `LoopBlock.__iter__` (StarFile.nw 1272-1279): all packets of loop `n`. -/
def packets (b : Block) (n : Nat) : Except PyErr (List Packet) :=
  match dget b.loops n with
  | none => .error .key
  | some names =>
    match b.getColumns names with
    | .error e => .error e
    | .ok cols => .ok ((zipRows (maxLen cols) cols).map (mkPacket names))

/-- `v[index]` for a stored value. -/
def pyItem : PyVal → Int → Except PyErr PyVal
  | .none, _ => .error .type
  | .num _, _ => .error .type
  | .sdict _, _ => .error .key
  | .str s, i => match pyIndex s i with | some c => .ok (.str [c]) | none => .error .index
  | .slist l, i => match pyIndex l i with | some c => .ok c | none => .error .index
  | .list l, i => match pyIndex l i with | some c => .ok c | none => .error .index

/-- `LoopBlock.GetPacket` (StarFile.nw 1334-1339). -/
def getPacketFrom (b : Block) (index : Int) : List Str → Packet → Except PyErr Packet
  | [], p => .ok p
  | d :: ds, p =>
    match b.getItem d with
    | .error e => .error e
    | .ok v => match pyItem v index with
      | .error e => .error e
      | .ok x => getPacketFrom b index ds { vals := p.vals ++ [x], attrs := dset p.attrs d x }

/-- `LoopBlock.GetPacket` (StarFile.nw 1334-1339). -/
def getPacket (b : Block) (n : Nat) (index : Int) : Except PyErr Packet :=
  match dget b.loops n with
  | none => .error .key
  | some names => b.getPacketFrom index names {}

/-- `.lower()` of a value: only strings have it. -/
def valLower : PyVal → Except PyErr PyVal
  | .str s => .ok (.str (lower s))
  | _ => .error .attribute

/-- Does the packet have the wanted key value? (StarFile.nw 2197, 2199) -/
def keyMatches (keyname : Str) (keyvalue : PyVal) (noCase : Bool) (p : Packet) : Except PyErr Bool :=
  match p.attr keyname with
  | .error e => .error e
  | .ok v =>
    if noCase then
      match valLower v with
      | .error e => .error e
      | .ok v' => match valLower keyvalue with
        | .error e => .error e
        | .ok k' => .ok (decide (v' = k'))
    else .ok (decide (v = keyvalue))

/-- Filter with a test that may raise. -/
def filterE {α : Type} (f : α → Except PyErr Bool) : List α → Except PyErr (List α)
  | [] => .ok []
  | x :: r =>
    match f x with
    | .error e => .error e
    | .ok t => match filterE f r with
      | .error e => .error e
      | .ok r' => .ok (if t then x :: r' else r')

/-- `GetKeyedPacket` (StarFile.nw 2188-2203). -/
def getKeyedPacket (b : Block) (keyname : Str) (keyvalue : PyVal) (noCase : Bool := false) : Except PyErr Packet :=
  match b.getLoop keyname with
  | .error e => .error e
  | .ok n => match b.packets n with
    | .error e => .error e
    | .ok ps => match filterE (keyMatches keyname keyvalue noCase) ps with
      | .error e => .error e
      | .ok [p] => .ok p
      | .ok _ => .error .value

/-- `str(v)` for strings and numbers; other values are compared as themselves. -/
def strOf : PyVal → PyVal
  | .num s => .str s
  | v => v

/-- The test of `GetCompoundKeyedPacket` (StarFile.nw 2217-2221), where caseless comparison converts to
`str` first. -/
def keyMatches2 (keyname : Str) (keyvalue : PyVal) (noCase : Bool) (p : Packet) : Except PyErr Bool :=
  match p.attr keyname with
  | .error e => .error e
  | .ok v =>
    if noCase then
      match strOf v, strOf keyvalue with
      | .str a, .str b => .ok (decide (lower a = lower b))
      | a, b => .ok (decide (a = b))
    else .ok (decide (v = keyvalue))

/-- The `for` loop of `GetCompoundKeyedPacket` (StarFile.nw 2216-2221). -/
def filterKeys (ps : List Packet) : List (Str × PyVal × Bool) → Except PyErr (List Packet)
  | [] => .ok ps
  | (k, v, nc) :: r =>
    match filterE (keyMatches2 k v nc) ps with
    | .error e => .error e
    | .ok ps' => filterKeys ps' r

/-- `GetCompoundKeyedPacket` (StarFile.nw 2209-2225). -/
def getCompoundKeyedPacket (b : Block) (keydict : List (Str × PyVal × Bool)) : Except PyErr Packet :=
  match keydict with
  | [] => .error .index
  | (k, _, _) :: _ =>
    match b.getLoop k with
    | .error e => .error e
    | .ok n => match b.packets n with
      | .error e => .error e
      | .ok ps => match filterKeys ps keydict with
        | .error e => .error e
        | .ok [p] => .ok p
        | .ok _ => .error .value

/-- `list(x)` followed by `del x[i]` for a non-negative index (StarFile.nw 2376-2379). -/
def delAt (v : PyVal) (i : Nat) : Except PyErr PyVal :=
  match pyIter v with
  | .error e => .error e
  | .ok l => if i < l.length then .ok (.list (l.eraseIdx i)) else .error .index

/-- `list(x)` as the state left behind when `del` fails. -/
def listed (v : PyVal) : PyVal :=
  match pyIter v with
  | .error _ => v
  | .ok l => .list l

/-- The loop over the data names in `RemoveKeyedPacket` (StarFile.nw 2375-2379). -/
def removeRow (b : Block) (i : Nat) : List Str → Block × Except PyErr Unit
  | [] => (b, .ok ())
  | d :: ds =>
    match dget b.block d with
    | none => (b, .error .key)
    | some (s, v) =>
      match delAt s i with
      | .error e => ({ b with block := dset b.block d (listed s, v) }, .error e)
      | .ok s' =>
        match delAt v i with
        | .error e => ({ b with block := dset b.block d (s', listed v) }, .error e)
        | .ok v' => removeRow { b with block := dset b.block d (s', v') } i ds

/-- `RemoveKeyedPacket` (StarFile.nw 2369-2379). -/
def removeKeyedPacket (b : Block) (keyname : Str) (keyvalue : PyVal) : Block × Except PyErr Unit :=
  match b.getItem keyname with
  | .error e => (b, .error e)
  | .ok col =>
    match pyIter col with
    | .error e => (b, .error e)
    | .ok l =>
      if keyvalue ∈ l then
        match b.findLoop keyname with
        | none => (b, .error .key)
        | some n =>
          match dget b.loops n with
          | none => (b, .error .key)
          | some names => b.removeRow (l.idxOf keyvalue) names
      else (b, .error .value)

/-- Append in place to the list object returned by `self[name]`: it is the stored object, so the block
changes even if the following `AddItem` fails (StarFile.nw 1348-1349). -/
def appendInPlace (b : Block) (name : Str) (x : PyVal) : Block × Except PyErr PyVal :=
  match dget b.block (lower name) with
  | none => (b, .error .key)
  | some (s, v) =>
    match b.getItem name with
    | .error e => (b, .error e)
    | .ok (.list l) =>
      let l' := PyVal.list (l ++ [x])
      -- the list came from the string half exactly if that half has no `None`
      if s.isColumn && notNone s then ({ b with block := dset b.block (lower name) (l', v) }, .ok l')
      else ({ b with block := dset b.block (lower name) (s, l') }, .ok l')
    | .ok (.slist l) =>
      let l' := PyVal.slist (l ++ [x])
      if notNone s then ({ b with block := dset b.block (lower name) (l', v) }, .ok l')
      else ({ b with block := dset b.block (lower name) (s, l') }, .ok l')
    | .ok _ => (b, .error .attribute)

/-- The loop of `LoopBlock.AddPacket` (StarFile.nw 1346-1350). -/
def addPacketFrom (b : Block) (p : Packet) : List Str → Block × Except PyErr Unit
  | [] => (b, .ok ())
  | d :: ds =>
    match b.getItem d with
    | .error e => (b, .error e)
    | .ok _ =>
    match dget p.attrs d with
    | none => (b, .error .attribute)
    | some x =>
      match b.appendInPlace d x with
      | (b1, .error e) => (b1, .error e)
      | (b1, .ok l') =>
        match b1.setItem d l' with
        | (b2, .error e) => (b2, .error e)
        | (b2, .ok ()) => addPacketFrom b2 p ds

/-- `LoopBlock.AddPacket` (StarFile.nw 1346-1350). -/
def addPacket (b : Block) (n : Nat) (p : Packet) : Block × Except PyErr Unit :=
  match dget b.loops n with
  | none => (b, .error .key)
  | some names => b.addPacketFrom p names

/-! ## Merging -/

/-- The key loop of strict merging (StarFile.nw 3134-3138). -/
def mergeStrictKeys (b nb : Block) (matchAtt : List Str) : List Str → Block × Except PyErr Unit
  | [] => (b, .ok ())
  | k :: ks =>
    if k ∈ matchAtt then mergeStrictKeys b nb matchAtt ks
    else if b.contains k then (b, .error .star)
    else match nb.getItem k with
      | .error e => (b, .error e)
      | .ok v => match b.setItem k v with
        | (b', .error e) => (b', .error e)
        | (b', .ok ()) => mergeStrictKeys b' nb matchAtt ks

/-- The key loop of replace merging (StarFile.nw 3152-3154). -/
def mergeReplaceKeys (b nb : Block) : List Str → Block × Except PyErr Unit
  | [] => (b, .ok ())
  | k :: ks =>
    match nb.getItem k with
    | .error e => (b, .error e)
    | .ok v => match b.setItem k v with
      | (b', .error e) => (b', .error e)
      | (b', .ok ()) => mergeReplaceKeys b' nb ks

/-- Copy the loops of the other block (StarFile.nw 3141-3142, 3156-3157). -/
def mergeLoops (b : Block) : List (List Str) → Block × Except PyErr Unit
  | [] => (b, .ok ())
  | l :: ls =>
    match b.createLoop l with
    | (b', .error e) => (b', .error e)
    | (b', .ok ()) => mergeLoops b' ls

/-- Merge modes (StarFile.nw 3133, 3145, 3160). -/
inductive MergeMode where
  | strict | replace | overlay
  deriving DecidableEq, Repr

/-- `StarBlock.merge` (StarFile.nw 3131-3211); overlay mode always raises (3162). -/
def merge (b nb : Block) (mode : MergeMode) (matchAtt : List Str := []) : Block × Except PyErr Unit :=
  match mode with
  | .overlay => (b, .error .star)
  | .strict =>
    match b.mergeStrictKeys nb matchAtt nb.keys with
    | (b1, .error e) => (b1, .error e)
    | (b1, .ok ()) =>
      match b1.mergeLoops (nb.loops.map (·.2)) with
      | (b2, .error e) => (b2, .error e)
      | (b2, .ok ()) => ({ b2 with trueCase := dupdate b2.trueCase nb.trueCase }, .ok ())
  | .replace =>
    match b.mergeReplaceKeys nb nb.keys with
    | (b1, .error e) => (b1, .error e)
    | (b1, .ok ()) =>
      match b1.mergeLoops (nb.loops.map (·.2)) with
      | (b2, .error e) => (b2, .error e)
      | (b2, .ok ()) => ({ b2 with trueCase := dupdate b2.trueCase nb.trueCase }, .ok ())

end Block
end Verif
