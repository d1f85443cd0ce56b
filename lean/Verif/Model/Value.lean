import Verif.Model.Text
import Verif.Model.Dict
/-! # Data values -/
namespace Verif

/-- Data values as held in a block. `num` is any Python number, given by its printed form;
`slist`/`sdict` are `StarList`/`StarDict` (StarFile.nw 1194-1207); `list` is a plain `list` or
`tuple`, i.e. a loop column. Numpy arrays are not modelled. -/
inductive PyVal where
  | none
  | str (s : Str)
  | num (s : Str)
  | slist (l : List PyVal)
  | sdict (d : List (Str × PyVal))
  | list (l : List PyVal)
  deriving Repr

namespace PyVal

mutual
/-- Python `==` on values (structural). -/
def eqb : PyVal → PyVal → Bool
  | .none, .none => true
  | .str a, .str b => decide (a = b)
  | .num a, .num b => decide (a = b)
  | .slist a, .slist b => eqbList a b
  | .sdict a, .sdict b => eqbDict a b
  | .list a, .list b => eqbList a b
  | _, _ => false
/-- Elementwise `==`. -/
def eqbList : List PyVal → List PyVal → Bool
  | [], [] => true
  | a :: r, b :: t => eqb a b && eqbList r t
  | _, _ => false
/-- Entrywise `==`. Python compares dictionaries without regard to order; equality of values is
only used by the model to compare key values, which are strings or numbers. -/
def eqbDict : List (Str × PyVal) → List (Str × PyVal) → Bool
  | [], [] => true
  | (k, a) :: r, (l, b) :: t => decide (k = l) && (eqb a b && eqbDict r t)
  | _, _ => false
end

mutual
theorem eq_of_eqb : ∀ a b : PyVal, eqb a b = true → a = b
  | .none, .none, _ => rfl
  | .str a, .str b, h => by simp [eqb] at h; rw [h]
  | .num a, .num b, h => by simp [eqb] at h; rw [h]
  | .slist a, .slist b, h => by simp [eqb] at h; rw [eq_of_eqbList a b h]
  | .sdict a, .sdict b, h => by simp [eqb] at h; rw [eq_of_eqbDict a b h]
  | .list a, .list b, h => by simp [eqb] at h; rw [eq_of_eqbList a b h]
theorem eq_of_eqbList : ∀ a b : List PyVal, eqbList a b = true → a = b
  | [], [], _ => rfl
  | a :: r, b :: t, h => by
    simp [eqbList] at h; rw [eq_of_eqb a b h.1, eq_of_eqbList r t h.2]
theorem eq_of_eqbDict : ∀ a b : List (Str × PyVal), eqbDict a b = true → a = b
  | [], [], _ => rfl
  | (k, a) :: r, (l, b) :: t, h => by
    simp [eqbDict] at h; rw [h.1, eq_of_eqb a b h.2.1, eq_of_eqbDict r t h.2.2]
end

mutual
theorem eqb_refl : ∀ a : PyVal, eqb a a = true
  | .none => rfl
  | .str a => by simp [eqb]
  | .num a => by simp [eqb]
  | .slist a => by simp [eqb, eqbList_refl a]
  | .sdict a => by simp [eqb, eqbDict_refl a]
  | .list a => by simp [eqb, eqbList_refl a]
theorem eqbList_refl : ∀ a : List PyVal, eqbList a a = true
  | [] => rfl
  | a :: r => by simp [eqbList, eqb_refl a, eqbList_refl r]
theorem eqbDict_refl : ∀ a : List (Str × PyVal), eqbDict a a = true
  | [] => rfl
  | (k, a) :: r => by simp [eqbDict, eqb_refl a, eqbDict_refl r]
end

instance : DecidableEq PyVal := fun a b =>
  if h : eqb a b = true then .isTrue (eq_of_eqb a b h)
  else .isFalse fun e => h (e ▸ eqb_refl a)

/-- `isinstance(v,list) and not isinstance(v,StarList)` (StarFile.nw 2039). -/
def isColumn : PyVal → Bool
  | .list _ => true
  | _ => false

/-- `isinstance(v,StarList)`. -/
def isStarList : PyVal → Bool
  | .slist _ => true
  | _ => false

/-- `len(v)`; `TypeError` for numbers and None. -/
def pyLen : PyVal → Except PyErr Nat
  | .none => .error .type
  | .num _ => .error .type
  | .str s => .ok s.length
  | .slist l => .ok l.length
  | .sdict d => .ok d.length
  | .list l => .ok l.length

end PyVal


mutual
/-- `not_none` (StarFile.nw 3279-3287). -/
def notNone : PyVal → Bool
  | .none => false
  | .slist l => notNoneAll l
  | .list l => notNoneAll l
  | _ => true
/-- The `for` loop of `not_none`. -/
def notNoneAll : List PyVal → Bool
  | [] => true
  | x :: r => notNone x && notNoneAll r
end

mutual
/-- `check_stringiness` (StarFile.nw 1905-1925), without Numpy. Iterating over a dictionary
yields its keys, which are strings. -/
def checkStringiness : PyVal → Bool
  | .none => false
  | .num _ => false
  | .str _ => true
  | .slist l => checkStringinessAll l
  | .sdict _ => true
  | .list l => checkStringinessAll l
/-- The `for` loop of `check_stringiness`. -/
def checkStringinessAll : List PyVal → Bool
  | [] => true
  | x :: r => checkStringiness x && checkStringinessAll r
end

mutual
/-- `regularise_data` (StarFile.nw 1851-1868): the value and the placeholder of the same shape.
An empty list makes `zip(*[])` yield nothing to unpack: `ValueError`. `None` is not
iterable: `StarError`. -/
def regularise : PyVal → Except PyErr (PyVal × PyVal)
  | .none => .error .star
  | .str s => .ok (.str s, .none)
  | .num s => .ok (.num s, .none)
  | .slist l => .ok (.slist l, .none)
  | .sdict d => .ok (.sdict d, .none)
  | .list [] => .error .value
  | .list (x :: r) =>
    match regularise x with
    | .error e => .error e
    | .ok (v, s) =>
      match regulariseAll r with
      | .error e => .error e
      | .ok (vs, ss) => .ok (.list (v :: vs), .list (s :: ss))
/-- The comprehension over the elements in `regularise_data`. -/
def regulariseAll : List PyVal → Except PyErr (List PyVal × List PyVal)
  | [] => .ok ([], [])
  | x :: r =>
    match regularise x with
    | .error e => .error e
    | .ok (v, s) =>
      match regulariseAll r with
      | .error e => .error e
      | .ok (vs, ss) => .ok (v :: vs, s :: ss)
end

/-- The character class of `char_check` (StarFile.nw 1499-1508): all printable ASCII characters,
space, tab, line feed, carriage return, and for `unicode` the listed ranges. -/
def okValueChar (unicode : Bool) (c : Char) : Bool :=
  let n := c.toNat
  (32 ≤ n && n ≤ 126) || n == 10 || n == 13 || n == 9 ||
  (unicode && ((0xA0 ≤ n && n ≤ 0xD7FF) || (0xE000 ≤ n && n ≤ 0xFDCF) || (0xFDF0 ≤ n && n ≤ 0xFFFD) ||
    (0x10000 ≤ n && n ≤ 0x10FFFD)))

/-- `check_one` (StarFile.nw 1828-1838): a string passes when the match of the character class covers
all of it. -/
def checkOne (unicode : Bool) : PyVal → Bool
  | .str s => s.all (okValueChar unicode)
  | _ => true

/-- `check_item_value` (StarFile.nw 1824-1839). Only the top level of lists is looked at, and only
the keys of dictionaries. -/
def checkItemValue (unicode : Bool) (v : PyVal) : Bool :=
  match v with
  | .list l => l.all (checkOne unicode)
  | .slist l => l.all (checkOne unicode)
  | .sdict d => d.all fun p => checkOne unicode (.str p.1)
  | v => checkOne unicode v

/-- The test of `check_name_length` (StarFile.nw 1793-1794, 1818-1820); `none` when no check is requested. -/
def nameTooLong (maxlength : Option Nat) (name : Str) : Bool :=
  match maxlength with
  | some m => decide (name.length > m)
  | none => false

/-- `check_data_name` and `check_name_length` (StarFile.nw 1792-1821). `maxlength` is `none` when no
check is requested (`maxlength <= 0`). An empty name fails at `dataname[0]`.
`ord(a) & 0xE == 0xE` is written with division. -/
def checkDataName (unicode : Bool) (maxlength : Option Nat) (name : Str) : Except PyErr Unit :=
  if nameTooLong maxlength name then .error .star
  else match name with
  | [] => .error .index
  | c :: _ =>
    if c ≠ '_' then .error .star
    else if !unicode then
      if name.any (fun a => a.toNat < 33 || a.toNat > 126) then .error .star else .ok ()
    else if name.any (fun a => a.toNat < 33) then .error .star
    else if name.any (fun a => a.toNat > 126 && a.toNat < 160) then .error .star
    else if name.any (fun a => a.toNat > 0xD7FF && a.toNat < 0xE000) then .error .star
    else if name.any (fun a => a.toNat > 0xFDCF && a.toNat < 0xFDF0) then .error .star
    else if name.any (fun a => a.toNat == 0xFFFE || a.toNat == 0xFFFF) then .error .star
    else if name.any (fun a => a.toNat > 0x10000 && a.toNat / 2 % 8 == 7) then .error .star
    else .ok ()

end Verif
