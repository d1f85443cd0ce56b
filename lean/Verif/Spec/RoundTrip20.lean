import Verif.Spec.RoundTrip
/-! # Specification of writing and reading back in CIF 2.0 -/
namespace Verif.RoundTrip
variable [CaseFold]

/-- The representation `w` of the text `s` has none of the features that the reader of 2.0 treats in a special way. -/
structure Safe20 (st : Style) (s w : Str) : Prop where
  bare : w = s → (∀ c ∈ s, isSpace c = false) ∧ ¬ StartsStop s ∧ asciiLower s ≠ "loop_".toList
  single : w = '\'' :: s ++ ['\''] → '\r' ∉ s ∧ '\x0c' ∉ s
  double : w = '"' :: s ++ ['"'] → '\r' ∉ s
  tripleS : w = Verif.tripleS ++ s ++ Verif.tripleS → ¬ Occurs ['\'', '\'', '\''] (s ++ ['\'', '\''])
  tripleD : w = Verif.tripleD ++ s ++ Verif.tripleD → ¬ Occurs ['"', '"', '"'] (s ++ ['"', '"'])
  field : w.head? = some '\n' → FieldSafe st s w

/-- A key of a table that can be written between single quotes. -/
def KeyOk (k : Str) : Prop := '\'' ∉ k ∧ '\n' ∉ k ∧ '\r' ∉ k ∧ '\x0c' ∉ k

/-- A value that is written in 2.0 so that it can be read, when one of the delimiters `ds` is requested: a text with a safe representation,
a number, a list of such values, or a table of such values with different keys. No delimiter is requested for values in lists and tables. -/
inductive Writable20 (st : Style) : List (Option Str) → PyVal → Prop
  | str {ds : List (Option Str)} {s : Str} : (∀ d ∈ ds, ∀ w, Print.formatString st s d = .ok w → Safe20 st s w) → Writable20 st ds (.str s)
  | num {ds : List (Option Str)} {t : Str} : IsNumber t → Writable20 st ds (.num t)
  | slist {ds : List (Option Str)} {l : List PyVal} : (∀ v ∈ l, Writable20 st [none] v) → Writable20 st ds (.slist l)
  | list {ds : List (Option Str)} {l : List PyVal} : (∀ v ∈ l, Writable20 st [none] v) → Writable20 st ds (.list l)
  | sdict {ds : List (Option Str)} {l : List (Str × PyVal)} : (l.map (·.1)).Nodup → (∀ p ∈ l, KeyOk p.1) →
      (∀ p ∈ l, Writable20 st [none] p.2) → Writable20 st ds (.sdict l)

mutual
/-- A value as it is read in 2.0: numbers are read as texts, and lists as `StarList`. -/
def asRead20 : PyVal → PyVal
  | .num t => .str t
  | .list l => .slist (asReads20 l)
  | .slist l => .slist (asReads20 l)
  | .sdict l => .sdict (asReadPairs20 l)
  | .str s => .str s
  | .none => .none
/-- See `asRead20`. -/
def asReads20 : List PyVal → List PyVal
  | [] => []
  | v :: r => asRead20 v :: asReads20 r
/-- See `asRead20`. -/
def asReadPairs20 : List (Str × PyVal) → List (Str × PyVal)
  | [] => []
  | (k, v) :: r => (k, asRead20 v) :: asReadPairs20 r
end

/-- The delimiters that may be requested for a value: none, or one from the hints. -/
def asked (hints : List Hint) : List (Option Str) := none :: hints.map (·.delimiter)

/-- A character of names in 2.0: a visible ASCII character or one from the ranges of other planes that CIF 2.0 allows. -/
def NameChar20 (c : Char) : Prop :=
  (33 ≤ c.toNat ∧ c.toNat ≤ 126) ∨ (0xA0 ≤ c.toNat ∧ c.toNat ≤ 0xD7FF) ∨ (0xE000 ≤ c.toNat ∧ c.toNat ≤ 0xFDCF) ∨
  (0xFDF0 ≤ c.toNat ∧ c.toNat ≤ 0xFFFD) ∨ (0x10000 ≤ c.toNat ∧ c.toNat % 0x10000 ≤ 0xFFFD)

/-- Names of data items in 2.0. -/
def WritableName20 (n : Str) : Prop := ∃ t, n = '_' :: t ∧ t ≠ [] ∧ ∀ c ∈ t, NameChar20 c

/-- Names of data blocks in 2.0. -/
def WritableHeading20 (n : Str) : Prop := n ≠ [] ∧ (∀ c ∈ n, NameChar20 c) ∧ n.length ≤ 75

/-- A block that can be written in 2.0 so that it can be read: its names and values are writable, all columns of a loop have the same number
of values, which is not 0, no column ends in an empty list, and there is no loop without names. -/
structure WritableBlock20 (st : Style) (hints : List Hint) (b : Block) : Prop where
  names : ∀ n ∈ b.keys, ∃ t, dget b.trueCase n = some t ∧ WritableName20 t
  items : ∀ n ∈ b.keys, b.loopOf n = [] → ∃ v, b.lookup n = some v ∧ Writable20 st (asked hints) v
  loops : ∀ n ∈ b.keys, b.loopOf n ≠ [] → ∃ l, b.lookup n = some (.list l) ∧ l ≠ [] ∧ (∀ v ∈ l, Writable20 st (asked hints) v) ∧
    l.getLast? ≠ some (.slist []) ∧ l.getLast? ≠ some (.list [])
  rect : b.Rect
  solid : ∀ n l, dget b.loops n = some l → l ≠ []

/-- The words of the block stand apart wherever the lines end: the name of an item with a table ends before column 80, and a loop with lists
or tables has one column. -/
structure StandsApart (hints : List Hint) (b : Block) : Prop where
  tables : ∀ n ∈ b.keys, b.loopOf n = [] → ∀ d, b.lookup n = some (.sdict d) → ∀ t, dget b.trueCase n = some t →
    t.length < 80 ∧ ∀ h ∈ hints, CaseFold.lower h.dataname = n → ∀ p, h.namePos = some p → p.toNat + t.length < 80
  loops : ∀ n ∈ b.keys, ∀ l, b.lookup n = some (.list l) → 1 < (b.loopOf n).length → ∀ v ∈ l, Print.Simple v

/-- All lines of the text are shorter than 79 characters. -/
def ShortLines (text : Str) : Prop := ∀ l ∈ splitNl text, l.length < 79

/-- Words of the written block do not run together: they stand apart wherever lines end, or all lines are short. -/
def Unglued (st : Style) (hints : List Hint) (b : Block) : Prop :=
  StandsApart hints b ∨ ∀ text, Print.printSection st hints b = .ok text → ShortLines text

/-- The second block holds what the first one holds, as it is read: the same names in the same order and spelling, for every name the
same value, and the same loops. -/
structure SameRead20 (b rb : Block) : Prop where
  order : rb.printed = b.printed
  spelling : ∀ n ∈ b.printed, dget rb.trueCase n = dget b.trueCase n
  items : ∀ k, b.loopOf k = [] → rb.lookup k = (b.lookup k).map asRead20
  columns : ∀ k, b.loopOf k ≠ [] → ∀ l, b.lookup k = some (.list l) → rb.lookup k = some (.list (l.map asRead20))
  loops : ∀ k, rb.loopOf k = b.loopOf k

end Verif.RoundTrip
