import Verif.Model.Reader
/-! # Specification of reading

What a sequence of items and loops says, independently of how the parser stores it. -/
namespace Verif

/-- An item or a loop as it stands in a file: a loop has names and a flat list of values. -/
inductive Entry where
  | item (name : Str) (value : PyVal)
  | loop (names : List Str) (values : List PyVal)
  deriving DecidableEq, Repr

namespace Entry
variable [CaseFold]

/-- The data names of an entry. -/
def names : Entry → List Str
  | item n _ => [n]
  | loop ns _ => ns

/-- Column number `i` of `n` columns in a flat list of values that is read row by row. -/
def IsColumn (n i : Nat) (vals col : List PyVal) : Prop := ∀ r, col[r]? = if i < n then vals[r * n + i]? else none

/-- A loop is filled if it has names and its values make up at least one row and whole rows only. -/
def Filled : Entry → Prop
  | item _ _ => True
  | loop ns vals => ns ≠ [] ∧ vals ≠ [] ∧ ns.length ∣ vals.length

/-- Values as a parser delivers them: never `None`, and a column is not a single value. -/
def Plain : Entry → Prop
  | item _ v => notNone v = true
  | loop _ vals => ∀ v ∈ vals, notNone v = true

/-- The entry does not end in an empty list, which `makeloop` throws away. -/
def NoEmptyEnd : Entry → Prop
  | item _ _ => True
  | loop _ vals => vals.getLast? ≠ some (.slist []) ∧ vals.getLast? ≠ some (.list [])

/-- All names of a sequence of entries. -/
def allNames (es : List Entry) : List Str := es.flatMap names

/-- No data name occurs twice, in any combination of capitals. -/
def Distinct (es : List Entry) : Prop := ((allNames es).map lower).Nodup

end Entry

namespace Reader
variable [CaseFold]

/-- Storing an entry, as the rule `data` does (YappsStarParser.nw 365-369, 522-526). -/
def storeEntry (b : Block) : Entry → Block × Except PyErr Unit
  | .item n v => b.addItem n v true
  | .loop ns vals => makeLoop b ns vals

/-- Storing entries one after another, up to the first failure. -/
def storeEntries (b : Block) : List Entry → Block × Except PyErr Unit
  | [] => (b, .ok ())
  | e :: es =>
    match storeEntry b e with
    | (b', .error x) => (b', .error x)
    | (b', .ok ()) => storeEntries b' es

/-- The rule `data` without its effect on the block: the entry that the text contains. -/
def readEntry (g : Gram) (fuel : Nat) (p : PState) : Except PyErr (Entry × PState) :=
  match peek g.lx [.loop, .dataName] p with
  | .error e => .error e
  | .ok (t, p1) =>
    if t = .loop then
      match topLoop g fuel p1 with
      | .error e => .error e
      | .ok ((names, vals), p2) => .ok (.loop names vals, p2)
    else
      match take g.lx .dataName p1 with
      | .error e => .error e
      | .ok (name, p2) =>
        match g.value fuel p2 with
        | .error e => .error e
        | .ok (v, p3) => .ok (.item name v, p3)

/-- The text from `p` to `p'` consists of the given entries, and something that may follow them comes next. -/
inductive Says (g : Gram) : Nat → List Entry → PState → PState → Prop
  | done (fuel : Nat) (t : Tk) (p p1 p2 : PState) : peek g.lx itemFollow p = .ok (t, p1) → t ≠ .loop → t ≠ .dataName →
      afterStar g.lx itemFollow p1 = .ok p2 → Says g (fuel + 1) [] p p2
  | more (fuel : Nat) (t : Tk) (e : Entry) (es : List Entry) (p p1 p2 p3 : PState) : peek g.lx itemFollow p = .ok (t, p1) →
      (t = .loop ∨ t = .dataName) → readEntry g fuel p1 = .ok (e, p2) → Says g fuel es p2 p3 → Says g (fuel + 1) (e :: es) p p3

end Reader
end Verif
