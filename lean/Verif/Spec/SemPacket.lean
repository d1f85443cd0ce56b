import Verif.Model.SemPacket
import Verif.Spec.Block
/-! Specification vocabulary for packets of categories. -/
namespace Verif.SemPacket
open Block
variable [CaseFold] {σ : Type}

/-- In this state the block has a loop with these names; reading them gives these columns, of one length, and changes nothing. -/
structure Table (h : Host σ) (s : σ) (names : List Str) (cols : Str → List PyVal) (len : Nat) : Prop where
  reach : (h.block s).Reachable
  loop : ∃ n, dget (h.block s).loops n = some names
  read : ∀ d ∈ names, h.read d s = (s, .ok (.list (cols d)))
  length : ∀ d ∈ names, (cols d).length = len

/-- The item is in no loop. -/
def Unlooped (h : Host σ) (s : σ) (k : Str) : Prop := ∀ e ∈ (h.block s).loops, lower k ∉ e.2

/-- Equal key values: exactly, or for texts without regard to case. -/
def Same (nc : Bool) (x y : PyVal) : Prop :=
  (nc = false ∧ x = y) ∨ (nc = true ∧ ∃ s t, x = .str s ∧ y = .str t ∧ lower s = lower t)

/-- Values are compared without regard to case only if they are texts. -/
def Comparable (nc : Bool) (col : List PyVal) (v : PyVal) : Prop := nc = true → ∀ x ∈ v :: col, ∃ t, x = .str t

/-- Row `i` of a table: names and values. -/
def IsRow (names : List Str) (cols : Str → List PyVal) (i : Nat) (row : List (Str × PyVal)) : Prop :=
  row.map (·.1) = names ∧ ∀ d x, (d, x) ∈ row → (cols d)[i]? = some x

/-- The loop of `k` has exactly one row with this key value, which is `row`. -/
def TheRow (h : Host σ) (s : σ) (k : Str) (v : PyVal) (nc : Bool) (row : List (Str × PyVal)) : Prop :=
  ∃ names cols len i, Table h s names cols len ∧ lower k ∈ names ∧ Comparable nc (cols (lower k)) v ∧
    (∃ x, (cols (lower k))[i]? = some x ∧ Same nc x v) ∧ (∀ (j : Nat) x, (cols (lower k))[j]? = some x → Same nc x v → j = i) ∧
    IsRow names cols i row

/-- The loop of `k` has no row with this key value, or several. -/
def NotOneRow (h : Host σ) (s : σ) (k : Str) (v : PyVal) (nc : Bool) : Prop :=
  ∃ names cols len, Table h s names cols len ∧ lower k ∈ names ∧ Comparable nc (cols (lower k)) v ∧
    ¬ ∃ i : Nat, (∃ x, (cols (lower k))[i]? = some x ∧ Same nc x v) ∧ ∀ (j : Nat) x, (cols (lower k))[j]? = some x → Same nc x v → j = i

/-- A key that can be used: no `None`, and no list that is empty or has a `None`. -/
def Usable (v : PyVal) : Prop := v ≠ .none ∧ ∀ l, v = .list l ∨ v = .slist l → l ≠ [] ∧ PyVal.none ∉ l

/-- The rows with this key value of the loops of the keys, one after another. A key that is in no loop is read, by which it may be
derived and the state changed; if it cannot be read, or is not in a loop then, it counts for nothing. -/
inductive Rows (h : Host σ) (v : PyVal) (nc : Bool) : List Str → σ → List (List (Str × PyVal)) → σ → Prop
  | done {s} : Rows h v nc [] s [] s
  | row {k ks s row rows s'} : TheRow h s k v nc row → Rows h v nc ks s rows s' → Rows h v nc (k :: ks) s (row :: rows) s'
  | skip {k ks s rows s'} : NotOneRow h s k v nc → Rows h v nc ks s rows s' → Rows h v nc (k :: ks) s rows s'
  | lost {k ks s s1 e rows s'} : Unlooped h s k → h.read k s = (s1, .error e) → Rows h v nc ks s1 rows s' → Rows h v nc (k :: ks) s rows s'
  | made {k ks s s1 t row rows s'} : Unlooped h s k → h.read k s = (s1, .ok t) → Usable t → TheRow h s1 k v nc row →
      Rows h v nc ks s1 rows s' → Rows h v nc (k :: ks) s (row :: rows) s'
  | idle {k ks s s1 t rows s'} : Unlooped h s k → h.read k s = (s1, .ok t) → Usable t → Unlooped h s1 k ∨ NotOneRow h s1 k v nc →
      Rows h v nc ks s1 rows s' → Rows h v nc (k :: ks) s rows s'

/-- A data name: an underscore and something that does not begin with another one. -/
def PlainName (d : Str) : Prop := ∃ c t, d = '_' :: c :: t ∧ c ≠ '_'

/-- The value of a name in the last of the rows that have it. -/
def Latest (rows : List (List (Str × PyVal))) (d : Str) (x : PyVal) : Prop :=
  ∃ pre row post, rows = pre ++ row :: post ∧ (d, x) ∈ row ∧ ∀ r ∈ post, d ∉ r.map (·.1)

/-- `k` is the first of the keys that is a name of one of the rows. -/
def FirstPresent (keys : List Str) (rows : List (List (Str × PyVal))) (k : Str) : Prop :=
  ∃ pre post, keys = pre ++ k :: post ∧ (∃ r ∈ rows, lower k ∈ r.map (·.1)) ∧ ∀ k' ∈ pre, ∀ r ∈ rows, lower k' ∉ r.map (·.1)

/-- How a value is written: texts as they are, numbers by their digits. -/
inductive Written : PyVal → Str → Prop
  | str (s : Str) : Written (.str s) s
  | num (s : Str) : Written (.num s) s

/-- Equal key values when several keys are given: exactly, or, as they are written, without regard to case. -/
def SameText (nc : Bool) (x y : PyVal) : Prop :=
  (nc = false ∧ x = y) ∨ (nc = true ∧ ∃ s t, Written x s ∧ Written y t ∧ lower s = lower t)

/-- The row has these values of the keys. -/
def Hit (cols : Str → List PyVal) (kd : List (Str × PyVal × Bool)) (i : Nat) : Prop :=
  ∀ e ∈ kd, ∃ x, (cols (lower e.1))[i]? = some x ∧ SameText e.2.2 x e.2.1

/-- A loop with all these keys, whose values can be compared. -/
structure KeyedTable (h : Host σ) (s : σ) (kd : List (Str × PyVal × Bool)) (names : List Str) (cols : Str → List PyVal) (len : Nat) : Prop where
  table : Table h s names cols len
  some_key : kd ≠ []
  keys : ∀ e ∈ kd, lower e.1 ∈ names
  written : ∀ e ∈ kd, e.2.2 = true → ∀ x ∈ e.2.1 :: cols (lower e.1), ∃ t, Written x t

/-- `t` is what the block has for key `k`: the first of the keys it can be replaced by that is there, or else the key itself. -/
def StandsFor (h : Host σ) (s : σ) (k t : Str) : Prop :=
  ∃ pre post, ((∃ l, dget h.equivs k = some l ∧ l ++ [k] = pre ++ t :: post) ∨ (k ∉ dkeys h.equivs ∧ [k] = pre ++ t :: post)) ∧
    (h.block s).contains t = true ∧ ∀ x ∈ pre, (h.block s).contains x = false

/-- The type of contents makes key values be compared without regard to case. -/
def Caseless (contents : PyVal) : Prop := contents = .str "Code".toList ∨ contents = .str "Name".toList ∨ contents = .str "Tag".toList

end Verif.SemPacket
