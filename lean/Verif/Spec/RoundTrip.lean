import Verif.Spec.Text
import Verif.Spec.Print
import Verif.Spec.Block
/-! # Specification of writing and reading back -/
namespace Verif.RoundTrip
variable [CaseFold]

/-- White space or the end of the text comes next. -/
def WhiteNext (rest : Str) : Prop := ∀ c t, rest = c :: t → c = ' ' ∨ c = '\n'

/-- The rule `data_value` of the grammar, applied to the text `w ++ rest`, gives the value and leaves exactly `rest`. -/
def ReadBack (g : Reader.Gram) (w : Str) (v : PyVal) (rest : Str) : Prop :=
  ∀ fuel, w.length < fuel →
    ∃ p', g.value fuel { scan := { input := w ++ rest } } = .ok (v, p') ∧ p'.scan.input.drop p'.scan.pos = rest

/-- `s` starts with a prefix header: at least two characters on the first line, then one or two backslashes, blanks, a line end. -/
def HasPrefixHeader (s : Str) : Prop :=
  ∃ c p m b r, s = c :: p ++ m ++ b ++ '\n' :: r ∧ c ≠ ';' ∧ p ≠ [] ∧ '\\' ∉ p ∧ '\n' ∉ c :: p ∧ (m = ['\\'] ∨ m = ['\\', '\\']) ∧
    ∀ x ∈ b, isBlank x = true

/-- A text field with a line, after its first one, that starts with a number sign and is followed by a line that is not empty. The
reader takes that line for a comment. -/
def LosesComment (w : Str) : Prop :=
  ∃ a l b, w = a ++ "\n#".toList ++ l ++ '\n' :: b ∧ '\n' ∉ l ∧ b.head? ≠ some '\n' ∧ b.head? ≠ some ';'

/-- The text starts with `stop_`, in any combination of capitals. -/
def StartsStop (s : Str) : Prop := asciiLower (s.take 5) = "stop_".toList

/-- The text field `w` for the text `s` has none of the features that the reader treats in a special way. -/
structure FieldSafe (st : Style) (s w : Str) : Prop where
  noReturn : '\r' ∉ s
  noComment : ¬ LosesComment w
  noFold : ¬ HasFoldHeader s
  noPrefix : ¬ HasPrefixHeader s
  noBlankEnd : (∃ l ∈ splitNl s, st.maxOut < l.length) → ∀ l ∈ splitNl s, ¬ endsMarkBlank l

/-- The representation `w` of the text `s` has none of the features that the reader treats in a special way. -/
structure Safe (st : Style) (s w : Str) : Prop where
  bare : w = s → (∀ c ∈ s, isSpace c = false) ∧ ¬ StartsStop s ∧ asciiLower s ≠ "loop_".toList
  single : w.head? = some '\'' → '\r' ∉ s ∧ '\x0c' ∉ s
  double : w.head? = some '"' → '\r' ∉ s
  field : w.head? = some '\n' → FieldSafe st s w

/-- A text of printable ASCII characters on one line. -/
def Printable (s : Str) : Prop := ∀ c ∈ s, 32 ≤ c.toNat ∧ c.toNat ≤ 126

/-- How Python spells a number. -/
def IsNumber (t : Str) : Prop := t ≠ [] ∧ ∀ c ∈ t, c ∈ "0123456789+-.e".toList

/-- A value that is written so that it can be read: a text whose representations, for every requested delimiter, have none of
the features that the reader treats in a special way, or a number. -/
def WritableValue (st : Style) : PyVal → Prop
  | .str s => ∀ d w, Print.formatString st s d = .ok w → Safe st s w
  | .num t => IsNumber t
  | _ => False

/-- Names of data items: an underscore and further printable characters. -/
def WritableName (n : Str) : Prop := ∃ t, n = '_' :: t ∧ t ≠ [] ∧ ∀ c ∈ t, 33 ≤ c.toNat ∧ c.toNat ≤ 126

/-- Names of data blocks. -/
def WritableHeading (n : Str) : Prop := n ≠ [] ∧ (∀ c ∈ n, 33 ≤ c.toNat ∧ c.toNat ≤ 126) ∧ n.length ≤ 75

/-- Entries that are written so that they can be read. A loop has at least one row. -/
def WritableEntry (st : Style) : Entry → Prop
  | .item n v => WritableName n ∧ WritableValue st v
  | .loop ns vs => (∀ n ∈ ns, WritableName n) ∧ vs ≠ [] ∧ ∀ v ∈ vs, WritableValue st v

/-- A value as it is read: numbers are read as texts. -/
def asRead : PyVal → PyVal
  | .num t => .str t
  | v => v

/-- An entry as it is read. -/
def asReadEntry : Entry → Entry
  | .item n v => .item n (asRead v)
  | .loop ns vs => .loop ns (vs.map asRead)

/-- A block that can be written so that it can be read: its names and values are writable, all columns of a loop have the same number of
values, which is not 0, and there is no loop without names. -/
structure WritableBlock (st : Style) (b : Block) : Prop where
  names : ∀ n ∈ b.keys, ∃ t, dget b.trueCase n = some t ∧ WritableName t
  items : ∀ n ∈ b.keys, b.loopOf n = [] → ∃ v, b.lookup n = some v ∧ WritableValue st v
  loops : ∀ n ∈ b.keys, b.loopOf n ≠ [] → ∃ l, b.lookup n = some (.list l) ∧ l ≠ [] ∧ ∀ v ∈ l, WritableValue st v
  rect : b.Rect
  solid : ∀ n l, dget b.loops n = some l → l ≠ []

/-- Files of the standard `CIF` allow names of at most 75 characters. -/
def FitsStandard (std : Option Str) (b : Block) : Prop := std = some "CIF".toList → ∀ n ∈ b.keys, n.length ≤ 75

/-- A value or column as it is read. -/
def contentRead : PyVal → PyVal
  | .list l => .list (l.map asRead)
  | v => asRead v

/-- The second block holds what the first one holds, as it is read: the same names in the same order and spelling, for every name the
same value, and the same loops. -/
structure SameRead (b rb : Block) : Prop where
  order : rb.printed = b.printed
  spelling : ∀ n ∈ b.printed, dget rb.trueCase n = dget b.trueCase n
  values : ∀ k, rb.lookup k = (b.lookup k).map contentRead
  loops : ∀ k, rb.loopOf k = b.loopOf k

/-- Formatting hints that can be used: no value is to start in column 0, the names are in lower case and not repeated, and the place of
loops is given if loops are mentioned. -/
structure UsableHints (hints : List Hint) : Prop where
  column : ∀ h ∈ hints, h.column ≠ 0
  distinct : (hints.filterMap fun h => if h.dataname = "loop".toList then none else some h.dataname).Nodup
  lowered : ∀ h ∈ hints, h.dataname ≠ "loop".toList → CaseFold.lower h.dataname = h.dataname
  loopPlace : ∀ h ∈ hints, h.dataname = "loop".toList → h.namePos ≠ none

/-- A text of empty lines and comments. -/
def IsHeader (g : Str) : Prop := ∃ lines : List Str, g = lines.flatMap (· ++ ['\n']) ∧ ∀ l ∈ lines, '\n' ∉ l ∧ (l = [] ∨ l.head? = some '#')

end Verif.RoundTrip
