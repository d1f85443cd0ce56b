import Verif.Model.Order
/-! # Printing a block

Models `CIFStringIO` (`/repo/src/StarFile.nw` 2430-2507) and the printing of a block (2567-2778). Not modelled: the `reformat`
hint, which asks for text to be wrapped anew, numpy arrays, messages, and a sink given by the caller. -/
namespace Verif

/-- The state of a `CIFStringIO` (StarFile.nw 2431-2437); `out` is the text written so far, `indents` is `indentlist`, the
innermost level first. -/
structure Sink where
  out : Str := []
  pos : Nat := 0
  width : Nat := 80
  tab : Int := -1
  indent : Nat := 0
  indents : List Nat := []
  last : Option Char := none
  deriving DecidableEq, Repr

/-- The options of `write` (StarFile.nw 2439-2440). -/
structure WriteOpts where
  canbreak : Bool := false
  mustbreak : Bool := false
  doTab : Bool := true
  newindent : Bool := false
  unindent : Bool := false
  delimiter : Bool := false
  startcol : Int := -1

namespace Sink

/-- A line break with the current indentation (StarFile.nw 2448-2451, 2455-2458). -/
def newline (s : Sink) : Sink :=
  { s with
    out := s.out ++ '\n' :: List.replicate s.indent ' '
    pos := s.indent
    last := some (if s.indent = 0 then '\n' else ' ') }

/-- Blanks up to a column that lies ahead (StarFile.nw 2464-2466, 2475-2477). -/
def padTo (s : Sink) (col : Nat) : Sink :=
  { s with out := s.out ++ List.replicate (col - s.pos) ' ', pos := col, last := some ' ' }

/-- The requested column (StarFile.nw 2462-2469): the sink and the column request that is left. -/
def toColumn (s : Sink) (startcol : Int) : Sink × Int :=
  if startcol > 0 then
    if (s.pos : Int) < startcol then (s.padTo startcol.toNat, startcol) else (s, -1)
  else (s, startcol)

/-- Tab stops (StarFile.nw 2471-2477). -/
def toTab (s : Sink) (doTab : Bool) (startcol : Int) : Sink :=
  if s.tab > 0 ∧ doTab = true ∧ startcol < 0 then
    let next := (s.pos / s.tab.toNat + 1) * s.tab.toNat
    if s.pos < next then s.padTo next else s
  else s

/-- Indentation levels (StarFile.nw 2479-2488). -/
def setIndent (s : Sink) (newindent unindent : Bool) : Sink :=
  if newindent then
    { s with indents := s.indent :: s.indents, indent := if s.indent = 0 then s.pos else s.indent + 2 }
  else if unindent then
    match s.indents with
    | [] => s
    | i :: r => { s with indent := i, indents := r }
  else s

/-- `outstring.rfind('\n')` counted from the end: the number of characters after the last line feed. -/
def afterBreak (t : Str) : Option Nat :=
  if '\n' ∈ t then some (t.reverse.takeWhile (· != '\n')).length else none

/-- The current position and last character after the text (StarFile.nw 2495-2502). After a line feed the position is one more
than the number of characters since. -/
def account (s : Sink) (t : Str) : Sink :=
  { s with
    pos := match afterBreak t with
      | some n => n + 1
      | none => s.pos + t.length
    last := match t.getLast? with
      | some c => some c
      | none => s.last }

/-- `CIFStringIO.write` (StarFile.nw 2439-2502). -/
def write (s : Sink) (t : Str) (o : WriteOpts := {}) : Except PyErr Sink :=
  if o.delimiter = true ∧ t.length > 1 then .error .value
  else
    let s1 := if o.mustbreak then s.newline else s
    let full := decide (s1.pos + t.length > s1.width)
    if full = true ∧ o.delimiter = false ∧ t = [] then .error .index
    else
      -- `outstring[0] != '\n'`
      let breakable := full && !o.delimiter && decide (t.head? ≠ some '\n')
      let s2 := if breakable && o.canbreak then s1.newline else s1
      let c := s2.toColumn o.startcol
      let s3 := (c.1.toTab o.doTab c.2).setIndent o.newindent o.unindent
      let wanted := !(full && !breakable) && !(decide (s3.last = some ' ' ∨ s3.last = some '\n' ∨ s3.last = some '\t'))
      let s4 := if !o.delimiter || wanted then { s3 with out := s3.out ++ t } else s3
      .ok (s4.account t)

/-- `set_tab` (StarFile.nw 2504-2506). -/
def setTab (s : Sink) (t : Int) : Sink := { s with tab := t }

end Sink

/-- Formatting hints for one name (StarFile.nw 2948-3031). An absent delimiter, column or name position is `none`, `-1`,
`none`. -/
structure Hint where
  dataname : Str
  delimiter : Option Str := none
  column : Int := -1
  namePos : Option Int := none
  deriving DecidableEq, Repr

/-- Attributes of a block that govern printing: `string_delimiters`, where `none` means no delimiter, `list_delimiter` and
`maxoutlength` (StarFile.nw 1473-1479, 2521-2544). -/
structure Style where
  delims : List (Option Str)
  listDelim : Str := "  ".toList
  maxOut : Int := 2048

/-- The delimiter of a text field. -/
def semiDelim : Str := "\n;".toList
/-- Triple quotes. -/
def tripleD : Str := "\"\"\"".toList
/-- Triple quotes. -/
def tripleS : Str := "'''".toList

/-- `set_grammar` (StarFile.nw 2535-2544) for 1.0 and 1.1 (other attributes keep their values), 2.0 and STAR2. -/
def Style.v11 (maxOut : Int := 2048) : Style := { delims := [some ['\''], some ['"'], some semiDelim, none], maxOut := maxOut }
/-- See `Style.v11`. -/
def Style.v20 (maxOut : Int := 2048) : Style :=
  { delims := [some ['\''], some ['"'], some semiDelim, none, some tripleD, some tripleS], maxOut := maxOut }
/-- See `Style.v11`. -/
def Style.star2 (maxOut : Int := 2048) : Style :=
  { delims := [some ['\''], some ['"'], some semiDelim, none, some tripleD, some tripleS], listDelim := ", ".toList, maxOut := maxOut }

namespace Print
variable [CaseFold]

/-- `hints.get('column',-1)`; without a hint for the name the dictionary is empty (StarFile.nw 2582-2589, 2621, 2702). -/
def hintColumn : Option Hint → Int
  | some h => h.column
  | none => -1

/-- `hints.get('delimiter',None)` (StarFile.nw 2620, 2701). -/
def hintDelimiter : Option Hint → Option Str
  | some h => h.delimiter
  | none => none

/-- `hints.get('name_pos',default)` (StarFile.nw 2586, 2664). -/
def hintNamePos (h : Option Hint) (default : Int) : Int :=
  match h with
  | some ⟨_, _, _, some p⟩ => p
  | _ => default

/-- Python `t in s`. -/
def isIn (t : Str) : Str → Bool
  | [] => t.isEmpty
  | c :: r => t.isPrefixOf (c :: r) || isIn t r

/-- The conditions of `_formatstring` under which a value may not be written without delimiters (StarFile.nw 2747-2757). -/
def needsDelimiter (st : Style) (s : Str) : Bool :=
  decide (s = []) || decide ((s.length : Int) > st.maxOut - 2) || decide ('\n' ∈ s) ||
  s.any (fun c => c == '[' || c == ']' || c == '{' || c == '}' || c == '\x0b' || c == '\t' || c == ' ' || c == ',') ||
  (match s with
    | c :: _ => c == '_' || c == '$' || c == '#' || c == ';' || c == '('
    | [] => false) ||
  (decide (s.length > 3) && (decide (lower (s.take 4) = "data".toList) || decide (lower (s.take 4) = "save".toList))) ||
  (decide (s.length > 5) && decide (lower (s.take 6) = "global".toList)) ||
  decide ('"' ∈ s) || decide ('\'' ∈ s)

/-- `len(instring) > (self.maxoutlength-2) or '\n' in instring` (StarFile.nw 2748). -/
def oversize (st : Style) (s : Str) : Bool := decide ((s.length : Int) > st.maxOut - 2) || decide ('\n' ∈ s)

/-- Is the delimiter in `allowed_delimiters` (StarFile.nw 2746-2759)? -/
def allowed (st : Style) (s : Str) (d : Option Str) : Bool :=
  decide (d ∈ st.delims) &&
  match d with
  | none => !needsDelimiter st s
  | some d =>
    if d = ['\''] then !oversize st s && !decide ('\'' ∈ s)
    else if d = ['"'] then !oversize st s && !decide ('"' ∈ s)
    else if d = semiDelim ∨ d = tripleD ∨ d = tripleS then true
    else !oversize st s

/-- `out_delimiter` (StarFile.nw 2760-2764). -/
def choose (st : Style) (s : Str) (d : Option Str) : Option Str :=
  if allowed st s d then d
  else if allowed st s (some ['\'']) then some ['\'']
  else if allowed st s (some ['"']) then some ['"']
  else some semiDelim

/-- The search for a prefix that does not occur in the text (StarFile.nw 2774-2775). The bound is never reached: a prefix longer
than the text does not occur in it. -/
def prefixLoop (s : Str) : Nat → Str → Str
  | 0, p => p
  | n + 1, p => if isIn p s then prefixLoop s n (p ++ [':']) else p

/-- A text field (StarFile.nw 2768-2778). -/
def textField (st : Style) (s : Str) : Except PyErr Str :=
  let p := if (splitNl s).any (fun l => decide ((l.length : Int) > st.maxOut)) then applyLineFolding .default s else s
  match (if isIn semiDelim p then applyLinePrefix p (prefixLoop p (p.length + 1) "CIF:".toList ++ "> ".toList) else .ok p) with
  | .error e => .error e
  | .ok q => .ok (semiDelim ++ q ++ semiDelim)

/-- `_formatstring` (StarFile.nw 2743-2778) without the `reformat` hint. A delimiter other than those known is not in any
`string_delimiters`. -/
def formatString (st : Style) (s : Str) (d : Option Str) : Except PyErr Str :=
  match choose st s d with
  | none => .ok s
  | some d' => if d' = ['"'] ∨ d' = ['\''] ∨ d' = tripleD ∨ d' = tripleS then .ok (d' ++ s ++ d') else textField st s

/-- Chain of writes. -/
def andThen (r : Except PyErr Sink) (f : Sink → Except PyErr Sink) : Except PyErr Sink :=
  match r with
  | .error e => .error e
  | .ok s => f s

mutual
/-- `format_value` (StarFile.nw 2617-2652); `d` and `col` are the hints. -/
def formatValue (st : Style) (sink : Sink) (compound : Bool) (d : Option Str) (col : Int) : PyVal → Except PyErr Sink
  | .str s =>
    match formatString st s d with
    | .error e => .error e
    | .ok t => sink.write t { canbreak := true, startcol := col }
  | .slist l => formatList st sink compound col l
  | .list l => formatList st sink compound col l
  | .sdict l =>
    andThen ((sink.setTab 0).write ['{'] { newindent := true, mustbreak := compound, startcol := col }) fun s1 =>
      andThen (formatPairs st s1 true l) fun s2 => s2.write ['}'] { unindent := true }
  | .num t => sink.write t { canbreak := true, startcol := col }
  | .none => .error .value
/-- The branch for lists (StarFile.nw 2626-2635). -/
def formatList (st : Style) (sink : Sink) (compound : Bool) (col : Int) : List PyVal → Except PyErr Sink
  | [] =>
    andThen ((sink.setTab 0).write ['['] { canbreak := true, newindent := true, mustbreak := compound, startcol := col }) fun s1 =>
      s1.write [']'] { unindent := true }
  | v :: r =>
    andThen ((sink.setTab 0).write ['['] { canbreak := true, newindent := true, mustbreak := compound, startcol := col }) fun s1 =>
      andThen (formatValue st s1 false none (-1) v) fun s2 =>
        andThen (formatRest st s2 r) fun s3 => s3.write [']'] { unindent := true }
/-- The elements of a list after the first (StarFile.nw 2631-2634). -/
def formatRest (st : Style) (sink : Sink) : List PyVal → Except PyErr Sink
  | [] => .ok sink
  | v :: r =>
    andThen (sink.write st.listDelim { doTab := false }) fun s1 =>
      andThen (formatValue st s1 true none (-1) v) fun s2 => formatRest st s2 r
/-- The entries of a table (StarFile.nw 2640-2646). -/
def formatPairs (st : Style) (sink : Sink) (first : Bool) : List (Str × PyVal) → Except PyErr Sink
  | [] => .ok sink
  | (k, v) :: r =>
    andThen (if first then .ok sink else sink.write st.listDelim) fun s1 =>
      andThen (s1.write ('\'' :: k ++ ['\'', ':']) { canbreak := true }) fun s2 =>
        andThen (formatValue st s2 false none (-1) v) fun s3 => formatPairs st s3 false r
end

/-- The hint for a data name in a loop: the last one with that very name (StarFile.nw 2662, 2683). -/
def loopHint (hints : List Hint) (n : Str) : Option Hint := hints.reverse.find? fun h => decide (h.dataname = n)

/-- `format_names` (StarFile.nw 2659-2668). -/
def formatNames (b : Block) (hints : List Hint) (indent : Nat) (sink : Sink) : List Str → Except PyErr Sink
  | [] => .ok sink
  | n :: r =>
    andThen (sink.write (List.replicate (hintNamePos (loopHint hints n) indent).toNat ' ') { doTab := false }) fun s1 =>
      match dget b.trueCase n with
      | none => .error .key
      | some t =>
        andThen (s1.write t { doTab := false }) fun s2 =>
          andThen (s2.write ['\n'] { doTab := false }) fun s3 => formatNames b hints indent s3 r

/-- What `zip` iterates over in a column (StarFile.nw 2680). -/
def columnValues : PyVal → Except PyErr (List PyVal)
  | .list l => .ok l
  | .slist l => .ok l
  | .str s => .ok (s.map fun c => .str [c])
  | .sdict d => .ok (d.map fun p => .str p.1)
  | .num _ => .error .type
  | .none => .error .type

/-- `[self[a] for a in names]` (StarFile.nw 2677), each as a list. -/
def columns (b : Block) : List Str → Except PyErr (List (List PyVal))
  | [] => .ok []
  | n :: r =>
    match b.getItem n with
    | .error e => .error e
    | .ok v =>
      match columnValues v with
      | .error e => .error e
      | .ok c =>
        match columns b r with
        | .error e => .error e
        | .ok l => .ok (c :: l)

/-- The first elements and the rests of columns, unless one is empty. -/
def heads : List (List PyVal) → Option (List PyVal × List (List PyVal))
  | [] => some ([], [])
  | [] :: _ => none
  | (v :: c) :: r =>
    match heads r with
    | none => none
    | some (hs, ts) => some (v :: hs, c :: ts)

/-- `list(zip(*alldata))` (StarFile.nw 2680): rows up to the length of the shortest column; `n` bounds their number. -/
def zipRows : Nat → List (List PyVal) → List (List PyVal)
  | 0, _ => []
  | n + 1, cols =>
    match heads cols with
    | none => []
    | some (row, rest) => row :: zipRows n rest

/-- `zip(*alldata)`; no columns give no rows. -/
def rows : List (List PyVal) → List (List PyVal)
  | [] => []
  | c :: r => zipRows c.length (c :: r)

/-- `format_packet_item` (StarFile.nw 2696-2706). -/
def formatPacketItem (st : Style) (h : Option Hint) (sink : Sink) (v : PyVal) : Except PyErr Sink :=
  let d := hintDelimiter h
  let col := hintColumn h
  match v with
  | .str s =>
    match formatString st s d with
    | .error e => .error e
    | .ok t => sink.write t { startcol := col }
  | v => formatValue st sink false d col v

/-- The values of one row (StarFile.nw 2687-2691). -/
def formatRow (st : Style) (hints : List Hint) (sink : Sink) : List Str → List PyVal → Except PyErr Sink
  | n :: ns, v :: vs =>
    andThen (formatPacketItem st (loopHint hints n) sink v) fun s1 =>
      andThen (s1.write [' '] { canbreak := true, doTab := false, delimiter := true }) fun s2 => formatRow st hints s2 ns vs
  | _, _ => .ok sink

/-- The rows (StarFile.nw 2684-2691). -/
def formatRows (st : Style) (hints : List Hint) (names : List Str) (sink : Sink) (first : Bool) : List (List PyVal) → Except PyErr Sink
  | [] => .ok sink
  | row :: r =>
    andThen (if first then .ok sink else sink.write ['\n']) fun s1 =>
      andThen (formatRow st hints s1 names row) fun s2 => formatRows st hints names s2 false r

/-- An item (StarFile.nw 2581-2595). -/
def printItem (st : Style) (hints : List Hint) (b : Block) (sink : Sink) (n : Str) : Except PyErr Sink :=
  let spec := hints.find? fun h => decide (lower h.dataname = lower n)
  let col := hintColumn spec
  let d := hintDelimiter spec
  match b.getItem n, dget b.trueCase n with
  | .error e, _ => .error e
  | .ok _, none => .error .key
  | .ok v, some name =>
    andThen ((sink.setTab (if col < 0 then 40 else col)).write name { mustbreak := true, doTab := false, startcol := hintNamePos spec (-1) }) fun s1 =>
      andThen (s1.write [' '] { canbreak := true, doTab := false, delimiter := true }) fun s2 =>
        formatValue st s2 false d col v

/-- `loop_indent` (StarFile.nw 2599-2603). -/
def loopIndent (hints : List Hint) (indent : Nat) : Except PyErr Int :=
  match hints.filter fun h => decide (h.dataname = Block.loopMark) with
  | [] => .ok indent
  | h :: hs =>
    if (h :: hs).any fun h => h.namePos.isNone then .error .key
    else match h.namePos with
      | some n => .ok (max n 0)
      | none => .error .key

/-- A loop (StarFile.nw 2597-2606). -/
def printLoop (st : Style) (hints : List Hint) (b : Block) (indent : Nat) (sink : Sink) (n : Nat) : Except PyErr Sink :=
  match loopIndent hints indent with
  | .error e => .error e
  | .ok li =>
    andThen ((sink.setTab 10).write "loop_\n".toList { mustbreak := true, doTab := false, startcol := li }) fun s1 =>
      match dget b.loops n with
      | none => .error .key
      | some names =>
        andThen (formatNames b hints (indent + 2) s1 names) fun s2 =>
          match columns b names with
          | .error e => .error e
          | .ok cols => formatRows st hints names s2 true (rows cols)

/-- The `while` loop of `printsection` (StarFile.nw 2578-2606). -/
def printRefs (st : Style) (hints : List Hint) (b : Block) (indent : Nat) (sink : Sink) : List Ref → Except PyErr Sink
  | [] => .ok sink
  | .name n :: r => andThen (printItem st hints b sink n) fun s => printRefs st hints b indent s r
  | .loop n :: r => andThen (printLoop st hints b indent sink n) fun s => printRefs st hints b indent s r

/-- `printsection` (StarFile.nw 2567-2610) without a given sink: the text. -/
def printSection (st : Style) (hints : List Hint) (b : Block) (blockstart : Str := []) (indent : Nat := 0) (finish start : Str := []) :
    Except PyErr Str :=
  match b.createOrdering (hints.map (·.dataname)) finish start with
  | .error e => .error e
  | .ok (b', out) =>
    match andThen (({} : Sink).write blockstart { canbreak := true }) fun s => printRefs st hints b' indent s out with
    | .error e => .error e
    | .ok s => .ok s.out

end Print
end Verif
