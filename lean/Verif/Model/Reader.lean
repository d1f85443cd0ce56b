import Verif.Model.Scan
import Verif.Model.Collection
/-! # The parsers

Models the parsers generated by Yapps (`/repo/src/yapps3/parsetree.py`) from the grammars of
`/repo/src/YappsStarParser.nw` 337-567, with the helper functions of the same file (80-188) and `Parser` of
`/repo/src/yapps3_compiled_rt.py` 268-289. The sets given to `_peek` are those the generator computes: for a choice
its FIRST set, for a repetition its FOLLOW set, which includes FIRST of the repeated part (parsetree.py 499-651). A repetition
is a recursion with a bound on the number of rounds; the bound is never reached, because every round consumes text (`C84_ends`).
A parser creates its blocks itself, so after an exception only the collection given by the caller remains. -/
namespace Verif

/-- `Parser` (yapps3_compiled_rt.py 268-275): the scanner and the number of tokens consumed. -/
structure PState where
  scan : Scanner Tk
  pos : Nat := 0
  deriving DecidableEq, Repr

namespace Reader
variable [CaseFold]

/-- `_peek(*types)` (yapps3_compiled_rt.py 277-281). -/
def peek (lx : Lexer Tk) (types : List Tk) (p : PState) : Except PyErr (Tk × PState) :=
  match p.scan.token lx p.pos types with
  | (_, .error e) => .error e
  | (s, .ok t) => .ok (t.name, { p with scan := s })

/-- `_scan(type)` (yapps3_compiled_rt.py 283-289). -/
def take (lx : Lexer Tk) (type : Tk) (p : PState) : Except PyErr (Str × PState) :=
  match p.scan.token lx p.pos [type] with
  | (_, .error e) => .error e
  | (s, .ok t) => if t.name ≠ type then .error .syntax else .ok (t.text, { scan := s, pos := p.pos + 1 })

/-- The test after a repetition (parsetree.py 640-651): `_peek()` must be in the FOLLOW set. -/
def afterStar (lx : Lexer Tk) (follow : List Tk) (p : PState) : Except PyErr PState :=
  match peek lx [] p with
  | .error e => .error e
  | .ok (t, p') => if t ∈ follow then .ok p' else .error .syntax

/-! ## Helper functions -/

/-- `stripstring` (YappsStarParser.nw 105-111). -/
def stripString (v : Str) : Str :=
  if v.head? = some '\'' ∧ v.getLast? = some '\'' then (v.drop 1).dropLast
  else if v.head? = some '"' ∧ v.getLast? = some '"' then (v.drop 1).dropLast
  else v

/-- `striptriple` (YappsStarParser.nw 114-120). -/
def stripTriple (v : Str) : Str :=
  let d := "\"\"\"".toList
  let q := "'''".toList
  let last := v.drop (v.length - 3)
  if v.take 3 = d ∧ last = d then (v.drop 3).take (v.length - 6)
  else if v.take 3 = q ∧ last = q then (v.drop 3).take (v.length - 6)
  else v

/-- The class `[\n\r\f \t\v]` (YappsStarParser.nw 84-85). -/
def isWhite (c : Char) : Bool :=
  c == '\n' || c == '\r' || c == '\x0c' || c == ' ' || c == '\t' || c == '\x0b'

/-- `semis = "[\n\r\f \t\v]*[\n\r\f]\n*;"` (YappsStarParser.nw 85). -/
def semis : Rx :=
  Rx.seqs [.star (.cls isWhite), .cls fun c => c == '\n' || c == '\r' || c == '\x0c', .star (Rx.ch '\n'), Rx.ch ';']

/-- `stripextras` (YappsStarParser.nw 80-101). The negative end of a slice of a text of fewer than two characters is not
modelled: a match of `semis` has at least two. -/
def stripExtras (v : Str) : Str :=
  match semis.matchLen v with
  | some k =>
    let nv := Scanner.slice v k (v.length - 2)
    let nv := if nv.getLast? = some '\r' then nv.dropLast else nv
    decodeProtocols nv
  | none => stripString (v.dropWhile isWhite)

/-- Every `step`-th element from the first one on, `l[0::step]`, for a positive step; `skip` counts down to the next one. -/
def everyFrom {α : Type} (step : Nat) : Nat → List α → List α
  | _, [] => []
  | 0, x :: r => x :: everyFrom step (step - 1) r
  | skip + 1, _ :: r => everyFrom step skip r

/-- The `for` loop of `makeloop` (YappsStarParser.nw 134-135): column number `col` is `itemlists[col::step_size]`. -/
def addColumns (step : Nat) (vals : List PyVal) : Block → Nat → List Str → Block × Except PyErr Unit
  | b, _, [] => (b, .ok ())
  | b, col, n :: r =>
    match b.addItem n (.list (everyFrom step col vals)) true with
    | (b', .error e) => (b', .error e)
    | (b', .ok ()) => addColumns step vals b' (col + 1) r

/-- `makeloop` (YappsStarParser.nw 129-142). A final empty list is removed, and a `StarList` is a list; without values `itemlists[-1]` fails. -/
def makeLoop (b : Block) (names : List Str) (vals : List PyVal) : Block × Except PyErr Unit :=
  match vals.getLast? with
  | none => (b, .error .index)
  | some l =>
    match addColumns names.length (if l = .list [] ∨ l = .slist [] then vals.dropLast else vals) b 0 names with
    | (b', .error e) => (b', .error e)
    | (b', .ok ()) => b'.createLoop names

/-! ## Values -/

/-- The repetition in `sc_lines_of_text` (YappsStarParser.nw 385-389, 533-537). -/
def scLines (lx : Lexer Tk) : Nat → Str → PState → Except PyErr (Str × PState)
  | 0, _, _ => .error .depth
  | fuel + 1, acc, p =>
    match peek lx [.endSc, .scLine] p with
    | .error e => .error e
    | .ok (t, p1) =>
      if t = .scLine then
        match take lx .scLine p1 with
        | .error e => .error e
        | .ok (x, p2) => scLines lx fuel (acc ++ x) p2
      else
        match afterStar lx [.endSc, .scLine] p1 with
        | .error e => .error e
        | .ok p2 =>
          match take lx .endSc p2 with
          | .error e => .error e
          | .ok (x, p3) => .ok (acc ++ x, p3)

/-- `sc_lines_of_text` (YappsStarParser.nw 385-389, 533-537). -/
def scLinesOfText (lx : Lexer Tk) (fuel : Nat) (p : PState) : Except PyErr (Str × PState) :=
  match take lx .startSc p with
  | .error e => .error e
  | .ok (x, p1) => scLines lx fuel x p1

/-- What differs between the grammars. -/
structure Gram where
  lx : Lexer Tk
  /-- FIRST of `data_value` -/
  first : List Tk
  /-- the rule `data_value`, with a bound on rounds -/
  value : Nat → PState → Except PyErr (PyVal × PState)
  /-- save frames may contain save frames -/
  nested : Bool
  /-- data of a data block is stored in the block found under its heading (1.0, 1.1), not in the block created for it -/
  byName : Bool

/-- `data_value` of 1.0 and 1.1 (YappsStarParser.nw 528-531). -/
def value1 (lx : Lexer Tk) (fuel : Nat) (p : PState) : Except PyErr (PyVal × PState) :=
  match peek lx [.value, .startSc] p with
  | .error e => .error e
  | .ok (t, p1) =>
    if t = .value then
      match take lx .value p1 with
      | .error e => .error e
      | .ok (x, p2) => .ok (.str (stripString x), p2)
    else
      match scLinesOfText lx fuel p1 with
      | .error e => .error e
      | .ok (x, p2) => .ok (.str (stripExtras x), p2)

/-- FIRST of `data_value` in 2.0 and STAR2. -/
def first2 : List Tk := [.value, .openCurly, .openSquare, .single, .startSc, .triple]

/-- `delimited_data_value` (YappsStarParser.nw 380-383). -/
def delimited (lx : Lexer Tk) (p : PState) : Except PyErr (Str × PState) :=
  match peek lx [.single, .triple] p with
  | .error e => .error e
  | .ok (t, p1) =>
    if t = .triple then
      match take lx .triple p1 with
      | .error e => .error e
      | .ok (x, p2) => .ok (stripTriple x, p2)
    else
      match take lx .single p1 with
      | .error e => .error e
      | .ok (x, p2) => .ok (stripString x, p2)

/-- Storing in a `StarDict` made from the pairs in order (YappsStarParser.nw 182-188, 485). -/
def setPair (d : List (Str × PyVal)) (k : Str) (v : PyVal) : List (Str × PyVal) := dset d k v

mutual
/-- `data_value` of CIF 2.0 (YappsStarParser.nw 371-378) with `bracket_expression` (391-393). -/
def value2 (lx : Lexer Tk) : Nat → PState → Except PyErr (PyVal × PState)
  | 0, _ => .error .depth
  | fuel + 1, p =>
    match peek lx first2 p with
    | .error e => .error e
    | .ok (t, p1) =>
      if t = .value then
        match take lx .value p1 with
        | .error e => .error e
        | .ok (x, p2) => .ok (.str x, p2)
      else if t = .single ∨ t = .triple then
        match delimited lx p1 with
        | .error e => .error e
        | .ok (x, p2) => .ok (.str x, p2)
      else if t = .startSc then
        match scLinesOfText lx fuel p1 with
        | .error e => .error e
        | .ok (x, p2) => .ok (.str (stripExtras x), p2)
      else
        match peek lx [.openCurly, .openSquare] p1 with
        | .error e => .error e
        | .ok (t2, p2) =>
          if t2 = .openSquare then
            match take lx .openSquare p2 with
            | .error e => .error e
            | .ok (_, p3) => squareLoop lx fuel [] p3
          else
            match take lx .openCurly p2 with
            | .error e => .error e
            | .ok (_, p3) => curlyLoop lx fuel [] p3
/-- The repetitions in `square_bracket_expr` of 2.0 (YappsStarParser.nw 467-473). The inner repetition has the same tests as the
outer one, so that one round of either reads one value. -/
def squareLoop (lx : Lexer Tk) : Nat → List PyVal → PState → Except PyErr (PyVal × PState)
  | 0, _, _ => .error .depth
  | fuel + 1, acc, p =>
    match peek lx (.closeSquare :: first2) p with
    | .error e => .error e
    | .ok (t, p1) =>
      if t ∈ first2 then
        match value2 lx fuel p1 with
        | .error e => .error e
        | .ok (v, p2) => squareLoop lx fuel (acc ++ [v]) p2
      else
        match afterStar lx (.closeSquare :: first2) p1 with
        | .error e => .error e
        | .ok p2 =>
          match take lx .closeSquare p2 with
          | .error e => .error e
          | .ok (_, p3) => .ok (.slist acc, p3)
/-- The repetitions in `curly_bracket_expr` of 2.0 (YappsStarParser.nw 475-485). The first pair of a round of the outer repetition
starts the table afresh, but the outer repetition has at most one round, because the inner one goes on as long. -/
def curlyLoop (lx : Lexer Tk) : Nat → List (Str × PyVal) → PState → Except PyErr (PyVal × PState)
  | 0, _, _ => .error .depth
  | fuel + 1, acc, p =>
    match peek lx [.closeCurly, .single, .triple] p with
    | .error e => .error e
    | .ok (t, p1) =>
      if t = .single ∨ t = .triple then
        match delimited lx p1 with
        | .error e => .error e
        | .ok (k, p2) =>
          match take lx .colon p2 with
          | .error e => .error e
          | .ok (_, p3) =>
            match value2 lx fuel p3 with
            | .error e => .error e
            | .ok (v, p4) => curlyLoop lx fuel (setPair acc k v) p4
      else
        match afterStar lx [.closeCurly, .single, .triple] p1 with
        | .error e => .error e
        | .ok p2 =>
          match take lx .closeCurly p2 with
          | .error e => .error e
          | .ok (_, p3) => .ok (.sdict acc, p3)
end

mutual
/-- `data_value` of STAR2 (YappsStarParser.nw 371-378). -/
def valueS (lx : Lexer Tk) : Nat → PState → Except PyErr (PyVal × PState)
  | 0, _ => .error .depth
  | fuel + 1, p =>
    match peek lx first2 p with
    | .error e => .error e
    | .ok (t, p1) =>
      if t = .value then
        match take lx .value p1 with
        | .error e => .error e
        | .ok (x, p2) => .ok (.str x, p2)
      else if t = .single ∨ t = .triple then
        match delimited lx p1 with
        | .error e => .error e
        | .ok (x, p2) => .ok (.str x, p2)
      else if t = .startSc then
        match scLinesOfText lx fuel p1 with
        | .error e => .error e
        | .ok (x, p2) => .ok (.str (stripExtras x), p2)
      else
        match peek lx [.openCurly, .openSquare] p1 with
        | .error e => .error e
        | .ok (t2, p2) =>
          if t2 = .openSquare then
            match take lx .openSquare p2 with
            | .error e => .error e
            | .ok (_, p3) => squareS lx fuel [] p3
          else
            match take lx .openCurly p2 with
            | .error e => .error e
            | .ok (_, p3) => curlyS lx fuel [] p3
/-- The outer repetition in `square_bracket_expr` of STAR2 (YappsStarParser.nw 437-443). -/
def squareS (lx : Lexer Tk) : Nat → List PyVal → PState → Except PyErr (PyVal × PState)
  | 0, _, _ => .error .depth
  | fuel + 1, acc, p =>
    match peek lx (.closeSquare :: first2) p with
    | .error e => .error e
    | .ok (t, p1) =>
      if t ∈ first2 then
        match valueS lx fuel p1 with
        | .error e => .error e
        | .ok (v, p2) => squareCommaS lx fuel (acc ++ [v]) p2
      else
        match afterStar lx (.closeSquare :: first2) p1 with
        | .error e => .error e
        | .ok p2 =>
          match take lx .closeSquare p2 with
          | .error e => .error e
          | .ok (_, p3) => .ok (.slist acc, p3)
/-- The inner repetition, then back to the outer one (YappsStarParser.nw 439-442). -/
def squareCommaS (lx : Lexer Tk) : Nat → List PyVal → PState → Except PyErr (PyVal × PState)
  | 0, _, _ => .error .depth
  | fuel + 1, acc, p =>
    match peek lx (.comma :: .closeSquare :: first2) p with
    | .error e => .error e
    | .ok (t, p1) =>
      if t = .comma then
        match take lx .comma p1 with
        | .error e => .error e
        | .ok (_, p2) =>
          match valueS lx fuel p2 with
          | .error e => .error e
          | .ok (v, p3) => squareCommaS lx fuel (acc ++ [v]) p3
      else
        match afterStar lx (.comma :: .closeSquare :: first2) p1 with
        | .error e => .error e
        | .ok p2 => squareS lx fuel acc p2
/-- The outer repetition in `curly_bracket_expr` of STAR2 (YappsStarParser.nw 445-455): every round starts the table afresh. -/
def curlyS (lx : Lexer Tk) : Nat → List (Str × PyVal) → PState → Except PyErr (PyVal × PState)
  | 0, _, _ => .error .depth
  | fuel + 1, acc, p =>
    match peek lx [.closeCurly, .single, .triple] p with
    | .error e => .error e
    | .ok (t, p1) =>
      if t = .single ∨ t = .triple then
        match delimited lx p1 with
        | .error e => .error e
        | .ok (k, p2) =>
          match take lx .colon p2 with
          | .error e => .error e
          | .ok (_, p3) =>
            match valueS lx fuel p3 with
            | .error e => .error e
            | .ok (v, p4) => curlyCommaS lx fuel [(k, v)] p4
      else
        match afterStar lx [.closeCurly, .single, .triple] p1 with
        | .error e => .error e
        | .ok p2 =>
          match take lx .closeCurly p2 with
          | .error e => .error e
          | .ok (_, p3) => .ok (.sdict acc, p3)
/-- The inner repetition, then back to the outer one (YappsStarParser.nw 449-454). -/
def curlyCommaS (lx : Lexer Tk) : Nat → List (Str × PyVal) → PState → Except PyErr (PyVal × PState)
  | 0, _, _ => .error .depth
  | fuel + 1, acc, p =>
    match peek lx [.comma, .closeCurly, .single, .triple] p with
    | .error e => .error e
    | .ok (t, p1) =>
      if t = .comma then
        match take lx .comma p1 with
        | .error e => .error e
        | .ok (_, p2) =>
          match delimited lx p2 with
          | .error e => .error e
          | .ok (k, p3) =>
            match take lx .colon p3 with
            | .error e => .error e
            | .ok (_, p4) =>
              match valueS lx fuel p4 with
              | .error e => .error e
              | .ok (v, p5) => curlyCommaS lx fuel (setPair acc k v) p5
      else
        match afterStar lx [.comma, .closeCurly, .single, .triple] p1 with
        | .error e => .error e
        | .ok p2 => curlyS lx fuel acc p2
end

/-- CIF 1.1 (YappsStarParser.nw 493-567). -/
def gram11 : Gram :=
  ⟨⟨Pat.table11.map fun p => (p.1, p.2.pattern), Pat.ignored⟩, [.value, .startSc],
   value1 ⟨Pat.table11.map fun p => (p.1, p.2.pattern), Pat.ignored⟩, true, true⟩

/-- CIF 1.0: the same grammar with other patterns. -/
def gram10 : Gram :=
  ⟨⟨Pat.table10.map fun p => (p.1, p.2.pattern), Pat.ignored⟩, [.value, .startSc],
   value1 ⟨Pat.table10.map fun p => (p.1, p.2.pattern), Pat.ignored⟩, true, true⟩

/-- CIF 2.0 (YappsStarParser.nw 337-423, 459-485). -/
def gram20 : Gram :=
  ⟨⟨(Pat.table2 false).map fun p => (p.1, p.2.pattern), Pat.ignored⟩, first2,
   value2 ⟨(Pat.table2 false).map fun p => (p.1, p.2.pattern), Pat.ignored⟩, false, false⟩

/-- STAR2 (YappsStarParser.nw 337-455). -/
def gramStar2 : Gram :=
  ⟨⟨(Pat.table2 true).map fun p => (p.1, p.2.pattern), Pat.ignored⟩, first2,
   valueS ⟨(Pat.table2 true).map fun p => (p.1, p.2.pattern), Pat.ignored⟩, true, false⟩

/-! ## Items, loops, blocks -/

/-- `loopfield` (YappsStarParser.nw 403-407, 547-551). -/
def loopField (g : Gram) : Nat → List Str → PState → Except PyErr (List Str × PState)
  | 0, _, _ => .error .depth
  | fuel + 1, acc, p =>
    match peek g.lx (.dataName :: g.first) p with
    | .error e => .error e
    | .ok (t, p1) =>
      if t = .dataName then
        match take g.lx .dataName p1 with
        | .error e => .error e
        | .ok (x, p2) => loopField g fuel (acc ++ [x]) p2
      else
        match afterStar g.lx (.dataName :: g.first) p1 with
        | .error e => .error e
        | .ok p2 => .ok (acc, p2)

/-- What may follow an item of a block: FOLLOW of `data`, `dataseq` and of the repetition in `dblock` and `save_frame`. -/
def itemFollow : List Tk := [.fin, .loop, .dataHeading, .dataName, .saveEnd, .saveHeading]

/-- The repetition in `loopvalues` (YappsStarParser.nw 410-415, 554-559). -/
def moreValues (g : Gram) : Nat → List PyVal → PState → Except PyErr (List PyVal × PState)
  | 0, _, _ => .error .depth
  | fuel + 1, acc, p =>
    match peek g.lx (itemFollow ++ g.first) p with
    | .error e => .error e
    | .ok (t, p1) =>
      if t ∈ g.first then
        match g.value fuel p1 with
        | .error e => .error e
        | .ok (v, p2) => moreValues g fuel (acc ++ [v]) p2
      else
        match afterStar g.lx (itemFollow ++ g.first) p1 with
        | .error e => .error e
        | .ok p2 => .ok (acc, p2)

/-- `top_loop` (YappsStarParser.nw 399, 542). -/
def topLoop (g : Gram) (fuel : Nat) (p : PState) : Except PyErr ((List Str × List PyVal) × PState) :=
  match take g.lx .loop p with
  | .error e => .error e
  | .ok (_, p1) =>
    match loopField g fuel [] p1 with
    | .error e => .error e
    | .ok (names, p2) =>
      match g.value fuel p2 with
      | .error e => .error e
      | .ok (v, p3) =>
        match moreValues g fuel [v] p3 with
        | .error e => .error e
        | .ok (vals, p4) => .ok ((names, vals), p4)

/-- `data` and `datakvpair` (YappsStarParser.nw 365-369, 522-526): the block with the item or loop added. -/
def datum (g : Gram) (fuel : Nat) (b : Block) (p : PState) : Except PyErr (Block × PState) :=
  match peek g.lx [.loop, .dataName] p with
  | .error e => .error e
  | .ok (t, p1) =>
    if t = .loop then
      match topLoop g fuel p1 with
      | .error e => .error e
      | .ok ((names, vals), p2) =>
        match makeLoop b names vals with
        | (_, .error e) => .error e
        | (b', .ok ()) => .ok (b', p2)
    else
      match take g.lx .dataName p1 with
      | .error e => .error e
      | .ok (name, p2) =>
        match g.value fuel p2 with
        | .error e => .error e
        | .ok (v, p3) =>
          match b.addItem name v true with
          | (_, .error e) => .error e
          | (b', .ok ()) => .ok (b', p3)

/-- The repetition in `dataseq` (YappsStarParser.nw 360-363, 517-520). -/
def moreData (g : Gram) : Nat → Block → PState → Except PyErr (Block × PState)
  | 0, _, _ => .error .depth
  | fuel + 1, b, p =>
    match peek g.lx itemFollow p with
    | .error e => .error e
    | .ok (t, p1) =>
      if t = .loop ∨ t = .dataName then
        match datum g fuel b p1 with
        | .error e => .error e
        | .ok (b', p2) => moreData g fuel b' p2
      else
        match afterStar g.lx itemFollow p1 with
        | .error e => .error e
        | .ok p2 => .ok (b, p2)

/-- `dataseq` (YappsStarParser.nw 360-363, 517-520). -/
def dataSeq (g : Gram) (fuel : Nat) (b : Block) (p : PState) : Except PyErr (Block × PState) :=
  match datum g fuel b p with
  | .error e => .error e
  | .ok (b', p1) => moreData g fuel b' p1

/-- A block collection being filled by `dblock` or `save_frame`: the collection, the heading of the block created for it and
the key under which that block is now stored (`_rekey` may have changed it). -/
structure Making where
  bc : Coll
  heading : Str
  key : Str

/-- `dataseq` applied to the block stored under `k`. -/
def dataInto (g : Gram) (fuel : Nat) (m : Making) (k : Str) (p : PState) : Except PyErr (Making × PState) :=
  match m.bc.getItem k with
  | .error e => .error e
  | .ok b =>
    match dataSeq g fuel b p with
    | .error e => .error e
    | .ok (b', p1) => .ok ({ m with bc := { m.bc with dict := dset m.bc.dict (lower k) b' } }, p1)

/-- The key of the block that is given as parent to `merge_fast` (StarFile.nw 695-716), after the renaming of duplicates. -/
def parentKey (m : Making) (frame : Coll) : Str :=
  if m.bc.standard = none then m.key
  else match m.bc.mergeDups frame (some m.key) (m.bc.lowerKeys.filter fun k => decide (k ∈ frame.lowerKeys)) with
    | (_, _, .ok (some p)) => p
    | _ => m.key

/-- `merge_fast(save_frame,parent=...)` (YappsStarParser.nw 356, 512, 565): the parent may be given a new key. In a collection without a
standard a save frame replaces a block with the same name; adding to a block that has been replaced is not modelled. -/
def mergeFrame (m : Making) (frame : Coll) : Except PyErr Making :=
  if m.bc.standard = none ∧ m.key ∈ frame.lowerKeys then .error .notImpl
  else match m.bc.mergeFast frame (some m.key) with
    | (_, _, .error e) => .error e
    | (bc, _, .ok ()) => .ok { m with bc := bc, key := parentKey m frame }

mutual
/-- The repetition in `save_frame` (YappsStarParser.nw 562-566; 461-463 for 2.0). The data goes to the block found under the heading
in all grammars. -/
def frameLoop (g : Gram) (blocktype : Block) : Nat → Making → PState → Except PyErr (Making × PState)
  | 0, _, _ => .error .depth
  | fuel + 1, m, p =>
    match peek g.lx itemFollow p with
    | .error e => .error e
    | .ok (t, p1) =>
      if t = .loop ∨ t = .dataName then
        -- in 1.0 and 1.1 there is a choice here, which asks for a subset of what was just found
        match (if g.nested then peek g.lx [.loop, .dataName, .saveHeading] p1 else .ok (t, p1)) with
        | .error e => .error e
        | .ok (_, p2) =>
          match dataInto g fuel m m.heading p2 with
          | .error e => .error e
          | .ok (m', p3) => frameLoop g blocktype fuel m' p3
      else if t = .saveHeading ∧ g.nested = true then
        match peek g.lx [.loop, .dataName, .saveHeading] p1 with
        | .error e => .error e
        | .ok (_, p2) =>
          match saveFrame g blocktype fuel p2 with
          | .error e => .error e
          | .ok (frame, p3) =>
            match mergeFrame m frame with
            | .error e => .error e
            | .ok m' => frameLoop g blocktype fuel m' p3
      else
        match afterStar g.lx itemFollow p1 with
        | .error e => .error e
        | .ok p2 => .ok (m, p2)
/-- `save_frame` (YappsStarParser.nw 561-567; 460-464 for 2.0). `blocktype` is the block made by `prepared.blocktype(overwrite=False)`. -/
def saveFrame (g : Gram) (blocktype : Block) : Nat → PState → Except PyErr (Coll × PState)
  | 0, _ => .error .depth
  | fuel + 1, p =>
    match take g.lx .saveHeading p with
    | .error e => .error e
    | .ok (x, p1) =>
      match ({ unicode := !g.byName } : Coll).newBlock (x.drop 5) blocktype with
      | (_, .error e) => .error e
      | (bc, .ok k) =>
        match frameLoop g blocktype fuel ⟨bc, x.drop 5, k⟩ p1 with
        | .error e => .error e
        | .ok (m, p2) =>
          match take g.lx .saveEnd p2 with
          | .error e => .error e
          | .ok (_, p3) => .ok (m.bc, p3)
end

/-- The repetition in `dblock` (YappsStarParser.nw 509-513; 353-357 for 2.0). -/
def blockLoop (g : Gram) (blocktype : Block) : Nat → Making → PState → Except PyErr (Making × PState)
  | 0, _, _ => .error .depth
  | fuel + 1, m, p =>
    match peek g.lx itemFollow p with
    | .error e => .error e
    | .ok (t, p1) =>
      if t = .loop ∨ t = .dataName ∨ t = .saveHeading then
        match peek g.lx [.loop, .dataName, .saveHeading] p1 with
        | .error e => .error e
        | .ok (t2, p2) =>
          if t2 = .loop ∨ t2 = .dataName then
            match dataInto g fuel m (if g.byName then m.heading else m.key) p2 with
            | .error e => .error e
            | .ok (m', p3) => blockLoop g blocktype fuel m' p3
          else
            match saveFrame g blocktype fuel p2 with
            | .error e => .error e
            | .ok (frame, p3) =>
              match mergeFrame m frame with
              | .error e => .error e
              | .ok m' => blockLoop g blocktype fuel m' p3
      else
        match afterStar g.lx itemFollow p1 with
        | .error e => .error e
        | .ok p2 => .ok (m, p2)

/-- `dblock` (YappsStarParser.nw 508-515; 352-358 for 2.0), with the check of all names at the end. -/
def dataBlock (g : Gram) (blocktype : Block) (standard : Option Str) (fuel : Nat) (p : PState) : Except PyErr (Coll × PState) :=
  match take g.lx .dataHeading p with
  | .error e => .error e
  | .ok (x, p1) =>
    match ({ unicode := true, standard := standard } : Coll).newBlock (x.drop 5) blocktype with
    | (_, .error e) => .error e
    | (bc, .ok k) =>
      match blockLoop g blocktype fuel ⟨bc, x.drop 5, k⟩ p1 with
      | .error e => .error e
      | .ok (m, p2) =>
        match m.bc.getItem (if g.byName then m.heading else m.key) with
        | .error e => .error e
        | .ok b =>
          match b.setMaxNameLength b.maxName with
          | (_, .error e) => .error e
          | (_, .ok ()) => .ok (m.bc, p2)

/-- `unlock` (StarFile.nw 258-261). -/
def unlock (c : Coll) : Coll :=
  { c with dict := c.dict.map fun p => if p.1 ∈ c.lowerKeys then (p.1, { p.2 with overwrite := true }) else p }

/-- The repetition in `input` (YappsStarParser.nw 342-345, 498-501), then `END`. -/
def inputLoop (g : Gram) (blocktype : Block) : Nat → Coll → PState → Coll × Except PyErr Unit
  | 0, c, _ => (c, .error .depth)
  | fuel + 1, c, p =>
    match peek g.lx [.fin, .dataHeading] p with
    | .error e => (c, .error e)
    | .ok (t, p1) =>
      if t = .dataHeading then
        match dataBlock g blocktype c.standard fuel p1 with
        | .error e => (c, .error e)
        | .ok (bc, p2) =>
          match c.mergeFast bc with
          | (c', _, .error e) => (c', .error e)
          | (c', _, .ok ()) => inputLoop g blocktype fuel c' p2
      else
        match afterStar g.lx [.fin, .dataHeading] p1 with
        | .error e => (c, .error e)
        | .ok p2 =>
          match take g.lx .fin p2 with
          | .error e => (c, .error e)
          | .ok _ => (unlock c, .ok ())

/-- `input` (YappsStarParser.nw 340-350, 496-506): the collection afterwards, also when an exception was raised. -/
def input (g : Gram) (blocktype : Block) (prepared : Coll) (text : Str) : Coll × Except PyErr Unit :=
  let fuel := 2 * text.length + 10
  match peek g.lx [.fin, .dataHeading] { scan := { input := text } } with
  | .error e => (prepared, .error e)
  | .ok (t, p1) =>
    if t = .dataHeading then
      match dataBlock g blocktype prepared.standard fuel p1 with
      | .error e => (prepared, .error e)
      | .ok (bc, p2) =>
        match prepared.mergeFast bc with
        | (c', _, .error e) => (c', .error e)
        | (c', _, .ok ()) => inputLoop g blocktype fuel c' p2
    else
      match take g.lx .fin p1 with
      | .error e => (prepared, .error e)
      | .ok _ => (unlock prepared, .ok ())

end Reader
end Verif
