import Verif.Spec.PyText
/-! # Reading Python statements

The part of Python's statement grammar (The Python Language Reference, 2.1, 7 and 8) used to say what a text of several lines means:
assignments, expressions, `break`, `continue`, `return`, `if`, `for`, `while` and `def`, with the bodies told by indentation. A statement is
on one line, the body of a compound statement on the lines after it. Nothing here refers to the translator. -/
namespace Verif
namespace PyText

/-- Python statements; `elif` is an `if` in the `else` part. -/
inductive PyS where
  | expr (es : List Py)
  | assign (targets vals : List Py)
  | ite (c : Py) (body els : List PyS)
  | for_ (xs : List Str) (over : List Py) (body : List PyS)
  | while_ (c : Py) (body : List PyS)
  | brk
  | cont
  | def_ (f : Str) (args : List Str) (body : List PyS)
  | ret (e : Py)
  deriving Repr

/-- The lines of a text, without line ends. -/
def pieces : Str → List Str
  | [] => [[]]
  | c :: r =>
    if c = '\n' then [] :: pieces r
    else
      match pieces r with
      | p :: ps => (c :: p) :: ps
      | [] => [[c]]

/-- A line: the number of blanks before it, and its tokens. -/
abbrev Line := Nat × List Tok

/-- A line of a text; lines of blanks do not count. -/
def lineOf (n : Nat) (s : Str) : Option (List Line) :=
  if s.all (· = ' ') then some []
  else (tokens n s).map fun t => [((s.takeWhile (· = ' ')).length, t)]

/-- The lines of a text. -/
def linesOf (n : Nat) : List Str → Option (List Line)
  | [] => some []
  | s :: r =>
    match lineOf n s, linesOf n r with
    | some a, some b => some (a ++ b)
    | _, _ => none

/-- One expression. -/
def oneExpr (n : Nat) (toks : List Tok) : Option Py :=
  match parse n 1 toks with
  | some (e, []) => some e
  | _ => none

/-- Expressions separated by commas, at least one, and the tokens left. -/
def exprList : Nat → List Tok → Option (List Py × List Tok)
  | 0, _ => none
  | n + 1, toks =>
    (parse n 1 toks).bind fun p =>
      match p.2 with
      | .op o :: r => if o = ",".toList then (exprList n r).map fun q => (p.1 :: q.1, q.2) else some ([p.1], .op o :: r)
      | r => some ([p.1], r)

/-- Expressions separated by commas, and nothing else. -/
def someExprs (n : Nat) (toks : List Tok) : Option (List Py) :=
  (exprList n toks).bind fun p => if p.2 = [] then some p.1 else none

/-- What can be assigned to, by itself. -/
def assignable : Py → Bool
  | .name x => !["True".toList, "False".toList, "None".toList].contains x
  | .index _ _ => true
  | .attr _ _ => true
  | _ => false

/-- An assignment or expressions. -/
def plainStmt (n : Nat) (toks : List Tok) : Option PyS :=
  (exprList n toks).bind fun p =>
    match p.2 with
    | [] => some (.expr p.1)
    | t :: r =>
      if t = .op "=".toList ∧ p.1.all assignable then (someExprs n r).map (.assign p.1) else none

/-- A statement that is one line. -/
def simple (n : Nat) (toks : List Tok) : Option PyS :=
  if toks = [.word "break".toList] then some .brk
  else if toks = [.word "continue".toList] then some .cont
  else
    match toks with
    | .word w :: r => if w = "return".toList then (oneExpr n r).map .ret else plainStmt n (.word w :: r)
    | toks => plainStmt n toks

/-- The first line of a compound statement or of one of its parts. -/
inductive Head where
  | if_ (c : Py)
  | elif_ (c : Py)
  | else_
  | for_ (xs : List Str) (over : List Py)
  | while_ (c : Py)
  | def_ (f : Str) (args : List Str)

/-- Names separated by commas. -/
def someNames : List Tok → Option (List Str × List Tok)
  | .word w :: .op o :: r =>
    if freeName w then
      if o = ",".toList then (someNames r).map fun p => (w :: p.1, p.2) else some ([w], .op o :: r)
    else none
  | .word w :: r => if freeName w then some ([w], r) else none
  | _ => none

/-- The first line of a compound statement, without its colon. -/
def opener (n : Nat) : List Tok → Option Head
  | .word w :: r =>
    if w = "if".toList then (oneExpr n r).map .if_
    else if w = "elif".toList then (oneExpr n r).map .elif_
    else if w = "else".toList then (if r = [] then some .else_ else none)
    else if w = "while".toList then (oneExpr n r).map .while_
    else if w = "for".toList then
      (someNames r).bind fun p =>
        match p.2 with
        | .word v :: r => if v = "in".toList then (someExprs n r).map (.for_ p.1) else none
        | _ => none
    else if w = "def".toList then
      match r with
      | .word f :: .op o :: r =>
        if freeName f ∧ o = "(".toList then
          (someNames r).bind fun p => if p.2 = [.op ")".toList] ∧ p.1.Nodup then some (.def_ f p.1) else none
        else none
      | _ => none
    else none
  | _ => none

/-- The first line of a compound statement, with its colon. -/
def header (n : Nat) (toks : List Tok) : Option Head :=
  if toks.getLast? = some (.op ":".toList) then opener n toks.dropLast else none

/-- Words that begin compound statements and their parts. -/
def compound : List Str := ["if".toList, "elif".toList, "else".toList, "while".toList, "for".toList, "def".toList]

/-- Whether a line begins a compound statement. -/
def opens : List Tok → Bool
  | .word w :: _ => compound.contains w
  | _ => false

/-- Whether a line goes on with an `if` statement. -/
def goesOn (toks : List Tok) : Bool := toks.head? = some (.word "elif".toList) || toks.head? = some (.word "else".toList)

mutual
/-- The statements on lines with `ind` blanks before them, and the lines left. The first number bounds the depth of the reading. -/
def block : Nat → Nat → List Line → Option (List PyS × List Line)
  | 0, _, _ => none
  | _ + 1, _, [] => some ([], [])
  | n + 1, ind, (i, toks) :: r =>
    if i < ind then some ([], (i, toks) :: r)
    else if ind < i then none
    else if opens toks then
      match header n toks with
      | some (.if_ c) =>
        (body n ind r).bind fun b =>
          (orelse n ind b.2).bind fun e => (block n ind e.2).map fun s => (.ite c b.1 e.1 :: s.1, s.2)
      | some (.for_ xs es) => (body n ind r).bind fun b => (block n ind b.2).map fun s => (.for_ xs es b.1 :: s.1, s.2)
      | some (.while_ c) => (body n ind r).bind fun b => (block n ind b.2).map fun s => (.while_ c b.1 :: s.1, s.2)
      | some (.def_ f xs) => (body n ind r).bind fun b => (block n ind b.2).map fun s => (.def_ f xs b.1 :: s.1, s.2)
      | _ => none
    else (simple n toks).bind fun a => (block n ind r).map fun s => (a :: s.1, s.2)
/-- The body of a compound statement whose first line has `ind` blanks before it. -/
def body : Nat → Nat → List Line → Option (List PyS × List Line)
  | 0, _, _ => none
  | _ + 1, _, [] => none
  | n + 1, ind, (i, toks) :: r => if ind < i then block n i ((i, toks) :: r) else none
/-- The parts `elif` and `else` of an `if`. -/
def orelse : Nat → Nat → List Line → Option (List PyS × List Line)
  | 0, _, _ => none
  | _ + 1, _, [] => some ([], [])
  | n + 1, ind, (i, toks) :: r =>
    if i = ind ∧ goesOn toks then
      match header n toks with
      | some (.elif_ c) => (body n ind r).bind fun b => (orelse n ind b.2).map fun e => ([.ite c b.1 e.1], e.2)
      | some .else_ => body n ind r
      | _ => none
    else some ([], (i, toks) :: r)
end

/-- `ss` is what Python reads in the text `s`. -/
def ReadsBlock (s : Str) (ss : List PyS) : Prop :=
  ∃ n lines, linesOf n (pieces s) = some lines ∧ block n 0 lines = some (ss, [])

end PyText
end Verif
