import Verif.Spec.DrelExpr
/-! # Specification: how programs are written

A program is a list of lines. The bodies of compound statements are in braces. -/
namespace Verif
namespace Drel
open LR DrelPy

mutual
/-- A line of a program: simple statements separated by semicolons, or a compound statement. -/
inductive Line where
  | small (s : Stmt) (more : List Stmt)
  | ite (c : Expr) (b : Body) (els : Elses)
  | do_ (i : Str) (start finish step : Expr) (b : Body)
  | for_ (i : Str) (ids : List Str) (x : Expr) (over : List Expr) (b : Body)
  | rep (b : Body)
  | with_ (alias cat : Str) (b : Body)
  | loop (alias cat : Str) (b : Body)
  | loopIndex (alias cat index : Str) (b : Body)
  | loopTest (alias cat index : Str) (cmp : Op) (limit : Str) (b : Body)
  | func (f arg : Str) (args : List Str) (b : Body)
/-- Lines in braces: at least one. -/
inductive Body where
  | mk (first : Line) (rest : Lines)
/-- Further lines. -/
inductive Lines where
  | nil
  | cons (l : Line) (rest : Lines)
/-- What follows the body of an `if`. -/
inductive Elses where
  | nil
  | else_ (b : Body)
  | elseif (c : Expr) (b : Body) (rest : Elses)
end

/-! ## The tokens -/

/-- Names separated by commas, after the first. -/
def putIds : List Str → List (Tok Val)
  | [] => []
  | s :: r => tk K.comma "," :: (K.id, .str s) :: putIds r

/-- Arguments of a function after the first; each is declared with an empty list as its type. -/
def putArgs : List Str → List (Tok Val)
  | [] => []
  | s :: r => tk K.comma "," :: (K.id, .str s) :: tk K.colon ":" :: tk K.openSq "[" :: tk K.closeSq "]" :: putArgs r

/-- Assignments to objects of a category after the first. -/
def putDots (kind : Str → Nat) : List Str → List Expr → List (Tok Val)
  | k :: ks, e :: es => tk K.comma "," :: tk K.dot "." :: (K.id, .str k) :: tk K.assign "=" :: (put kind e ++ putDots kind ks es)
  | _, _ => []

/-- A simple statement. -/
def putSmall (kind : Str → Nat) : Stmt → List (Tok Val)
  | .exprs es => putList kind es
  | .assign l op r => putList kind l ++ ((if op = "=".toList then K.assign else K.augop), .str op) :: putList kind r
  | .fancy cat (k :: ks) (e :: es) =>
    (K.id, .str cat) :: tk K.openParen "(" :: tk K.dot "." :: (K.id, .str k) :: tk K.assign "=" :: (put kind e ++ (putDots kind ks es ++ [tk K.closeParen ")"]))
  | .print e => tk K.print "print" :: put kind e
  | .brk => [tk K.brk "break"]
  | .next => [tk K.next "next"]
  | _ => []

/-- Simple statements after the first. -/
def putSmalls (kind : Str → Nat) : List Stmt → List (Tok Val)
  | [] => []
  | s :: r => tk K.semi ";" :: (putSmall kind s ++ putSmalls kind r)

mutual
/-- A line. -/
def Line.put (kind : Str → Nat) : Line → List (Tok Val)
  | .small s more => putSmall kind s ++ (putSmalls kind more ++ [tk K.newline "\n"])
  | .ite c b els => tk K.if_ "if" :: tk K.openParen "(" :: (Drel.put kind c ++ tk K.closeParen ")" :: (b.put kind ++ els.put kind))
  | .do_ i a z st b => tk K.do_ "do" :: (K.id, .str i) :: tk K.assign "=" :: (Drel.put kind a ++ tk K.comma "," :: (Drel.put kind z ++ tk K.comma "," ::
      (Drel.put kind st ++ b.put kind)))
  | .for_ i ids x over b => tk K.for_ "for" :: (K.id, .str i) :: (putIds ids ++ tk K.in_ "in" :: (putList kind (x :: over) ++ b.put kind))
  | .rep b => tk K.repeat_ "repeat" :: b.put kind
  | .with_ a c b => tk K.with_ "with" :: (K.id, .str a) :: tk K.as_ "as" :: (K.id, .str c) :: b.put kind
  | .loop a c b => tk K.loop "loop" :: (K.id, .str a) :: tk K.as_ "as" :: (K.id, .str c) :: b.put kind
  | .loopIndex a c i b => tk K.loop "loop" :: (K.id, .str a) :: tk K.as_ "as" :: (K.id, .str c) :: tk K.colon ":" :: (K.id, .str i) :: b.put kind
  | .loopTest a c i o l b => tk K.loop "loop" :: (K.id, .str a) :: tk K.as_ "as" :: (K.id, .str c) :: tk K.colon ":" :: (K.id, .str i) ::
      (opToks o ++ (K.id, .str l) :: b.put kind)
  | .func f x xs b => tk K.function "function" :: (K.id, .str f) :: tk K.openParen "(" :: (K.id, .str x) :: tk K.colon ":" :: tk K.openSq "[" :: tk K.closeSq "]" ::
      (putArgs xs ++ tk K.closeParen ")" :: b.put kind)
/-- A body. -/
def Body.put (kind : Str → Nat) : Body → List (Tok Val)
  | .mk l r => tk K.openBrace "{" :: (l.put kind ++ (r.put kind ++ [tk K.closeBrace "}"]))
/-- Lines. -/
def Lines.put (kind : Str → Nat) : Lines → List (Tok Val)
  | .nil => []
  | .cons l r => l.put kind ++ r.put kind
/-- What follows the body of an `if`. -/
def Elses.put (kind : Str → Nat) : Elses → List (Tok Val)
  | .nil => []
  | .else_ b => tk K.else_ "else" :: b.put kind
  | .elseif c b r => tk K.elseif "else if" :: tk K.openParen "(" :: (Drel.put kind c ++ tk K.closeParen ")" :: (b.put kind ++ r.put kind))
end

/-! ## The trees -/

/-- The conditions of `elseif`. -/
def Elses.conds : Elses → List Expr
  | .elseif c _ r => c :: r.conds
  | _ => []

/-- A comparison as it is written. -/
def cmpText (o : Op) : Str := match opToks o with | [(_, .str s)] => s | _ => []

mutual
/-- The statements of a line. -/
def Line.stmts : Line → List Stmt
  | .small s more => s :: more
  | .ite c b els => [.ite c b.tree els.conds els.bodies]
  | .do_ i a z st b => [.do_ i a z st b.tree]
  | .for_ i ids x over b => [.for_ (i :: ids) (x :: over) b.tree]
  | .rep b => [.rep b.tree]
  | .with_ a c b => [.with_ a c b.tree]
  | .loop a c b => [.loop a c [] [] [] b.tree]
  | .loopIndex a c i b => [.loop a c i [] [] b.tree]
  | .loopTest a c i o l b => [.loop a c i (cmpText o) l b.tree]
  | .func f x xs b => [.func f (x :: xs) b.tree]
/-- The tree of a body: the statements of its first line, then each further line as a block of its own. -/
def Body.tree : Body → Stmt
  | .mk l r => .seq (l.stmts ++ r.trees)
/-- Each line as a block. -/
def Lines.trees : Lines → List Stmt
  | .nil => []
  | .cons l r => .seq l.stmts :: r.trees
/-- The bodies of `elseif` and `else`. -/
def Elses.bodies : Elses → List Stmt
  | .nil => []
  | .else_ b => [b.tree]
  | .elseif _ b r => b.tree :: r.bodies
end

/-- All the statements of the lines. -/
def Lines.stmts : Lines → List Stmt
  | .nil => []
  | .cons l r => l.stmts ++ r.stmts

/-! ## Conditions -/

/-- The expressions of a simple statement fit and none of its lists is empty. -/
def FitsSmall : Stmt → Prop
  | .exprs es => es ≠ [] ∧ FitsAll es
  | .assign l _ r => l ≠ [] ∧ FitsAll l ∧ r ≠ [] ∧ FitsAll r
  | .fancy _ ks vs => ks ≠ [] ∧ ks.length = vs.length ∧ FitsAll vs
  | .print e => Fits e
  | .brk | .next => True
  | _ => False

mutual
/-- The expressions of a line fit. -/
def Line.Fits : Line → Prop
  | .small s more => FitsSmall s ∧ ∀ t ∈ more, FitsSmall t
  | .ite c b els => Drel.Fits c ∧ b.Fits ∧ els.Fits
  | .do_ _ a z st b => Drel.Fits a ∧ Drel.Fits z ∧ Drel.Fits st ∧ b.Fits
  | .for_ _ _ x over b => FitsAll (x :: over) ∧ b.Fits
  | .rep b => b.Fits
  | .with_ _ _ b => b.Fits
  | .loop _ _ b => b.Fits
  | .loopIndex _ _ _ b => b.Fits
  | .loopTest _ _ _ o _ b => (opLevel o = 4 ∧ o ≠ .isIn ∧ o ≠ .notIn) ∧ b.Fits
  | .func _ _ _ b => b.Fits
/-- The expressions of a body fit. -/
def Body.Fits : Body → Prop
  | .mk l r => l.Fits ∧ r.Fits
/-- The expressions of the lines fit. -/
def Lines.Fits : Lines → Prop
  | .nil => True
  | .cons l r => l.Fits ∧ r.Fits
/-- The expressions of the alternatives fit. -/
def Elses.Fits : Elses → Prop
  | .nil => True
  | .else_ b => b.Fits
  | .elseif c b r => Drel.Fits c ∧ b.Fits ∧ r.Fits
end

end Drel
end Verif
