import Verif.Model.DrelGrammar
/-! # Specification: how expressions are written

Each operator has a level; an operand of a lower level than its place needs is put in parentheses, which are kept in the tree (`group`). -/
namespace Verif
namespace Drel
open LR DrelPy

/-- `or` binds least, then `and`, `not`, comparisons, sums, products, signs and powers. -/
def opLevel : Op → Nat
  | .or => 1
  | .and => 2
  | .lt | .gt | .le | .ge | .ne | .eq | .isIn | .notIn => 4
  | .add | .sub => 5
  | .mul | .div | .cross | .amp | .bar => 6
  | .pow => 8

/-- The level of an expression; 9 for names, literals, calls, subscripts and whatever is in brackets. -/
def level : Expr → Nat
  | .op o _ _ => opLevel o
  | .not _ => 3
  | .sign _ _ => 7
  | _ => 9

/-- The least level of the left operand: operators group to the left, but comparisons do not chain, and the base of a power is not signed. -/
def leftNeed : Op → Nat
  | .or => 1
  | .and => 2
  | .add | .sub => 5
  | .mul | .div | .cross | .amp | .bar => 6
  | .pow => 9
  | _ => 5

/-- The least level of the right operand. -/
def rightNeed : Op → Nat
  | .or => 2
  | .and => 3
  | .add | .sub => 6
  | .mul | .div | .cross | .amp | .bar => 7
  | .pow => 7
  | _ => 5

/-- A token with its text. -/
def tk (k : Nat) (s : String) : Tok Val := (k, .str s.toList)

/-- The tokens of an operator. -/
def opToks : Op → List (Tok Val)
  | .or => [tk K.or_ "or"]
  | .and => [tk K.and_ "and"]
  | .lt => [tk K.lt "<"]
  | .gt => [tk K.gt ">"]
  | .le => [tk K.lte "<="]
  | .ge => [tk K.gte ">="]
  | .ne => [tk K.neq "!="]
  | .eq => [tk K.isEqual "=="]
  | .isIn => [tk K.in_ "in"]
  | .notIn => [tk K.not_ "not", tk K.in_ "in"]
  | .add => [tk K.plus "+"]
  | .sub => [tk K.minus "-"]
  | .mul => [tk K.star "*"]
  | .div => [tk K.slash "/"]
  | .cross => [tk K.caret "^"]
  | .amp => [tk K.amp "&"]
  | .bar => [tk K.bar "|"]
  | .pow => [tk K.power "**"]

/-- The kinds of tokens for literals. -/
def literalKinds : List Nat := [K.integer, K.hexint, K.octint, K.binint, K.real, K.imaginary, K.shortString, K.longString]

mutual
/-- The tokens of an expression; `kind` says which kind of literal a text is. -/
def put (kind : Str → Nat) : Expr → List (Tok Val)
  | .name s => [(K.id, .str s)]
  | .tag s => [(K.itemTag, .str s)]
  | .lit s => [(kind s, .str s)]
  | .group es => tk K.openParen "(" :: (putList kind es ++ [tk K.closeParen ")"])
  | .list es => tk K.openSq "[" :: (putList kind es ++ [tk K.closeSq "]"])
  | .table ks vs => tk K.openBrace "{" :: (putTable kind ks vs ++ [tk K.closeBrace "}"])
  | .attr p a => put kind p ++ [tk K.dot ".", (K.id, .str a)]
  | .sub p i => put kind p ++ tk K.openSq "[" :: (put kind i ++ [tk K.closeSq "]"])
  | .items p es => put kind p ++ tk K.openSq "[" :: (putList kind es ++ [tk K.closeSq "]"])
  | .slice p parts => put kind p ++ tk K.openSq "[" :: (putSlice kind parts ++ [tk K.closeSq "]"])
  | .slices p => put kind p
  | .int0 => []
  | .call f args => (K.id, .str f) :: tk K.openParen "(" :: (putList kind args ++ [tk K.closeParen ")"])
  | .op o a b => put kind a ++ (opToks o ++ put kind b)
  | .sign m a => (if m then tk K.minus "-" else tk K.plus "+") :: put kind a
  | .not a => tk K.not_ "not" :: put kind a
/-- Expressions separated by commas. -/
def putList (kind : Str → Nat) : List Expr → List (Tok Val)
  | [] => []
  | e :: es => put kind e ++ putMore kind es
/-- Further expressions, each after a comma. -/
def putMore (kind : Str → Nat) : List Expr → List (Tok Val)
  | [] => []
  | e :: es => tk K.comma "," :: (put kind e ++ putMore kind es)
/-- The entries of a table. -/
def putTable (kind : Str → Nat) : List Str → List Expr → List (Tok Val)
  | k :: ks, e :: es => (K.shortString, .str k) :: tk K.colon ":" :: (put kind e ++ putEntries kind ks es)
  | _, _ => []
/-- Further entries of a table. -/
def putEntries (kind : Str → Nat) : List Str → List Expr → List (Tok Val)
  | k :: ks, e :: es => tk K.comma "," :: (K.shortString, .str k) :: tk K.colon ":" :: (put kind e ++ putEntries kind ks es)
  | _, _ => []
/-- `:`, `start:`, `start:finish` or `start:finish:step`; the start is left out for `int0`. -/
def putSlice (kind : Str → Nat) : List Expr → List (Tok Val)
  | [] => [tk K.colon ":"]
  | [a] => put kind a ++ [tk K.colon ":"]
  | [a, b] => put kind a ++ tk K.colon ":" :: put kind b
  | a :: b :: c :: _ => put kind a ++ tk K.colon ":" :: (put kind b ++ tk K.colon ":" :: put kind c)
end

mutual
/-- Every operand has the level that its place needs, and the parts of slices are as they are written. -/
def Fits : Expr → Prop
  | .name _ | .tag _ | .lit _ => True
  | .group es | .list es => FitsAll es
  | .table ks vs => ks.length = vs.length ∧ FitsAll vs
  | .attr p _ => level p = 9 ∧ Fits p
  | .sub p i => level p = 9 ∧ Fits p ∧ Fits i
  | .items p es => level p = 9 ∧ Fits p ∧ 2 ≤ es.length ∧ FitsAll es
  | .slice p parts => level p = 9 ∧ Fits p ∧ FitsSlice parts
  | .slices _ => False
  | .int0 => False
  | .call _ args => FitsAll args
  | .op o a b => leftNeed o ≤ level a ∧ Fits a ∧ rightNeed o ≤ level b ∧ Fits b
  | .sign _ a => 7 ≤ level a ∧ Fits a
  | .not a => 3 ≤ level a ∧ Fits a
/-- All of them fit. -/
def FitsAll : List Expr → Prop
  | [] => True
  | e :: es => Fits e ∧ FitsAll es
/-- The parts of a slice: none, the start, or up to three of which the first may be missing. -/
def FitsSlice : List Expr → Prop
  | [] => True
  | [a] => Fits a
  | [a, b] => (a = .int0 ∨ Fits a) ∧ Fits b
  | [a, b, c] => (a = .int0 ∨ Fits a) ∧ Fits b ∧ Fits c
  | _ => False
end

end Drel
end Verif
