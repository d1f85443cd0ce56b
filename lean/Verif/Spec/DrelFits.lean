import Verif.Spec.DrelMeaning
/-! # Expressions the translation is right for

The trees the dREL grammar builds, without the constructions for which the translation is wrong (see `Props/DrelPy.lean`). -/
namespace Verif
namespace PyText

/-- Names that are not keywords of Python. -/
def pyName (s : Str) : Bool :=
  match s with
  | [] => false
  | c :: r => nameStart c && r.all nameChar && !keywords.contains (c :: r)

end PyText
namespace DrelMeaning
open DrelPy PyText
variable [CaseFold]

/-- How tightly the outermost operation binds in dREL (drel_ast_yacc.py 118-208). -/
def level : Expr → Nat
  | .op .or _ _ => 1
  | .op .and _ _ => 2
  | .not _ => 3
  | .op .add _ _ | .op .sub _ _ => 5
  | .op .mul _ _ | .op .div _ _ | .op .cross _ _ | .op .amp _ _ | .op .bar _ _ => 6
  | .sign _ _ => 7
  | .op .pow _ _ => 8
  | .op _ _ _ => 4
  | _ => 9

/-- How tightly the operands of an operator must bind in dREL. -/
def operands : Op → Nat × Nat
  | .or => (1, 2)
  | .and => (2, 3)
  | .add | .sub => (5, 6)
  | .mul | .div | .cross | .amp | .bar => (6, 7)
  | .pow => (9, 7)
  | _ => (5, 5)

/-- A union (`|`), which in Python binds less tightly than an intersection (`&`), in dREL as tightly. -/
def isBar : Expr → Bool
  | .op .bar _ _ => true
  | _ => false

/-- The names of numbers. -/
def isPi (s : Str) : Bool := lower s = "pi".toList || lower s = "twopi".toList

/-- Names of variables, which are not keywords of Python. -/
def varName (s : Str) : Bool := pyName s && s.head?.any Char.isAlpha

/-- Tags of categories: an underline and a name. -/
def tagName : Str → Bool
  | '_' :: c :: r => nameChar c && c != '_' && r.all nameChar
  | _ => false

/-- A category, of which a packet is chosen by a subscript. -/
def isCategory (cats : Str → Bool) : Expr → Bool
  | .tag _ => true
  | .name x => cats x
  | _ => false

/-- The names that stand for categories are tags or names of variables. -/
def named : Expr → Bool
  | .tag t => tagName t
  | .name x => varName x && !isPi x
  | _ => false

/-- A name other than those of numbers, or anything but a name. -/
def notPi : Expr → Bool
  | .name x => !isPi x
  | _ => true

/-- A tag of a category. -/
def isTag : Expr → Bool
  | .tag t => tagName t
  | _ => false

/-- Functions that take one argument. -/
def unary : List Str :=
  ["sind".toList, "cosd".toList, "tand".toList, "expimag".toList, "upper".toList, "transpose".toList, "real".toList, "imag".toList]

/-- A name, and an object that `own` finds for it. -/
def ownItem (own : Str → Str → Bool) (p : Expr) (a : Str) : Bool :=
  match p with
  | .tag t => own t a
  | .name x => own x a
  | _ => false

mutual
/-- The trees of the grammar, without: names that are keywords of Python; literals Python does not read the same way; tags without an
object name; lists when they are not on the right side of an assignment (`rhs`); empty brackets; slices without a start; `&` after `|`;
chosen packets of which no object is taken, unless the expression is just that (`top`); the item that is derived in a packet of a loop
(`own`); the function `sort`. -/
def fits (cats : Str → Bool) (own : Str → Str → Bool) (rhs : Bool) : (top : Bool) → Expr → Bool
  | _, .name s => varName s
  | _, .tag _ => false
  | _, .lit s => (literal s).isSome
  | _, .group es => !es.isEmpty && allFit cats own rhs es
  | _, .list es => (rhs || es.isEmpty) && allFit cats own rhs es
  | _, .table ks vs => ks.length == vs.length && ks.all (fun k => (literal k).isSome) && allFit cats own rhs vs
  | _, .attr p a => a.all plainChar && !ownItem own p a && (isTag p || (level p == 9 && notPi p && fits cats own rhs true p))
  | top, .sub p i =>
    (if isCategory cats p then top && named p else level p == 9 && notPi p && fits cats own rhs false p) && fits cats own rhs false i
  | _, .items p es => level p == 9 && fits cats own rhs false p && 2 ≤ es.length && allFit cats own rhs es
  | _, .slice p parts => level p == 9 && fits cats own rhs false p && 1 ≤ parts.length && parts.length ≤ 3 && allFit cats own rhs parts
  | _, .slices _ => false
  | _, .int0 => false
  | _, .call f args =>
    f == "Current_Row".toList || (varName f && lower f != "sort".toList && (!unary.contains (lower f) || args.length == 1) && allFit cats own rhs args)
  | _, .op o a b =>
    (operands o).1 ≤ level a && (operands o).2 ≤ level b && !(o == .amp && isBar a) && fits cats own rhs false a && fits cats own rhs false b
  | _, .sign _ a => fits cats own rhs false a
  | _, .not a => 3 ≤ level a && fits cats own rhs false a
/-- All of the expressions fit. -/
def allFit (cats : Str → Bool) (own : Str → Str → Bool) (rhs : Bool) : List Expr → Bool
  | [] => true
  | e :: r => fits cats own rhs false e && allFit cats own rhs r
end

/-- What names refer to, from the names in the dictionary (by category and object in lower case; the category may be given with its
underline), its loop categories, the item to derive, the aliases, the variables that hold packets, and the variables that stand for
items of the current packet. -/
def View.of (names : Dict (Str × Str) (List Str)) (loops : List Str) (target : Str) (ids : Dict Str Alias) (packets : Dict Str Str)
    (vars : Dict Str Str) : View where
  item c a := if c = [] then none else (dget names (lower (if c.head? = some '_' then c.tail else c), lower a)).bind List.head?
  target := lower target
  alias := dget ids
  packet := dget packets
  var := dget vars
  loopable c := loops.contains c

end DrelMeaning
end Verif
