import Verif.Model.DrelStmt
import Verif.Spec.DrelMeaning
import Verif.Spec.PyStmt
/-! # What dREL statements stand for

The Python statements dREL statements stand for. Of the translator only the types of syntax trees and of aliases are used. -/
namespace Verif
namespace DrelMeaning
open DrelPy PyText
variable [CaseFold]

/-- What names are bound to: categories, and packets. The other two fields are for the variables of loops: `known` has the aliases that
are counted to number them, with their categories, and `inner` the indices of the loops around. -/
structure Bind where
  ids : Dict Str Alias
  packets : Dict Str Str
  known : Dict Str Str
  inner : List Str

/-- What the dictionary says of a category that is looped over: the names of its items, and its key. -/
structure Loops where
  names : Str → List Str
  key : Str → Option Str

/-- Operators that change a variable. The first four also apply to lists and matrices. -/
def changed (o : Str) (t v : Py) : Option Py :=
  let run := fun (f : Str) => some (apply "drel_runtime".toList [f] [t, v])
  if o = "+=".toList then run "aug_add".toList
  else if o = "-=".toList then run "aug_sub".toList
  else if o = "++=".toList then run "aug_append".toList
  else if o = "--=".toList then run "aug_remove".toList
  else if o = "*=".toList then some (operation .mul t v)
  else if o = "/=".toList then some (operation .div t v)
  else none

/-- An assignment. -/
def assignment (o : Str) (ts vs : List Py) : Option PyS :=
  if o = "=".toList then some (.assign ts vs)
  else
    match ts, vs with
    | [t], [v] => (changed o t v).map fun e => .assign [t] [e]
    | _, _ => none

/-- The packets that variables hold after an assignment: a variable holds a packet if it was last given one. -/
def holding (v : View) : List Expr → List Expr → Dict Str Str → Dict Str Str
  | .name x :: ts, e :: es, p =>
    holding v ts es (match packetOf v e with
      | some c => dset p x c
      | none => ddel p x)
  | .name x :: ts, [], p => holding v ts [] (ddel p x)
  | _ :: ts, es, p => holding v ts es.tail p
  | [], _, p => p

/-- Variables that are given other values hold no packets any more. -/
def forget (xs : List Str) (p : Dict Str Str) : Dict Str Str := xs.foldl ddel p

/-- A value added to the column `n` of the category that is being made. -/
def addValue (n : Str) (e : Py) : PyS :=
  .expr [.call (dotted "__dreltarget".toList ["update".toList])
    [.dict [.str n] [.bin "+".toList (.call (dotted "__dreltarget".toList ["get".toList]) [.str n, .list []]) (.list [e])]]]

/-- Values for objects of the category that is being made. -/
def addValues (v : View) (c : Str) : List Str → List Expr → Option (List PyS)
  | [], [] => some []
  | o :: os, e :: es =>
    match v.item c o, means v e, addValues v c os es with
    | some n, some e, some r => some (addValue n e :: r)
    | _, _, _ => none
  | _, _ => none

/-- The end of the range for a loop that includes its last value, for steps of which the direction is known. -/
def lastOf (step : Expr) (f : Py) : Option Py :=
  match step with
  | .lit s => if digits s && s.any (· != '0') then some (.bin "+".toList f (.num "1".toList)) else none
  | .sign true (.lit s) => if digits s && s.any (· != '0') then some (.bin "-".toList f (.num "1".toList)) else none
  | _ => none

/-- What a name is bound to by `with`: the current packet if the category is a loop, else its only packet. -/
def currentPacket (v : View) (c : Str) : Alias := { cat := c, index := if v.loopable c then "looped_cat".toList else [], loop := false }

/-- Inside a `with` statement. Another alias of the category is not counted any more. -/
def Bind.inWith (b : Bind) (v : View) (a c : Str) : Bind :=
  { b with
    ids := dset b.ids a (currentPacket v c)
    known := dset (match b.known.find? fun p => p.2 = c with
      | some p => ddel b.known p.1
      | none => b.known) a c }

/-! ## Loops over categories -/

/-- The variable for the rows of the `n`-th loop. -/
def rangeVar (n : Nat) : Str := "__loop_range".toList ++ Nat.toDigits 10 n

/-- The index of the `n`-th loop: the one that is given, if any. -/
def indexVar (i : Str) (n : Nat) : Str := if i = [] then "__pi".toList ++ Nat.toDigits 10 n else i

/-- Inside a `loop` statement with the index `x`. -/
def Bind.inLoop (b : Bind) (a c x : Str) : Bind where
  ids := dset b.ids a { cat := c, index := x, loop := true }
  packets := forget [x] b.packets
  known := dset b.known a c
  inner := x :: b.inner

/-- `print(text % repr(x))` -/
def shown (text x : Str) : PyS :=
  .expr [apply "print".toList [] [.bin "%".toList (.str text) (apply "repr".toList [] [.name x])]]

/-- The names of the category that the data block has. -/
def presentNames : PyS :=
  .assign [.name "__pycitems".toList] [.comp "a".toList "a".toList (.name "__pyallitems".toList)
    (apply "ciffile".toList ["has_key_or_alias".toList] [.name "a".toList])]

/-- The rows of a category with the items `names`: there are as many as values of an item that is present. If there is none, the
category is made first by asking for its key. What is found is printed. -/
def allRows (names : List Str) (key : Str) (n : Nat) : List PyS :=
  [.assign [.name "__pyallitems".toList] [.set (names.map .str)],
   shown "names in cat = %s".toList "__pyallitems".toList,
   presentNames,
   shown "names in cat -> %s".toList "__pycitems".toList,
   .ite (.bin "==".toList (apply "len".toList [] [.name "__pycitems".toList]) (.num "0".toList))
     [.assign [.name "__pydummy".toList] [stored key],
      presentNames,
      .expr [apply "print".toList [] [.bin "+".toList (.str "After category creation, names in cat ->".toList)
        (apply "repr".toList [] [.name "__pycitems".toList])]]] [],
   .assign [.name (rangeVar n)] [apply "range".toList [] [apply "len".toList []
     [.index (.name "ciffile".toList) (.index (.name "__pycitems".toList) (.num "0".toList))]]]]

/-- The comparisons that may limit a loop. -/
def comparisons : List Str := ["<".toList, ">".toList, ">=".toList, "<=".toList, "!=".toList, "==".toList]

/-- The rows whose numbers compare with the limit, if there is one. The variable of the comprehension is not the limit. -/
def someRows (v : View) (n : Nat) (o l : Str) : Option (List PyS) :=
  if o = [] then some []
  else if comparisons.contains o then
    (means v (.name l)).map fun e =>
      let x := if l = "a".toList then "b".toList else "a".toList
      [.assign [.name (rangeVar n)] [.comp x x (.name (rangeVar n)) (.bin o (.name x) e)]]
  else none

mutual
/-- The Python statements for a statement, and what is bound after it; `mk` tells what names refer to. `with` and `loop` make an alias for
their bodies only; what variables hold is told from the text, statement by statement. A loop is over a category that is a loop and has
items, and its index is not that of a loop around it. -/
def does (L : Loops) (mk : Bind → View) : Stmt → Bind → Option (List PyS × Bind)
  | .seq ss, b => doesAll L mk ss b
  | .assign ts o vs, b =>
    match meanings (mk b) ts, meanings (mk b) vs with
    | some t, some v => (assignment o t v).map fun s => ([s], { b with packets := holding (mk b) ts vs b.packets })
    | _, _ => none
  | .fancy c os vs, b => (addValues (mk b) c os vs).map fun l => (l, b)
  | .exprs es, b => (meanings (mk b) es).map fun l => (l.map fun e => .expr [e], b)
  | .print e, b => (means (mk b) e).map fun e => ([.expr [apply "print".toList [] [e]]], b)
  | .brk, b => some ([.brk], b)
  | .next, b => some ([.cont], b)
  | .ite c s cs ss, b =>
    match means (mk b) c, does L mk s b with
    | some c, some (s, b) => (doesArms L mk cs ss b).map fun p => ([.ite c s p.1], p.2)
    | _, _ => none
  | .do_ i a f t s, b =>
    match means (mk b) a, means (mk b) f, means (mk b) t, does L mk s { b with packets := forget [i] b.packets } with
    | some a, some f, some t', some (s, b) =>
      (lastOf t f).map fun l => ([.for_ [i] [apply "range".toList [] [a, l, t']] s], b)
    | _, _, _, _ => none
  | .for_ xs es s, b =>
    match meanings (mk b) es, does L mk s { b with packets := forget xs b.packets } with
    | some es, some (s, b) => some ([.for_ xs (es.map fun e => apply "copy".toList [] [e]) s], b)
    | _, _ => none
  | .rep s, b => (does L mk s b).map fun p => ([.while_ (.name "True".toList) p.1], p.2)
  | .with_ a c s, b =>
    (does L mk s (b.inWith (mk b) a c)).map fun p => (p.1, { p.2 with ids := b.ids })
  | .loop a c i o l s, b =>
    if (mk b).loopable c && !(L.names c).isEmpty && !b.inner.contains (indexVar i (b.known.length + 1)) then
      match L.key c, someRows (mk b) (b.known.length + 1) o l, does L mk s (b.inLoop a c (indexVar i (b.known.length + 1))) with
      | some k, some r, some (s, b') =>
        some (allRows (L.names c) k (b.known.length + 1) ++ r ++
          [.for_ [indexVar i (b.known.length + 1)] [.name (rangeVar (b.known.length + 1))] s], { b' with ids := b.ids, inner := b.inner })
      | _, _, _ => none
    else none
  | .func f xs s, b =>
    (does L mk s { b with packets := forget xs b.packets }).map fun p =>
      ([.def_ f (xs ++ ["ciffile".toList]) (p.1 ++ [.ret (.name f)])], { b with known := p.2.known })
/-- The Python statements for several statements. -/
def doesAll (L : Loops) (mk : Bind → View) : List Stmt → Bind → Option (List PyS × Bind)
  | [], b => some ([], b)
  | s :: r, b =>
    match does L mk s b with
    | some (s, b) => (doesAll L mk r b).map fun p => (s ++ p.1, p.2)
    | none => none
/-- The parts `elseif` and `else`. -/
def doesArms (L : Loops) (mk : Bind → View) : List Expr → List Stmt → Bind → Option (List PyS × Bind)
  | c :: cs, s :: ss, b =>
    match means (mk b) c, does L mk s b with
    | some c, some (s, b) => (doesArms L mk cs ss b).map fun p => ([.ite c s p.1], p.2)
    | _, _ => none
  | [], [s], b => does L mk s b
  | [], [], b => some ([], b)
  | _, _, _ => none
end

end DrelMeaning
end Verif
