import Verif.Model.DrelPy
import Verif.Spec.PyText
/-! # What a dREL expression stands for

The Python expression a dREL expression stands for, given what the names in it refer to. Operators keep their operands, whatever
stands around them. Of the translator only the type of syntax trees is used. -/
namespace Verif
namespace DrelMeaning
open DrelPy PyText
variable [CaseFold]

/-- What names refer to. -/
structure View where
  /-- the name of the data item of a category and an object, in the dictionary -/
  item : Str → Str → Option Str
  /-- the item that is being derived, in lower case -/
  target : Str
  /-- names bound to a category by `loop` and `with`, and the category of the target -/
  alias : Str → Option Alias
  /-- variables that hold a packet, with its category -/
  packet : Str → Option Str
  /-- the Python variable that holds the value of an item in the current packet -/
  var : Str → Option Str
  /-- categories that are loops -/
  loopable : Str → Bool

/-- `a.b.c` -/
def dotted : Str → List Str → Py
  | a, r => r.foldl .attr (.name a)

/-- `f(args)` for a dotted name `f`. -/
def apply (a : Str) (r : List Str) (args : List Py) : Py := .call (dotted a r) args

/-- `ciffile[name]` -/
def stored (n : Str) : Py := .index (.name "ciffile".toList) (.str n)

/-- `getattr(e, name)` -/
def member (e : Py) (n : Str) : Py := .call (.name "getattr".toList) [e, .str n]

/-- The packet of category `c` with key `k`. -/
def keyed (k : Py) (c : Str) : Py := apply "ciffile".toList ["GetKeyedSemanticPacket".toList] [k, .str c]

/-- The item being derived, or the value `e` of another one. -/
def orTarget (v : View) (n : Str) (e : Option Py) : Option Py :=
  if lower n = v.target then some (.name "__dreltarget".toList) else e

/-- Object `a` of the category a name is bound to: in the packet of the loop, in the current packet, or in a category of one
packet. Only in the last two cases can it be the value being derived. -/
def current (v : View) (al : Alias) (a : Str) : Option Py :=
  (v.item (lower al.cat) (lower a)).bind fun n =>
    if al.loop then some (.index (stored (lower n)) (.name al.index))
    else
      orTarget v n <|
        if al.index = [] then some (stored (lower n))
        else (v.var (lower n)).map .name

/-- Characters that can stand in a Python string of one line without being taken for something else. -/
def plainChar (c : Char) : Bool := c != '\'' && c != '"' && c != '\\' && c != '\n'

/-- A literal: a number, or a text between quotes in which neither the quotes nor backslashes nor line ends occur. -/
def literal (s : Str) : Option Py :=
  if isNumber s then some (.num s)
  else
    match s with
    | [] => none
    | c :: r =>
      let (q, body) := if isPrefix c then (r.head?, r.tail) else (some c, r)
      match q with
      | none => none
      | some q =>
        if isQuote q ∧ body.getLast? = some q ∧ body.dropLast.all fun d => d != q && d != '\\' && d != '\n' then
          some (.str body.dropLast)
        else none

/-- The operator as Python writes it, for those Python has with the same meaning. -/
def pythonOp : Op → Option Str
  | .or => some "or".toList
  | .and => some "and".toList
  | .lt => some "<".toList
  | .gt => some ">".toList
  | .le => some "<=".toList
  | .ge => some ">=".toList
  | .ne => some "!=".toList
  | .eq => some "==".toList
  | .isIn => some "in".toList
  | .notIn => some "not in".toList
  | .amp => some "&".toList
  | .bar => some "|".toList
  | .pow => some "**".toList
  | _ => none

/-- Operators of dREL also apply to vectors and matrices, which Python's do not. -/
def operation (o : Op) (a b : Py) : Py :=
  match o with
  | .add => apply "drel_runtime".toList ["drel_add".toList] [a, b]
  | .sub => apply "numpy".toList ["subtract".toList] [a, b]
  | .mul => apply "drel_runtime".toList ["drel_dot".toList] [a, b]
  | .div => apply "numpy".toList ["true_divide".toList] [a, b]
  | .cross => apply "numpy".toList ["cross".toList] [a, b]
  | o =>
    match pythonOp o with
    | some s => .bin s a b
    | none => .none

/-- Functions called the same way under another name. -/
def renamed : List (Str × Str × List Str) :=
  [("table".toList, "dict".toList, []), ("array".toList, "numpy".toList, ["array".toList]), ("len".toList, "len".toList, []),
   ("abs".toList, "abs".toList, []), ("magn".toList, "abs".toList, []), ("atoi".toList, "int".toList, []),
   ("float".toList, "float".toList, []), ("str".toList, "str".toList, []),
   ("norm".toList, "numpy".toList, ["linalg".toList, "norm".toList]), ("sqrt".toList, "math".toList, ["sqrt".toList]),
   ("exp".toList, "math".toList, ["exp".toList]), ("complex".toList, "complex".toList, []), ("max".toList, "max".toList, []),
   ("min".toList, "min".toList, []), ("strip".toList, "drel_runtime".toList, ["drel_strip".toList]),
   ("int".toList, "drel_runtime".toList, ["drel_int".toList]), ("eigen".toList, "drel_runtime".toList, ["drel_eigen".toList]),
   ("hash".toList, "hash".toList, [])]

/-- Functions of an angle in degrees. -/
def ofDegrees : List (Str × Str) := [("sind".toList, "sin".toList), ("cosd".toList, "cos".toList), ("tand".toList, "tan".toList)]

/-- Functions giving an angle in degrees. -/
def inDegrees : List (Str × Str) :=
  [("acosd".toList, "acos".toList), ("asind".toList, "asin".toList), ("atand".toList, "atan".toList),
   ("atan2d".toList, "atan2".toList)]

/-- Functions of one argument that are methods (`true`) or attributes in Python. -/
def methods : List (Str × Str × Bool) :=
  [("upper".toList, "upper".toList, true), ("transpose".toList, "T".toList, false), ("real".toList, "real".toList, false),
   ("imag".toList, "imag".toList, false)]

/-- A function call. Names of built-in functions are known in any case of letters; other functions are given the data file. -/
def called (f : Str) (args : List Py) : Option Py :=
  if lower f = "list".toList then
    some (apply "list".toList [] (if 1 < args.length then [.list args] else args))
  else if lower f = "mod".toList then some (.index (apply "divmod".toList [] args) (.num "1".toList))
  else if lower f = "matrix".toList then
    some (.call (.attr (apply "numpy".toList ["matrix".toList] args) "astype".toList) [.str "float64".toList])
  else if lower f = "expimag".toList then
    match args with
    | [x] => some (apply "cmath".toList ["exp".toList] [.bin "*".toList (.num "1j".toList) x])
    | _ => none
  else if lower f = "sort".toList then
    match args with
    | [x] => some (apply "sorted".toList [] [x])
    | _ => none
  else
    match dget renamed (lower f), dget ofDegrees (lower f), dget inDegrees (lower f), dget methods (lower f) with
    | some (a, r), _, _, _ => some (apply a r args)
    | _, some g, _, _ =>
      match args with
      | [x] => some (apply "math".toList [g] [apply "math".toList ["radians".toList] [x]])
      | _ => none
    | _, _, some g, _ => some (apply "math".toList ["degrees".toList] [apply "math".toList [g] args])
    | _, _, _, some (g, m) =>
      match args with
      | [x] => some (if m then .call (.attr x g) [] else .attr x g)
      | _ => none
    | none, none, none, none => some (.call (.name f) (args ++ [.name "ciffile".toList]))

/-- The category whose packets a subscript chooses from, if the subscripted expression is a category. -/
def category (v : View) : Expr → Option Str
  | .tag t => some t.tail
  | .name x =>
    match v.alias x with
    | some al => some al.cat
    | none => if v.loopable x then some x else none
  | _ => none

/-- The category of the packet an expression stands for, if it is a packet. -/
def packetOf (v : View) : Expr → Option Str
  | .name x => v.packet x
  | .sub p _ => category v p
  | _ => none

/-- Object `a` of what is named: a data item, if a category is named. -/
def item (v : View) (p : Expr) (a : Str) : Option (Option Py) :=
  match p with
  | .tag t =>
    match v.alias t with
    | some al => some (current v al a)
    | none => some ((v.item t a).bind fun n => orTarget v n (some (stored (lower n))))
  | .name x => (v.alias x).map fun al => current v al a
  | _ => none

/-- All are present. -/
def allSome : List (Option Py) → Option (List Py)
  | [] => some []
  | none :: _ => none
  | some a :: r => (allSome r).map (a :: ·)

/-- One to three parts of a slice. -/
def slicing : List Py → Option Py
  | [s] => some (.slice s .none .none)
  | [s, f] => some (.slice s f .none)
  | [s, f, t] => some (.slice s f t)
  | _ => none

mutual
/-- The Python expression a dREL expression stands for. -/
def means (v : View) : Expr → Option Py
  | .name s =>
    if lower s = "twopi".toList then some (.bin "*".toList (.num "2.0".toList) (dotted "math".toList ["pi".toList]))
    else if lower s = "pi".toList then some (dotted "math".toList ["pi".toList])
    else some (.name s)
  | .tag _ => none
  | .lit s => literal s
  | .group es =>
    match meanings v es with
    | some [e] => some e
    | some (e :: r) => some (.tuple (e :: r))
    | _ => none
  | .list es => (meanings v es).map fun l => apply "StarList".toList [] [.list l]
  | .table ks vs =>
    match allSome (ks.map literal), meanings v vs with
    | some ks, some vs => some (if ks.isEmpty then apply "StarTable".toList [] [.dict [] []] else .dict ks vs)
    | _, _ => none
  | .attr p a =>
    match item v p a with
    | some r => r
    | none =>
      (means v p).bind fun e =>
        match packetOf v p with
        | some c => (v.item c a).map (member e)
        | none => some (member e a)
  | .sub p i =>
    match category v p with
    | some c => if v.loopable c then (means v i).map fun k => keyed k c else none
    | none =>
      match means v p, means v i with
      | some e, some k => some (.index e k)
      | _, _ => none
  | .items p es =>
    match means v p, meanings v es with
    | some e, some l => some (.index e (.tuple l))
    | _, _ => none
  | .slice p parts =>
    match means v p, meanings v parts with
    | some e, some l => (slicing l).map (.index e)
    | _, _ => none
  | .slices _ => none
  | .int0 => none
  | .call f args =>
    if f = "Current_Row".toList then some (.name "__current_row".toList)
    else (meanings v args).bind (called f)
  | .op o a b =>
    match means v a, means v b with
    | some a, some b => some (operation o a b)
    | _, _ => none
  | .sign minus a =>
    (means v a).map fun e =>
      apply "drel_runtime".toList ["drel_dot".toList] [.un (if minus then "-".toList else "+".toList) (.num "1".toList), e]
  | .not a => (means v a).map (.un "not".toList)
/-- The meanings of several expressions. -/
def meanings (v : View) : List Expr → Option (List Py)
  | [] => some []
  | e :: r =>
    match means v e, meanings v r with
    | some e, some r => some (e :: r)
    | _, _ => none
end

end DrelMeaning
end Verif
