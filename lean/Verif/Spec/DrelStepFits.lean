import Verif.Spec.DrelSteps
import Verif.Spec.DrelReady
/-! # Statements the translation is right for

The trees the dREL grammar builds, without the constructions for which the translation is wrong (see `Props/DrelStmtCases.lean`). -/
namespace Verif
namespace DrelMeaning
open DrelPy PyText
variable [CaseFold]

mutual
/-- The names and tags in an expression. -/
def namesIn : Expr → List Str
  | .name s => [s]
  | .tag s => [s]
  | .lit _ => []
  | .group es => namesInAll es
  | .list es => namesInAll es
  | .table _ vs => namesInAll vs
  | .attr p _ => namesIn p
  | .sub p i => namesIn p ++ namesIn i
  | .items p es => namesIn p ++ namesInAll es
  | .slice p parts => namesIn p ++ namesInAll parts
  | .slices p => namesIn p
  | .int0 => []
  | .call _ args => namesInAll args
  | .op _ a b => namesIn a ++ namesIn b
  | .sign _ a => namesIn a
  | .not a => namesIn a
/-- The names and tags in expressions. -/
def namesInAll : List Expr → List Str
  | [] => []
  | e :: r => namesIn e ++ namesInAll r
end

/-- What is bound at a point of the text, and the names the translator has lost sight of: aliases of `with` statements that are over,
which stay bound, and other names for the category of a `with` statement, one of which is removed. So do aliases of `loop` statements. -/
structure Scope extends Bind where
  dead : List Str

/-- An expression the translation is right for, in which no lost name occurs. -/
def sound (env : Env) (sc : Scope) (rhs top : Bool) (e : Expr) : Bool :=
  fits (catsOf env sc.ids) (ownOf env sc.ids) rhs top e && (namesIn e).all fun x => !sc.dead.contains x

/-- Several such expressions. -/
def allSound (env : Env) (sc : Scope) (rhs top : Bool) (es : List Expr) : Bool := es.all (sound env sc rhs top)

/-- A packet chosen from a category. -/
def choosing (cats : Str → Bool) : Expr → Bool
  | .sub p _ => isCategory cats p
  | _ => false

/-- What can be assigned to: variables that are not aliases, data items, and parts of something. -/
def isTarget (ids : Dict Str Alias) (cats : Str → Bool) : Expr → Bool
  | .name x => freeName x && !isPi x && (dget ids x).isNone
  | .attr (.tag _) _ => true
  | .attr (.name x) _ => (dget ids x).isSome
  | .sub p _ => !isCategory cats p
  | .items _ _ => true
  | .slice _ _ => true
  | _ => false

/-- No packets are assigned: no value is a packet, and no variable that is given a value holds one. -/
def noPackets (v : View) (p : Dict Str Str) (ts vs : List Expr) : Bool :=
  (vs.all fun e => (packetOf v e).isNone) && ts.all fun t =>
    match t with
    | .name x => (dget p x).isNone
    | _ => true

/-- One packet is chosen for a variable. -/
def choice (cats : Str → Bool) : List Expr → List Expr → Bool
  | [.name _], [e] => choosing cats e
  | _, _ => false

/-- A name that stands for nothing else. -/
def fresh (sc : Scope) (x : Str) : Bool :=
  varName x && freeName x && !isPi x && (dget sc.ids x).isNone && (dget sc.packets x).isNone && !sc.dead.contains x

/-- Expressions to which `+1` can be appended. -/
def tight : Expr → Bool
  | .op .amp _ _ => false
  | .op .bar _ _ => false
  | e => 5 ≤ level e

/-- Operators that change a variable for which the translator has a function. -/
def hasFunction (o : Str) : Bool := ["+=".toList, "-=".toList, "++=".toList, "--=".toList].contains o

/-- Inside a `with` statement. -/
def Scope.within (env : Env) (sc : Scope) (a c : Str) : Scope :=
  { sc.toBind.inWith (View.of env.names (dkeys env.loopable) [] [] [] []) a c with
    dead := (sc.dead ++ (sc.ids.filter fun p => p.2.cat = c).map (·.1)).filter (· ≠ a) }

/-- Inside a `loop` statement. -/
def Scope.around (sc : Scope) (a c x : Str) : Scope := { sc.toBind.inLoop a c x with dead := sc.dead.filter (· ≠ a) }

/-- A limit of a loop the translation is right for: a variable other than `a`. -/
def limits (sc : Scope) (l : Str) : Bool := varName l && !isPi l && l != "a".toList && !sc.dead.contains l

mutual
/-- The statements of the grammar, without: what does not fit for expressions; `*=` and `/=`; several targets of an operator that changes
a variable; a packet given to anything but a variable, or together with other values, or taken from a variable; a variable that holds a
packet given another value; ranges
with a step other than a positive number, or with an end to which `+1` cannot be appended; names lost sight of; loops limited by a variable `a`, or by a constant. -/
def steps (env : Env) (tg : Str) : Stmt → Scope → Option Scope
  | .seq ss, sc => if ss.isEmpty then none else allSteps env tg ss sc
  | .assign ts o vs, sc =>
    if !ts.isEmpty && !vs.isEmpty && allSound env sc false false ts && ts.all (isTarget sc.ids (catsOf env sc.ids)) &&
        allSound env sc true true vs && (o = "=".toList || (hasFunction o && ts.length == 1 && vs.length == 1)) &&
        ((o = "=".toList && choice (catsOf env sc.ids) ts vs) || noPackets (fullView env tg sc.ids sc.packets) sc.packets ts vs) then
      some { sc with packets := holding (fullView env tg sc.ids sc.packets) ts vs sc.packets }
    else none
  | .fancy _ os vs, sc => if !os.isEmpty && allSound env sc true false vs then some sc else none
  | .exprs es, sc => if !es.isEmpty && allSound env sc false false es then some sc else none
  | .print e, sc => if sound env sc false false e then some sc else none
  | .brk, sc => some sc
  | .next, sc => some sc
  | .ite c s cs ss, sc => if sound env sc false false c then (steps env tg s sc).bind (armSteps env tg cs ss) else none
  | .do_ i a f t s, sc =>
    if fresh sc i && allSound env sc false false [a, f, t] && tight f &&
        (match t with | .lit n => digits n && n.any (· != '0') | _ => false) then
      steps env tg s sc
    else none
  | .for_ xs es s, sc =>
    if !xs.isEmpty && !es.isEmpty && xs.all (fresh sc) && allSound env sc true false es then steps env tg s sc else none
  | .rep s, sc => steps env tg s sc
  | .with_ a c s, sc =>
    if varName a && !isPi a && plain c then
      (steps env tg s (sc.within env a c)).map fun r => { r with ids := sc.ids, dead := a :: r.dead }
    else none
  | .loop a c i o l s, sc =>
    if varName a && !isPi a && plain c && (i.isEmpty || fresh sc i) && (o.isEmpty || limits sc l) then
      (steps env tg s (sc.around a c (indexVar i (sc.known.length + 1)))).map fun r =>
        { r with ids := sc.ids, inner := sc.inner, dead := a :: r.dead }
    else none
  | .func f xs s, sc =>
    if varName f && freeName f && xs.all (fresh sc) && (xs ++ ["ciffile".toList]).Nodup then
      (steps env tg s sc).bind fun r => if r.packets = sc.packets then some { sc with known := r.known, dead := r.dead } else none
    else none
/-- Several statements. -/
def allSteps (env : Env) (tg : Str) : List Stmt → Scope → Option Scope
  | [], sc => some sc
  | s :: r, sc => (steps env tg s sc).bind (allSteps env tg r)
/-- The parts `elseif` and `else`. -/
def armSteps (env : Env) (tg : Str) : List Expr → List Stmt → Scope → Option Scope
  | c :: cs, s :: ss, sc => if sound env sc false false c then (steps env tg s sc).bind (armSteps env tg cs ss) else none
  | [], [s], sc => steps env tg s sc
  | [], [], sc => some sc
  | _, _, _ => none
end

/-- What is bound where a method begins: in the method of an item of the category `c`, `_c` is the current packet of `c`, or its only
packet. -/
def atStart (env : Env) (item : Bool) (c : Str) : Bind :=
  { ids := if item then [('_' :: c, currentPacket (fullView env [] [] []) c)] else [], packets := [],
    known := if item then [('_' :: c, c)] else [], inner := [] }

/-- What a dictionary says of the categories that are looped over: the names of the items are those in its table, in some order. -/
def Loops.of (names : Dict (Str × Str) (List Str)) (keyOf : Dict Str Str) (order : List Str → List Str) : Loops where
  names c := order ((names.filter fun p => p.1.1 = lower c).filterMap fun p => p.2.head?).eraseDups
  key c := dget keyOf (lower c)

/-- What the dictionary says of categories. -/
abbrev loopsOf (d : Dic) : Loops := Loops.of d.names d.keyOf d.order

/-- A dictionary whose categories can be looped over: `order` only orders; the table has every object once, with a name; keys have no
quotes or backslashes. -/
structure DicOk (d : Dic) : Prop where
  order : ∀ l x, x ∈ d.order l → x ∈ l
  once : (dkeys d.names).Nodup
  named : ∀ p ∈ d.names, p.2 ≠ []
  keys : ∀ c k, dget d.keyOf c = some k → plain k = true

end DrelMeaning
end Verif
