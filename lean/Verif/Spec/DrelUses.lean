import Verif.Spec.DrelStepFits
/-! # The data names dREL methods refer to -/
namespace Verif
namespace DrelMeaning
open DrelPy PyText
variable [CaseFold]

/-- The data names of the keys of a category: `_category.key`. -/
def keysOf (loopable : Dict Str (List Str)) (c : Str) : List Str :=
  match dget loopable c with
  | some ks => ks.map fun k => "_".toList ++ c ++ ".".toList ++ k
  | none => []

/-- The data item named by `p.a`, if `p` names a category or a packet of one. -/
def itemNamed (v : View) (p : Expr) (a : Str) : Option (List Str) :=
  match p with
  | .tag t =>
    match v.alias t with
    | some al => some (v.item (lower al.cat) (lower a)).toList
    | none => some (v.item t a).toList
  | .name x => (v.alias x).map fun al => (v.item (lower al.cat) (lower a)).toList
  | _ => none

mutual
/-- The data names an expression refers to: items, items of packets, and the keys of categories of which packets are chosen. -/
def refers (v : View) (keys : Str → List Str) : Expr → List Str
  | .name _ => []
  | .tag _ => []
  | .lit _ => []
  | .int0 => []
  | .slices _ => []
  | .group es => refersAll v keys es
  | .list es => refersAll v keys es
  | .table _ vs => refersAll v keys vs
  | .attr p a =>
    match itemNamed v p a with
    | some l => l
    | none =>
      refers v keys p ++ (match packetOf v p with
        | some c => (v.item c a).toList
        | none => [])
  | .sub p i =>
    match category v p with
    | some c => keys c ++ refers v keys i
    | none => refers v keys p ++ refers v keys i
  | .items p es => refers v keys p ++ refersAll v keys es
  | .slice p parts => refers v keys p ++ refersAll v keys parts
  | .call f args => if f = "Current_Row".toList then [] else refersAll v keys args
  | .op _ a b => refers v keys a ++ refers v keys b
  | .sign _ a => refers v keys a
  | .not a => refers v keys a
/-- The data names several expressions refer to. -/
def refersAll (v : View) (keys : Str → List Str) : List Expr → List Str
  | [] => []
  | e :: r => refers v keys e ++ refersAll v keys r
end

/-- What is bound after a statement. -/
def after (L : Loops) (mk : Bind → View) (s : Stmt) (b : Bind) : Bind :=
  match does L mk s b with
  | some p => p.2
  | none => b

mutual
/-- The data names a statement refers to. A loop refers to the key of its category. -/
def uses (L : Loops) (mk : Bind → View) (keys : Str → List Str) : Stmt → Bind → List Str
  | .seq ss, b => usesAll L mk keys ss b
  | .assign ts _ vs, b => refersAll (mk b) keys ts ++ refersAll (mk b) keys vs
  | .fancy _ _ vs, b => refersAll (mk b) keys vs
  | .exprs es, b => refersAll (mk b) keys es
  | .print e, b => refers (mk b) keys e
  | .brk, _ => []
  | .next, _ => []
  | .ite c s cs ss, b => refers (mk b) keys c ++ uses L mk keys s b ++ usesArms L mk keys cs ss (after L mk s b)
  | .do_ i a f t s, b => refersAll (mk b) keys [a, f, t] ++ uses L mk keys s { b with packets := forget [i] b.packets }
  | .for_ xs es s, b => refersAll (mk b) keys es ++ uses L mk keys s { b with packets := forget xs b.packets }
  | .rep s, b => uses L mk keys s b
  | .with_ a c s, b => uses L mk keys s (b.inWith (mk b) a c)
  | .loop a c i _ _ s, b => (L.key c).toList ++ uses L mk keys s (b.inLoop a c (indexVar i (b.known.length + 1)))
  | .func _ xs s, b => uses L mk keys s { b with packets := forget xs b.packets }
/-- The data names several statements refer to. -/
def usesAll (L : Loops) (mk : Bind → View) (keys : Str → List Str) : List Stmt → Bind → List Str
  | [], _ => []
  | s :: r, b => uses L mk keys s b ++ usesAll L mk keys r (after L mk s b)
/-- The data names the parts `elseif` and `else` refer to. -/
def usesArms (L : Loops) (mk : Bind → View) (keys : Str → List Str) : List Expr → List Stmt → Bind → List Str
  | c :: cs, s :: ss, b => refers (mk b) keys c ++ uses L mk keys s b ++ usesArms L mk keys cs ss (after L mk s b)
  | [], [s], b => uses L mk keys s b
  | _, _, _ => []
end

end DrelMeaning
end Verif
