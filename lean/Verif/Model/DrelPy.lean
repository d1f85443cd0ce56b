import Verif.Model.Block
/-! # Translation of dREL expressions to Python text

Models the expression part of `traverse_ast` of `/repo/src/drel/py_from_ast.nw` 241-502, 693-697, 765-780 with the tables of 40-49,
787-793 and 814-880. The syntax trees are those built by `/repo/src/drel/drel_ast_yacc.py` 110-400; nodes `ATOM` and `EXPR`, which only pass
on the text of the tree inside, are left out, as are the literal nodes of 269-283, which the grammar does not build. -/
namespace Verif
namespace DrelPy
variable [CaseFold]

/-- Binary operators of the grammar (drel_ast_yacc.py 118-199). -/
inductive Op where
  | or | and | lt | gt | le | ge | ne | eq | isIn | notIn | add | sub | mul | div | cross | amp | bar | pow
  deriving DecidableEq, Repr

/-- Syntax trees of expressions (drel_ast_yacc.py 110-400). -/
inductive Expr where
  /-- `["ATOM", ID]` -/
  | name (s : Str)
  /-- `["ATOM", ["ITEM_TAG", s]]` -/
  | tag (s : Str)
  /-- `["ATOM", ["LITERAL", s]]` -/
  | lit (s : Str)
  /-- `["ATOM", ["GROUP", es]]`; the node of `()` is `["GROUP"]`. -/
  | group (es : List Expr)
  /-- `["ATOM", ["LIST"] + es]` -/
  | list (es : List Expr)
  /-- `["ATOM", ["TABLE"] + [(key, value), ...]]` -/
  | table (keys : List Str) (vals : List Expr)
  /-- `["ATTRIBUTE", p, a]` -/
  | attr (p : Expr) (a : Str)
  /-- `["SUBSCRIPTION", p, i]` -/
  | sub (p : Expr) (i : Expr)
  /-- `["SLICE", p, es]` where `es` are expressions -/
  | items (p : Expr) (es : List Expr)
  /-- `["SLICE", p, [parts]]` for a single slice -/
  | slice (p : Expr) (parts : List Expr)
  /-- `["SLICE", p, [..., [parts], ...]]`: a list in which a slice occurs -/
  | slices (p : Expr)
  /-- the integer 0 put for a missing start of a slice -/
  | int0
  /-- `["FUNC_CALL", f, args]` -/
  | call (f : Str) (args : List Expr)
  /-- `["MATHOP", op, a, b]` -/
  | op (o : Op) (a b : Expr)
  /-- `["SIGN", sign, a]` -/
  | sign (minus : Bool) (a : Expr)
  /-- `["UNARY", "not", a]` -/
  | not (a : Expr)
  deriving Repr

/-- `p_short_slice` and `p_long_slice` (drel_ast_yacc.py 348-365): the parts noted for `start:finish` or `start:finish:step`, each
part possibly missing. -/
def sliceParts (start finish step : Option Expr) : List Expr :=
  let short := match start, finish with
    | none, none => []
    | some s, some f => [s, f]
    | none, some f => [.int0, f]
    | some s, none => [s]
  match step with
  | some t => short ++ [t]
  | none => short

/-- An entry of `special_id`: `[category, index or "looped_cat" or "", is_loop]` (py_from_ast.nw 190-206, 231-239). -/
structure Alias where
  cat : Str
  index : Str
  loop : Bool
  deriving DecidableEq, Repr

/-- What does not change during a translation: the arguments of `start_traverse` (py_from_ast.nw 229-230) and the table
`cat_obj_lookup_table` of the dictionary. The names of a loopable category, which are not used, are left out of `loopable`. -/
structure Env where
  target : Option Str
  loopable : Dict Str (List Str)
  names : Dict (Str × Str) (List Str)

/-- `special_info` (py_from_ast.nw 231-233). Only one table of special names is ever made. -/
structure St where
  ids : Dict Str Alias
  withtable : Dict Str (Str × Nat × Bool)
  sub : Str
  depends : List Str
  packets : Dict Str Str
  needRow : Bool
  rhs : Option Bool
  inif : Bool
  haveTarget : Bool
  deriving DecidableEq, Repr

/-- `get_name_by_cat_obj` (CifFile_module.nw 1523-1534) without default. -/
def nameOf (env : Env) (cat obj : Str) : Except PyErr Str :=
  match cat with
  | [] => .error .index
  | c :: r =>
    match dget env.names (lower (if c = '_' then r else c :: r), lower obj) with
    | some (n :: _) => .ok n
    | some [] => .error .index
    | none => .error .key

/-- `special_info["depends"].add(name)`. -/
def St.depend (st : St) (n : Str) : St :=
  if n ∈ st.depends then st else { st with depends := st.depends ++ [n] }

/-- `special_info["depends"].update(names)`. -/
def St.dependAll (st : St) : List Str → St
  | [] => st
  | n :: r => (st.depend n).dependAll r

/-- `api_table["data_access"]` (py_from_ast.nw 42). -/
def dataAccess (s : Str) : Str := "ciffile[".toList ++ s ++ "]".toList

/-- `api_table["semantic_packet"]` (py_from_ast.nw 48). -/
def semanticPacket (k c : Str) : Str := "ciffile.GetKeyedSemanticPacket(".toList ++ k ++ ",".toList ++ c ++ ")".toList

/-- A text between quotes `q`. -/
def quoted (q : Char) (s : Str) : Str := q :: (s ++ [q])

/-- Texts joined with commas: adding a comma after each and dropping the last one. -/
def commas : List Str → Str
  | [] => []
  | [a] => a
  | a :: b :: r => a ++ ',' :: commas (b :: r)

/-- `mathop_table` (py_from_ast.nw 788-793); `none` for the operators given to `fix_mathops`. -/
def opText : Op → Option Str
  | .or => some " or ".toList
  | .and => some " and ".toList
  | .lt => some "<".toList
  | .gt => some ">".toList
  | .le => some "<=".toList
  | .ge => some ">=".toList
  | .ne => some "!=".toList
  | .eq => some "==".toList
  | .isIn => some " in ".toList
  | .notIn => some " not in ".toList
  | .amp => some "&".toList
  | .bar => some "|".toList
  | .pow => some "**".toList
  | .add | .sub | .mul | .div | .cross => none

/-- The function named in `fix_mathops` (py_from_ast.nw 868-880), with the opening bracket. -/
def fixName : Op → Str
  | .cross => "numpy.cross(".toList
  | .mul => "drel_runtime.drel_dot(".toList
  | .add => "drel_runtime.drel_add(".toList
  | .sub => "numpy.subtract(".toList
  | .div => "numpy.true_divide(".toList
  | _ => []

/-- The node `MATHOP` (py_from_ast.nw 766-774) with `fix_mathops`. -/
def mathop (o : Op) (a b : Str) : Str :=
  match opText o with
  | some t => a ++ t ++ b
  | none => fixName o ++ a ++ ",".toList ++ b ++ ")".toList

/-- Built-in functions renamed (py_from_ast.nw 818-838). -/
def builtins : Dict Str Str :=
  [("table".toList, "dict".toList), ("list".toList, "list".toList), ("array".toList, "numpy.array".toList),
   ("len".toList, "len".toList), ("abs".toList, "abs".toList), ("magn".toList, "abs".toList), ("atoi".toList, "int".toList),
   ("float".toList, "float".toList), ("str".toList, "str".toList), ("norm".toList, "numpy.linalg.norm".toList),
   ("sqrt".toList, "math.sqrt".toList), ("exp".toList, "math.exp".toList), ("complex".toList, "complex".toList),
   ("max".toList, "max".toList), ("min".toList, "min".toList), ("strip".toList, "drel_runtime.drel_strip".toList),
   ("int".toList, "drel_runtime.drel_int".toList), ("eigen".toList, "drel_runtime.drel_eigen".toList),
   ("hash".toList, "hash".toList)]

/-- Other functions: name, prefix of every argument, what is appended (py_from_ast.nw 843-860). -/
def others : Dict Str (Str × Str × Str) :=
  [("sind".toList, "math.sin".toList, "math.radians(".toList, ")".toList),
   ("cosd".toList, "math.cos".toList, "math.radians(".toList, ")".toList),
   ("tand".toList, "math.tan".toList, "math.radians(".toList, ")".toList),
   ("acosd".toList, "math.degrees(math.acos".toList, [], ")".toList),
   ("asind".toList, "math.degrees(math.asin".toList, [], ")".toList),
   ("atand".toList, "math.degrees(math.atan".toList, [], ")".toList),
   ("atan2d".toList, "math.degrees(math.atan2".toList, [], ")".toList),
   ("mod".toList, "divmod".toList, [], "[1]".toList),
   ("upper".toList, [], [], ".upper()".toList),
   ("transpose".toList, [], [], ".T".toList),
   ("expimag".toList, "cmath.exp".toList, "1j*(".toList, ")".toList),
   ("real".toList, [], [], ".real".toList),
   ("imag".toList, [], [], ".imag".toList),
   ("matrix".toList, "numpy.matrix".toList, [], ".astype('float64')".toList),
   ("sort".toList, [], [], ".sort()".toList)]

/-- `get_function_name` (py_from_ast.nw 815-861): Python's name, a prefix for every argument, and what is appended; `none` in the
last place for functions of the dictionary. -/
def functionName (f : Str) : Str × Str × Option Str :=
  match dget builtins (lower f) with
  | some n => (n, [], some [])
  | none =>
    match dget others (lower f) with
    | some (n, p, q) => (n, p, some q)
    | none => (f, [], none)

/-- The text of a call from the texts of its arguments (py_from_ast.nw 489-501). `outstring[:-1]` drops the comma after the last
argument, or the blank after the bracket if there is none. -/
def callText (f : Str) (args : List Str) : Str :=
  let (n, pre, post) := functionName f
  let bracket := n = "list".toList ∧ 1 < args.length
  match post with
  | none => n ++ "( ".toList ++ (args.map fun a => pre ++ a ++ ",".toList).flatten ++ "ciffile)".toList
  | some q =>
    (if bracket then n ++ "( [".toList ++ commas (args.map (pre ++ ·)) ++ "]".toList
     else if args = [] then n ++ "(".toList
     else n ++ "( ".toList ++ commas (args.map (pre ++ ·))) ++ ")".toList ++ q

/-- Entries of a table (py_from_ast.nw 324-325). -/
def entries : List Str → List Str → List Str
  | k :: ks, v :: vs => (k ++ ":".toList ++ v) :: entries ks vs
  | _, _ => []

/-- The text of one slice from the texts of its parts (py_from_ast.nw 333-344). For no parts `one_slice[0]` raises. -/
def sliceText : List Str → Except PyErr Str
  | [] => .error .index
  | [s] => .ok (s ++ ":".toList)
  | [s, f] => .ok (s ++ ":".toList ++ f)
  | [s, f, t] => .ok (s ++ ":".toList ++ f ++ ":".toList ++ t)
  | s :: f :: _ => .ok (s ++ ":".toList ++ f)

/-- `"__w%d" % n`. -/
def withVar (n : Nat) : Str := "__w".toList ++ Nat.toDigits 10 n

/-- The part of the node `ATTRIBUTE` for special names (py_from_ast.nw 430-450). With no target, `None.lower()` raises. -/
def specialAttr (env : Env) (al : Alias) (a : Str) (st : St) : Except PyErr (Str × St) :=
  match nameOf env (lower al.cat) (lower a) with
  | .error e => .error e
  | .ok n =>
    match env.target with
    | none => .error .attribute
    | some tg =>
      if lower n = lower tg then .ok ("__dreltarget".toList, { st with haveTarget := true })
      else if al.loop ∨ al.index = [] then
        .ok (dataAccess (quoted '"' (lower n)) ++ (if al.index = [] then [] else "[".toList ++ al.index ++ "]".toList),
          st.depend (lower n))
      else
        match dget st.withtable (lower n) with
        | some w => .ok (w.1, st.depend (lower n))
        | none =>
          .ok (withVar st.withtable.length,
            { st with withtable := dset st.withtable (lower n) (withVar st.withtable.length, st.withtable.length, st.inif) }.depend
              (lower n))

/-- The part of the node `ATTRIBUTE` for item tags (py_from_ast.nw 451-459). -/
def tagAttr (env : Env) (t a : Str) (st : St) : Except PyErr (Str × St) :=
  match nameOf env t a with
  | .error e => .error e
  | .ok n =>
    match env.target with
    | none => .error .attribute
    | some tg =>
      if lower tg = lower n then .ok ("__dreltarget".toList, { st with haveTarget := true })
      else .ok (dataAccess (quoted '\'' (lower n)), st.depend (lower n))

/-- `"getattr(" + primary + ",'" + fullname + "')"` (py_from_ast.nw 471). -/
def getattrText (p n : Str) : Str := "getattr(".toList ++ p ++ ",".toList ++ quoted '\'' n ++ ")".toList

/-- The part of the node `ATTRIBUTE` for other primaries (py_from_ast.nw 460-473). -/
def plainAttr (env : Env) (p a : Str) (st : St) : Except PyErr (Str × St) :=
  match dget st.packets p with
  | some c =>
    match nameOf env c a with
    | .error e => .error e
    | .ok n => .ok (getattrText p n, { st.depend n with sub := [] })
  | none =>
    if st.sub ≠ [] then
      match nameOf env st.sub a with
      | .error e => .error e
      | .ok n => .ok (getattrText p n, { st.depend n with sub := [] })
    else .ok (getattrText p a, { st with sub := [] })

/-- `in_node[1][0] == "ATOM"`. -/
def isAtom : Expr → Bool
  | .name _ | .tag _ | .lit _ | .group _ | .list _ | .table _ _ => true
  | _ => false

/-- The node `ATTRIBUTE` from the text of its primary (py_from_ast.nw 422-474). -/
def attrText (env : Env) (atom : Bool) (p a : Str) (st : St) : Except PyErr (Str × St) :=
  match dget st.ids p with
  | some al => specialAttr env al a st
  | none =>
    match p with
    | [] => if atom then .error .index else plainAttr env p a st
    | c :: _ => if atom ∧ c = '_' then tagAttr env p a st else plainAttr env p a st

/-- The category looked up by a subscription, if any, from the text of the primary (py_from_ast.nw 372-377). -/
def lookedUp (env : Env) (p : Str) (st : St) : Option Str :=
  match dget st.ids p with
  | some al => some al.cat
  | none => if p ∈ dkeys env.loopable then some p else none

/-- The names of the keys of a category, noted as dependencies (py_from_ast.nw 380-381). -/
def keyNames (env : Env) (c : Str) : Except PyErr (List Str) :=
  match dget env.loopable c with
  | none => .error .key
  | some ks => .ok (ks.map fun s => lower ("_".toList ++ c ++ ".".toList ++ s))

/-- Texts of names (py_from_ast.nw 291-299). -/
def nameText (s : Str) : Str :=
  if lower s = "twopi".toList then "(2.0 * math.pi)".toList
  else if lower s = "pi".toList then "math.pi".toList
  else s

/-- A list (py_from_ast.nw 306-318). -/
def listText (rhs : Option Bool) (ts : List Str) : Str :=
  if rhs = some true then "StarList([".toList ++ commas ts ++ "])".toList else commas ts

mutual
/-- `traverse_ast` on expressions (py_from_ast.nw 241-502, 693-697, 765-780). -/
def expr (env : Env) : Expr → St → Except PyErr (Str × St)
  | .name s, st => .ok (nameText s, st)
  | .tag s, st => .ok (s, st)
  | .lit s, st => .ok (s, st)
  | .int0, _ => .error .type
  | .group es, st =>
    if es.isEmpty then .error .index
    else
      match exprs env es st with
      | .error x => .error x
      | .ok (ts, st) => .ok ("(".toList ++ commas ts ++ ")".toList, st)
  | .list es, st =>
    if es.isEmpty then .ok ("StarList([])".toList, st)
    else
      match exprs env es st with
      | .error x => .error x
      | .ok (ts, st') => .ok (listText st.rhs ts, st')
  | .table ks vs, st =>
    if ks.isEmpty then .ok ("StarTable({})".toList, st)
    else
      match exprs env vs st with
      | .error x => .error x
      | .ok (ts, st) => .ok ("{".toList ++ commas (entries ks ts) ++ "}".toList, st)
  | .attr p a, st =>
    match expr env p st with
    | .error x => .error x
    | .ok (t, st) => attrText env (isAtom p) t a st
  | .sub p i, st =>
    match p with
    | .tag s =>
      match keyNames env s.tail with
      | .error x => .error x
      | .ok ks =>
        match expr env i (st.dependAll ks) with
        | .error x => .error x
        | .ok (t, st) => .ok (semanticPacket t (quoted '\'' s.tail), { st with sub := s.tail })
    | _ =>
      match expr env p st with
      | .error x => .error x
      | .ok (t, st) =>
        match lookedUp env t st with
        | some c =>
          match keyNames env c with
          | .error x => .error x
          | .ok ks =>
            match expr env i (st.dependAll ks) with
            | .error x => .error x
            | .ok (u, st) => .ok (semanticPacket u (quoted '\'' c), { st with sub := c })
        | none =>
          match expr env i st with
          | .error x => .error x
          | .ok (u, st) => .ok (t ++ "[".toList ++ u ++ "]".toList, st)
  | .items p es, st =>
    match expr env p st with
    | .error x => .error x
    | .ok (t, st) =>
      match exprs env es st with
      | .error x => .error x
      | .ok (us, st) => .ok (t ++ "[".toList ++ commas us ++ "]".toList, st)
  | .slice p parts, st =>
    match expr env p st with
    | .error x => .error x
    | .ok (t, st) =>
      match exprs env parts st with
      | .error x => .error x
      | .ok (us, st) =>
        match sliceText us with
        | .error x => .error x
        | .ok u => .ok (t ++ "[".toList ++ u ++ "]".toList, st)
  | .slices p, st =>
    match expr env p st with
    | .error x => .error x
    | .ok _ => .error .syntax
  | .call f args, st =>
    if f = "Current_Row".toList then .ok ("__current_row".toList, { st with needRow := true })
    else
      match exprs env args st with
      | .error x => .error x
      | .ok (ts, st) => .ok (callText f ts, st)
  | .op o a b, st =>
    match expr env a st with
    | .error x => .error x
    | .ok (ta, st) =>
      match expr env b st with
      | .error x => .error x
      | .ok (tb, st) => .ok (mathop o ta tb, st)
  | .sign minus a, st =>
    match expr env a st with
    | .error x => .error x
    | .ok (t, st) =>
      .ok ("drel_runtime.drel_dot(".toList ++ (if minus then "-1,".toList else "+1,".toList) ++ t ++ ")".toList, st)
  | .not a, st =>
    match expr env a st with
    | .error x => .error x
    | .ok (t, st) => .ok ("not ".toList ++ t, st)
/-- The texts of a list of expressions, from left to right. -/
def exprs (env : Env) : List Expr → St → Except PyErr (List Str × St)
  | [], st => .ok ([], st)
  | e :: r, st =>
    match expr env e st with
    | .error x => .error x
    | .ok (t, st) =>
      match exprs env r st with
      | .error x => .error x
      | .ok (ts, st) => .ok (t :: ts, st)
end

/-- `getcatname` (py_from_ast.nw 889-895): category and object of a data name. Unless there is just one point in the name, the
variable `cat` is used before it is set. -/
def getCatName (s : Str) : Except PyErr (Str × Str) :=
  match s.dropWhile (· != '.') with
  | [] => .error .unbound
  | _ :: n => if n.contains '.' then .error .unbound else .ok ((s.takeWhile (· != '.')).tail, n)

/-- The state before anything is translated (py_from_ast.nw 231-239); `item` says that the method is that of an item, neither that of a
category nor a function. -/
def start (env : Env) (item : Bool) : Except PyErr St :=
  let st : St := { ids := [], withtable := [], sub := [], depends := [], packets := [], needRow := false, rhs := none, inif := false, haveTarget := false }
  match env.target with
  | none => .ok st
  | some tg =>
    if item then
      match getCatName tg with
      | .error x => .error x
      | .ok (c, _) =>
        .ok { st with ids := [('_' :: c, { cat := c, index := if c ∈ dkeys env.loopable then "looped_cat".toList else [], loop := false })] }
    else .ok st

end DrelPy
end Verif
