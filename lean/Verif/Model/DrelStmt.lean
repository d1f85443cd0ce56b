import Verif.Model.DrelPy
/-! # Translation of dREL statements to Python text

Models the statement part of `traverse_ast` and the whole of `start_traverse` of `/repo/src/drel/py_from_ast.nw` 229-265, 504-692, 712-760.
The syntax trees are those built by `/repo/src/drel/drel_ast_yacc.py` 20-108, 405-560. -/
namespace Verif
namespace DrelPy
variable [CaseFold]

/-- Syntax trees of statements (drel_ast_yacc.py 20-108, 405-560). -/
inductive Stmt where
  /-- `["STATEMENTS", ss]` -/
  | seq (ss : List Stmt)
  /-- `["ASSIGN", targets, op, vals]` -/
  | assign (targets : List Expr) (op : Str) (vals : List Expr)
  /-- `["FANCY_ASSIGN", cat, [[obj, val], ...]]` -/
  | fancy (cat : Str) (objs : List Str) (vals : List Expr)
  /-- `["EXPRLIST", es]` -/
  | exprs (es : List Expr)
  /-- `["PRINT", e]` -/
  | print (e : Expr)
  /-- `["BREAK"]` -/
  | brk
  /-- `["NEXT"]` -/
  | next
  /-- `["IF_EXPR", c, body, [[cond, body], ...]]`, and a last body for `else`. Here the bodies of `elseif` and `else` are in one list,
  which is as long as the list of conditions, or has one more for `else`. -/
  | ite (c : Expr) (body : Stmt) (conds : List Expr) (bodies : List Stmt)
  /-- `["DO", i, start, finish, step, body]` -/
  | do_ (i : Str) (start finish step : Expr) (body : Stmt)
  /-- `["FOR", ids, over, body]` -/
  | for_ (ids : List Str) (over : List Expr) (body : Stmt)
  /-- `["REPEAT", body]` -/
  | rep (body : Stmt)
  /-- `["WITH", alias, cat, body]` -/
  | with_ (alias cat : Str) (body : Stmt)
  /-- `["LOOP", alias, cat, index, comparison, limit, body]` -/
  | loop (alias cat index cmp limit : Str) (body : Stmt)
  /-- `["FUNCTION", f, [(arg, type), ...], body]`, without the types, which are not used -/
  | func (f : Str) (args : List Str) (body : Stmt)
  deriving Repr

/-- The dictionary as it is used by `LOOP`: besides `Env`, the first key of every category (in lower case), and the order in which
Python goes through a set of names. -/
structure Dic extends Env where
  keyOf : Dict Str Str
  order : List Str → List Str

/-- `add_indent` (py_from_ast.nw 885-887). -/
def addIndent : Str → Str
  | [] => []
  | c :: r => if c = '\n' then '\n' :: ("    ".toList ++ addIndent r) else c :: addIndent r

/-- `aug_assign_table` (py_from_ast.nw 795-798). -/
def augTable : Dict Str Str :=
  [("++=".toList, "drel_runtime.aug_append".toList), ("+=".toList, "drel_runtime.aug_add".toList),
   ("-=".toList, "drel_runtime.aug_sub".toList), ("--=".toList, "drel_runtime.aug_remove".toList)]

/-- A packet just chosen is noted for the target at the same place (py_from_ast.nw 729-731). -/
def notePacket (lhs : List Str) (order : Nat) (st : St) : Except PyErr St :=
  if st.sub = [] then .ok st
  else
    match lhs[order]? with
    | none => .error .index
    | some l => .ok { st with packets := dset st.packets l st.sub, sub := [] }

/-- The values of an assignment (py_from_ast.nw 727-731). -/
def values (env : Env) (lhs : List Str) : Nat → List Expr → St → Except PyErr (List Str × St)
  | _, [], st => .ok ([], st)
  | n, e :: r, st =>
    match expr env e st with
    | .error x => .error x
    | .ok (t, st) =>
      match notePacket lhs n st with
      | .error x => .error x
      | .ok st =>
        match values env lhs (n + 1) r st with
        | .error x => .error x
        | .ok (ts, st) => .ok (t :: ts, st)

/-- The text of an assignment (py_from_ast.nw 735-738). -/
def assignText (o lhs rhs : Str) : Except PyErr Str :=
  if o = "=".toList then .ok (lhs ++ " = ".toList ++ rhs)
  else
    match dget augTable o with
    | none => .error .key
    | some f => .ok (lhs ++ " = ".toList ++ f ++ "(".toList ++ lhs ++ ",".toList ++ rhs ++ ")".toList)

/-- `ASSIGN` (py_from_ast.nw 718-740). -/
def assign (env : Env) (targets : List Expr) (o : Str) (vals : List Expr) (st : St) : Except PyErr (Str × St) :=
  match exprs env targets { st with rhs := some false } with
  | .error x => .error x
  | .ok (lhs, st) =>
    match values env lhs 0 vals { st with rhs := some true } with
    | .error x => .error x
    | .ok (rhs, st) =>
      match assignText o (commas lhs) (commas rhs) with
      | .error x => .error x
      | .ok t => .ok (t, { st with rhs := none })

/-- A line of `FANCY_ASSIGN` (py_from_ast.nw 748). -/
def fancyLine (n v : Str) : Str :=
  "__dreltarget.update({".toList ++ quoted '\'' n ++ ":__dreltarget.get(".toList ++ quoted '\'' n ++ ",[])+[".toList ++ v ++
    "]})".toList ++ "\n".toList

/-- The lines of `FANCY_ASSIGN` (py_from_ast.nw 745-748). -/
def fancyLines (env : Env) (cat : Str) : List Str → List Expr → St → Except PyErr (Str × St)
  | o :: os, v :: vs, st =>
    match nameOf env cat o with
    | .error x => .error x
    | .ok n =>
      match expr env v st with
      | .error x => .error x
      | .ok (t, st) =>
        match fancyLines env cat os vs st with
        | .error x => .error x
        | .ok (u, st) => .ok (fancyLine n t ++ u, st)
  | _, _, st => .ok ([], st)

/-- Lines, each with its line end. -/
def unlines : List Str → Str
  | [] => []
  | a :: r => a ++ "\n".toList ++ unlines r

/-- `repr` of a set of names without quotes or backslashes. -/
def reprSet : List Str → Str
  | [] => "set()".toList
  | ns => "{".toList ++ (ns.map (quoted '\'')).foldr (fun a r => if r = [] then a else a ++ ", ".toList ++ r) [] ++ "}".toList

/-- The alias of a `with` statement (py_from_ast.nw 573-583): one alias of the same category is removed. -/
def bindWith (env : Env) (alias cat : Str) (st : St) : St :=
  { st with ids := dset (match st.ids.find? fun p => p.2.cat = cat with
      | some p => ddel st.ids p.1
      | none => st.ids) alias { cat := cat, index := if cat ∈ dkeys env.loopable then "looped_cat".toList else [], loop := false } }

/-- `has_key_or_alias` of the names of a category (py_from_ast.nw 44, 614). -/
def presentItems : Str := "__pycitems = [a for a in __pyallitems if ciffile.has_key_or_alias(a)]".toList

/-- The text before the body of a `loop` (py_from_ast.nw 608-634). -/
def loopHead (names : List Str) (key : Str) (num : Nat) (index cmp limit : Str) : Str :=
  let range := "__loop_range".toList ++ Nat.toDigits 10 num
  "__pyallitems = ".toList ++ reprSet names ++
    "\nprint('names in cat = %s' % repr(__pyallitems))\n".toList ++ presentItems ++
    "\nprint('names in cat -> %s' % repr(__pycitems))\nif len(__pycitems)==0:\n    __pydummy = ".toList ++
    dataAccess (quoted '\'' key) ++ "\n    ".toList ++ presentItems ++
    "\n    print('After category creation, names in cat ->' + repr(__pycitems))\n".toList ++
    "\n".toList ++ range ++ " = range(len(ciffile[__pycitems[0]]))".toList ++
    (if cmp = [] then []
     else "\n".toList ++ range ++ " = [a for a in ".toList ++ range ++ " if a ".toList ++ cmp ++ " ".toList ++ limit ++ "]".toList) ++
    "\nfor ".toList ++ index ++ " in ".toList ++ range ++ ":".toList

/-- The names of a category in the table of the dictionary (py_from_ast.nw 607). An empty entry raises. -/
def catItems (env : Env) (c : Str) : Except PyErr (List Str) :=
  (env.names.filter fun p => p.1.1 = lower c).mapM fun p =>
    match p.2 with
    | [] => .error .index
    | n :: _ => .ok n

/-- The alias of a `loop` (py_from_ast.nw 591-604). -/
def bindLoop (alias cat index : Str) (st : St) : St :=
  { st with ids := dset st.ids alias { cat := cat, index := index, loop := true } }

/-- The index of a `loop` that has none (py_from_ast.nw 596-600). -/
def loopIndex (index : Str) (num : Nat) : Str := if index = [] then "__pi".toList ++ Nat.toDigits 10 num else index

/-- The condition and the indented body of an arm of `if`. -/
def arm (w c body : Str) : Str := w ++ c ++ ":".toList ++ addIndent ('\n' :: body)

mutual
/-- `traverse_ast` on statements (py_from_ast.nw 504-692, 712-760). -/
def stmt (d : Dic) : Stmt → St → Except PyErr (Str × St)
  | .seq ss, st =>
    match stmts d ss st with
    | .error x => .error x
    | .ok (ts, st) => .ok (unlines ts, st)
  | .assign ts o vs, st => assign d.toEnv ts o vs st
  | .fancy c os vs, st =>
    match fancyLines d.toEnv c os vs { st with rhs := some true } with
    | .error x => .error x
    | .ok (t, st) => .ok (t, { st with rhs := none })
  | .exprs es, st =>
    match exprs d.toEnv es st with
    | .error x => .error x
    | .ok (ts, st) => .ok (unlines ts, st)
  | .print e, st =>
    match expr d.toEnv e st with
    | .error x => .error x
    | .ok (t, st) => .ok ("print( ".toList ++ t ++ ")".toList, st)
  | .brk, st => .ok ("break ".toList, st)
  | .next, st => .ok ("continue ".toList, st)
  | .ite c b cs bs, st =>
    match expr d.toEnv c st with
    | .error x => .error x
    | .ok (t, st1) =>
      match stmt d b { st1 with inif := true } with
      | .error x => .error x
      | .ok (u, st2) =>
        match arms d cs bs st2 with
        | .error x => .error x
        | .ok (w, st3) => .ok (arm "if ".toList t u ++ w, { st3 with inif := st1.inif })
  | .do_ i a f s b, st =>
    match expr d.toEnv a st with
    | .error x => .error x
    | .ok (ta, st) =>
      match expr d.toEnv f st with
      | .error x => .error x
      | .ok (tf, st) =>
        match expr d.toEnv s st with
        | .error x => .error x
        | .ok (ts, st) =>
          match stmt d b st with
          | .error x => .error x
          | .ok (u, st) =>
            .ok ("for ".toList ++ i ++ " in range(".toList ++ ta ++ ",".toList ++ tf ++ "+1,".toList ++ ts ++ "):".toList ++
              addIndent ('\n' :: u), st)
  | .for_ xs es b, st =>
    match exprs d.toEnv es { st with rhs := some true } with
    | .error x => .error x
    | .ok (ts, st) =>
      match stmt d b { st with rhs := none } with
      | .error x => .error x
      | .ok (u, st) =>
        .ok ("for ".toList ++ commas xs ++ " in ".toList ++ commas (ts.map fun t => "copy(".toList ++ t ++ ")".toList) ++ ":".toList ++
          addIndent ('\n' :: u), st)
  | .rep b, st =>
    match stmt d b st with
    | .error x => .error x
    | .ok (u, st) => .ok ("while True:".toList ++ addIndent ('\n' :: u), st)
  | .with_ a c b, st => stmt d b (bindWith d.toEnv a c st)
  | .loop a c i o l b, st =>
    if c ∈ dkeys d.loopable then
      match catItems d.toEnv c with
      | .error x => .error x
      | .ok ns =>
        match dget d.keyOf (lower c) with
        | none => .error .key
        | some k =>
          match stmt d b ((bindLoop a c (loopIndex i (st.ids.length + 1)) st).depend k) with
          | .error x => .error x
          | .ok (u, st') =>
            .ok (loopHead (d.order ns.eraseDups) k (st.ids.length + 1) (loopIndex i (st.ids.length + 1)) o l ++
              addIndent ('\n' :: u), st')
    else .error .cif
  | .func f as b, st =>
    match stmt d b st with
    | .error x => .error x
    | .ok (u, st) =>
      .ok ("def ".toList ++ f ++ " (".toList ++ (as.map (· ++ ",".toList)).flatten ++ "ciffile):".toList ++
        addIndent ('\n' :: (u ++ "\nreturn ".toList ++ f)), st)
/-- The texts of statements, from first to last. -/
def stmts (d : Dic) : List Stmt → St → Except PyErr (List Str × St)
  | [], st => .ok ([], st)
  | s :: r, st =>
    match stmt d s st with
    | .error x => .error x
    | .ok (t, st) =>
      match stmts d r st with
      | .error x => .error x
      | .ok (ts, st) => .ok (t :: ts, st)
/-- The arms `elseif` and `else` (py_from_ast.nw 521-531). Lists of other lengths are not made by the grammar. -/
def arms (d : Dic) : List Expr → List Stmt → St → Except PyErr (Str × St)
  | c :: cs, b :: bs, st =>
    match expr d.toEnv c st with
    | .error x => .error x
    | .ok (t, st) =>
      match stmt d b st with
      | .error x => .error x
      | .ok (u, st) =>
        match arms d cs bs st with
        | .error x => .error x
        | .ok (w, st) => .ok ("\n".toList ++ arm "elif ".toList t u ++ w, st)
  | [], [b], st =>
    match stmt d b st with
    | .error x => .error x
    | .ok (u, st) => .ok ("\n".toList ++ arm "else".toList [] u, st)
  | _, _, st => .ok ([], st)
end

/-- `start_traverse` (py_from_ast.nw 229-265): the text, the table of variables of the current packet, the dependencies, and whether
the number of the row is needed. -/
def translate (d : Dic) (item : Bool) (s : Stmt) : Except PyErr (Str × Dict Str (Str × Nat × Bool) × List Str × Bool) :=
  match start d.toEnv item with
  | .error x => .error x
  | .ok st =>
    match stmt d s st with
    | .error x => .error x
    | .ok (t, st) =>
      .ok (t, st.withtable, (match d.target with
        | none => st.depends
        | some tg => st.depends.filter (· ≠ lower tg)), st.needRow)

end DrelPy
end Verif
