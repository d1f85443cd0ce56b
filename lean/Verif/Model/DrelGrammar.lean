import Verif.Model.LR
import Verif.Model.DrelStmt
/-! # The grammar of dREL

The productions of `/repo/src/drel/drel_ast_yacc.py` and the values that its functions compute, as syntax trees of `DrelPy.Expr` and `DrelPy.Stmt`.
The wrappers `["EXPR", x]` and `["ATOM", x]` are left out, as in those types. -/
namespace Verif
namespace Drel
open LR DrelPy

/-- The values of symbols (`p[0]`, `p[1]`, ... in drel_ast_yacc.py). -/
inductive Val where
  /-- no value -/
  | none
  /-- the text of a token, or the value of an operator -/
  | str (s : Str)
  /-- an expression -/
  | e (x : Expr)
  /-- a list of expressions -/
  | es (l : List Expr)
  /-- the pairs of a table or of assignments in parentheses -/
  | tab (keys : List Str) (vals : List Expr)
  /-- the parts of a slice -/
  | parts (l : List Expr)
  /-- a list of expressions and slices; what is in the slices is left out as in `DrelPy.Expr.slices` -/
  | slots (l : List (Option Expr))
  /-- names -/
  | ids (l : List Str)
  /-- `["DO", i, start, finish, step]` -/
  | doHead (i : Str) (start finish step : Expr)
  /-- a statement -/
  | st (s : Stmt)

instance : Inhabited Val := ⟨.none⟩


/-! ## Kinds of tokens (drel_lex.py 9-60) -/
namespace K
/-- The end of the text. -/
abbrev eof : Nat := 0
/-- `;` -/
abbrev semi : Nat := 1
/-- `BREAK` -/
abbrev brk : Nat := 2
/-- `NEXT` -/
abbrev next : Nat := 3
/-- `PRINT` -/
abbrev print : Nat := 4
/-- `AUGOP` -/
abbrev augop : Nat := 5
/-- `=` -/
abbrev assign : Nat := 6
/-- `,` -/
abbrev comma : Nat := 7
/-- `OR` -/
abbrev or_ : Nat := 8
/-- `BADOR` -/
abbrev badOr : Nat := 9
/-- `AND` -/
abbrev and_ : Nat := 10
/-- `BADAND` -/
abbrev badAnd : Nat := 11
/-- `NOT` -/
abbrev not_ : Nat := 12
/-- `IN` -/
abbrev in_ : Nat := 13
/-- `<` -/
abbrev lt : Nat := 14
/-- `>` -/
abbrev gt : Nat := 15
/-- `GTE` -/
abbrev gte : Nat := 16
/-- `LTE` -/
abbrev lte : Nat := 17
/-- `NEQ` -/
abbrev neq : Nat := 18
/-- `ISEQUAL` -/
abbrev isEqual : Nat := 19
/-- `+` -/
abbrev plus : Nat := 20
/-- `-` -/
abbrev minus : Nat := 21
/-- `*` -/
abbrev star : Nat := 22
/-- `/` -/
abbrev slash : Nat := 23
/-- `^` -/
abbrev caret : Nat := 24
/-- `&` -/
abbrev amp : Nat := 25
/-- `|` -/
abbrev bar : Nat := 26
/-- `POWER` -/
abbrev power : Nat := 27
/-- `ID` -/
abbrev id : Nat := 28
/-- `ITEM_TAG` -/
abbrev itemTag : Nat := 29
/-- `INTEGER` -/
abbrev integer : Nat := 30
/-- `HEXINT` -/
abbrev hexint : Nat := 31
/-- `OCTINT` -/
abbrev octint : Nat := 32
/-- `BININT` -/
abbrev binint : Nat := 33
/-- `REAL` -/
abbrev real : Nat := 34
/-- `IMAGINARY` -/
abbrev imaginary : Nat := 35
/-- `STRPREFIX` -/
abbrev strPrefix : Nat := 36
/-- `SHORTSTRING` -/
abbrev shortString : Nat := 37
/-- `LONGSTRING` -/
abbrev longString : Nat := 38
/-- `OPEN_PAREN` -/
abbrev openParen : Nat := 39
/-- `CLOSE_PAREN` -/
abbrev closeParen : Nat := 40
/-- A backquote. -/
abbrev tick : Nat := 41
/-- `[` -/
abbrev openSq : Nat := 42
/-- `]` -/
abbrev closeSq : Nat := 43
/-- `{` -/
abbrev openBrace : Nat := 44
/-- `}` -/
abbrev closeBrace : Nat := 45
/-- `:` -/
abbrev colon : Nat := 46
/-- `.` -/
abbrev dot : Nat := 47
/-- `ELSE` -/
abbrev else_ : Nat := 48
/-- `IF` -/
abbrev if_ : Nat := 49
/-- `ELSEIF` -/
abbrev elseif : Nat := 50
/-- `FOR` -/
abbrev for_ : Nat := 51
/-- `LOOP` -/
abbrev loop : Nat := 52
/-- `AS` -/
abbrev as_ : Nat := 53
/-- `DO` -/
abbrev do_ : Nat := 54
/-- `REPEAT` -/
abbrev repeat_ : Nat := 55
/-- `WITH` -/
abbrev with_ : Nat := 56
/-- `FUNCTION` -/
abbrev function : Nat := 57
/-- `NEWLINE` -/
abbrev newline : Nat := 58
/-- `WHERE` (not used by the grammar) -/
abbrev where_ : Nat := 59
/-- `SWITCH` (not used by the grammar) -/
abbrev switch : Nat := 60
/-- `CASE` (not used by the grammar) -/
abbrev case_ : Nat := 61
/-- `DEFAULT` (not used by the grammar) -/
abbrev default_ : Nat := 62
/-- `ELLIPSIS` (not used by the grammar) -/
abbrev ellipsis : Nat := 63
end K

/-! ## Nonterminals -/
namespace N
/-- The start symbol added by PLY. -/
abbrev top : Nat := 0
/-- `input` (drel_ast_yacc.py 22). -/
abbrev input : Nat := 1
/-- `statement` (drel_ast_yacc.py 39). -/
abbrev statement : Nat := 2
/-- `simple_stmt` (drel_ast_yacc.py 47). -/
abbrev simpleStmt : Nat := 3
/-- `statements` (drel_ast_yacc.py 58). -/
abbrev statements : Nat := 4
/-- `small_stmt` (drel_ast_yacc.py 64). -/
abbrev smallStmt : Nat := 5
/-- `break_stmt` (drel_ast_yacc.py 71). -/
abbrev breakStmt : Nat := 6
/-- `next_stmt` (drel_ast_yacc.py 75). -/
abbrev nextStmt : Nat := 7
/-- `print_stmt` (drel_ast_yacc.py 79). -/
abbrev printStmt : Nat := 8
/-- `expr_stmt` (drel_ast_yacc.py 87). -/
abbrev exprStmt : Nat := 9
/-- `testlist_star_expr` (drel_ast_yacc.py 99). -/
abbrev testlistStarExpr : Nat := 10
/-- `expression` (drel_ast_yacc.py 110). -/
abbrev expression : Nat := 11
/-- `or_test` (drel_ast_yacc.py 118). -/
abbrev orTest : Nat := 12
/-- `and_test` (drel_ast_yacc.py 125). -/
abbrev andTest : Nat := 13
/-- `not_test` (drel_ast_yacc.py 132). -/
abbrev notTest : Nat := 14
/-- `comparison` (drel_ast_yacc.py 138). -/
abbrev comparison : Nat := 15
/-- `comp_operator` (drel_ast_yacc.py 145). -/
abbrev compOperator : Nat := 16
/-- `restricted_comp_operator` (drel_ast_yacc.py 153). -/
abbrev restrictedCompOperator : Nat := 17
/-- `a_expr` (drel_ast_yacc.py 162). -/
abbrev aExpr : Nat := 18
/-- `m_expr` (drel_ast_yacc.py 171). -/
abbrev mExpr : Nat := 19
/-- `u_expr` (drel_ast_yacc.py 183). -/
abbrev uExpr : Nat := 20
/-- `power` (drel_ast_yacc.py 192). -/
abbrev power : Nat := 21
/-- `primary` (drel_ast_yacc.py 201). -/
abbrev primary : Nat := 22
/-- `atom` (drel_ast_yacc.py 210). -/
abbrev atom : Nat := 23
/-- `item_tag` (drel_ast_yacc.py 218). -/
abbrev itemTag : Nat := 24
/-- `literal` (drel_ast_yacc.py 222). -/
abbrev literal : Nat := 25
/-- `stringliteral` (drel_ast_yacc.py 233). -/
abbrev stringliteral : Nat := 26
/-- `enclosure` (drel_ast_yacc.py 241). -/
abbrev enclosure : Nat := 27
/-- `parenth_form` (drel_ast_yacc.py 248). -/
abbrev parenthForm : Nat := 28
/-- `string_conversion` (drel_ast_yacc.py 256). -/
abbrev stringConversion : Nat := 29
/-- `list_display` (drel_ast_yacc.py 261). -/
abbrev listDisplay : Nat := 30
/-- `listmaker` (drel_ast_yacc.py 270). -/
abbrev listmaker : Nat := 31
/-- `listmaker2` (drel_ast_yacc.py 275). -/
abbrev listmaker2 : Nat := 32
/-- `table_display` (drel_ast_yacc.py 287). -/
abbrev tableDisplay : Nat := 33
/-- `tablemaker` (drel_ast_yacc.py 295). -/
abbrev tablemaker : Nat := 34
/-- `tablemaker2` (drel_ast_yacc.py 299). -/
abbrev tablemaker2 : Nat := 35
/-- `attributeref` (drel_ast_yacc.py 315). -/
abbrev attributeref : Nat := 36
/-- `attribute_tag` (drel_ast_yacc.py 319). -/
abbrev attributeTag : Nat := 37
/-- `subscription` (drel_ast_yacc.py 327). -/
abbrev subscription : Nat := 38
/-- `slicing` (drel_ast_yacc.py 331). -/
abbrev slicing : Nat := 39
/-- `proper_slice` (drel_ast_yacc.py 336). -/
abbrev properSlice : Nat := 40
/-- `short_slice` (drel_ast_yacc.py 348). -/
abbrev shortSlice : Nat := 41
/-- `long_slice` (drel_ast_yacc.py 360). -/
abbrev longSlice : Nat := 42
/-- `slice_list` (drel_ast_yacc.py 367). -/
abbrev sliceList : Nat := 43
/-- `slice_item` (drel_ast_yacc.py 375). -/
abbrev sliceItem : Nat := 44
/-- `call` (drel_ast_yacc.py 380). -/
abbrev call : Nat := 45
/-- `argument_list` (drel_ast_yacc.py 391). -/
abbrev argumentList : Nat := 46
/-- `func_arg` (drel_ast_yacc.py 399). -/
abbrev funcArg : Nat := 47
/-- `fancy_drel_assignment_stmt` (drel_ast_yacc.py 403). -/
abbrev fancyDrelAssignmentStmt : Nat := 48
/-- `dotlist` (drel_ast_yacc.py 410). -/
abbrev dotlist : Nat := 49
/-- `exprlist` (drel_ast_yacc.py 418). -/
abbrev exprlist : Nat := 50
/-- `id_list` (drel_ast_yacc.py 426). -/
abbrev idList : Nat := 51
/-- `compound_stmt` (drel_ast_yacc.py 438). -/
abbrev compoundStmt : Nat := 52
/-- `if_else_stmt` (drel_ast_yacc.py 452). -/
abbrev ifElseStmt : Nat := 53
/-- `if_stmt` (drel_ast_yacc.py 458). -/
abbrev ifStmt : Nat := 54
/-- `suite` (drel_ast_yacc.py 478). -/
abbrev suite : Nat := 55
/-- `for_stmt` (drel_ast_yacc.py 486). -/
abbrev forStmt : Nat := 56
/-- `loop_stmt` (drel_ast_yacc.py 494). -/
abbrev loopStmt : Nat := 57
/-- `loop_head` (drel_ast_yacc.py 500). -/
abbrev loopHead : Nat := 58
/-- `do_stmt` (drel_ast_yacc.py 513). -/
abbrev doStmt : Nat := 59
/-- `do_stmt_head` (drel_ast_yacc.py 520). -/
abbrev doStmtHead : Nat := 60
/-- `repeat_stmt` (drel_ast_yacc.py 530). -/
abbrev repeatStmt : Nat := 61
/-- `with_stmt` (drel_ast_yacc.py 534). -/
abbrev withStmt : Nat := 62
/-- `with_head` (drel_ast_yacc.py 538). -/
abbrev withHead : Nat := 63
/-- `funcdef` (drel_ast_yacc.py 542). -/
abbrev funcdef : Nat := 64
/-- `arglist` (drel_ast_yacc.py 546). -/
abbrev arglist : Nat := 65
/-- `maybe_nline` (drel_ast_yacc.py 554). -/
abbrev maybeNline : Nat := 66
/-- `newlines` (drel_ast_yacc.py 562). -/
abbrev newlines : Nat := 67
/-- `empty` (drel_ast_yacc.py 567). -/
abbrev empty : Nat := 68
end N

/-! ## The values -/
namespace Act

/-- `p[i]`. -/
def at_ (p : List Val) (i : Nat) : Val := p.getD (i - 1) .none

/-- `p[i]` as text. -/
def S (p : List Val) (i : Nat) : Str := match at_ p i with | .str s => s | _ => []
/-- `p[i]` as expression. -/
def X (p : List Val) (i : Nat) : Expr := match at_ p i with | .e x => x | _ => .int0
/-- `p[i]` as list of expressions. -/
def L (p : List Val) (i : Nat) : List Expr := match at_ p i with | .es l => l | _ => []
/-- `p[i]` as statement. -/
def B (p : List Val) (i : Nat) : Stmt := match at_ p i with | .st s => s | _ => .seq []
/-- `p[i][1]` of `["STATEMENTS", ...]`. -/
def Bs (p : List Val) (i : Nat) : List Stmt := match at_ p i with | .st (.seq ss) => ss | _ => []
/-- `p[i]` as list of names. -/
def I (p : List Val) (i : Nat) : List Str := match at_ p i with | .ids l => l | _ => []
/-- The keys of `p[i]`. -/
def Ks (p : List Val) (i : Nat) : List Str := match at_ p i with | .tab ks _ => ks | _ => []
/-- The values of `p[i]`. -/
def Vs (p : List Val) (i : Nat) : List Expr := match at_ p i with | .tab _ vs => vs | _ => []
/-- `p[i]` as parts of a slice. -/
def P (p : List Val) (i : Nat) : List Expr := match at_ p i with | .parts l => l | _ => []
/-- `p[i]` as entries of a list of slices. -/
def O (p : List Val) (i : Nat) : List (Option Expr) := match at_ p i with | .slots l => l | _ => []
/-- `p[i]` as one entry of a list of slices. -/
def slot (p : List Val) (i : Nat) : Option Expr := match at_ p i with | .e x => some x | _ => Option.none

/-- `p[0] = p[1]`. -/
def p1 (p : List Val) : Val := at_ p 1
/-- `p[0] = p[2]`. -/
def p2 (p : List Val) : Val := at_ p 2
/-- `p[0] = p[3]`. -/
def p3 (p : List Val) : Val := at_ p 3
/-- `pass` (drel_ast_yacc.py 553-568). -/
def none (_ : List Val) : Val := .none
/-- `p_input` (drel_ast_yacc.py 21-30), second case. -/
def input (p : List Val) : Val := .st (.seq (Bs p 1 ++ Bs p 2))
/-- `p_simple_stmt` (drel_ast_yacc.py 46-52), first case. -/
def simple (p : List Val) : Val := .st (.seq [B p 1])
/-- `p_simple_stmt` (drel_ast_yacc.py 46-52), second case. -/
def simpleMore (p : List Val) : Val := .st (.seq (Bs p 1 ++ [B p 3]))
/-- `p_statements` (drel_ast_yacc.py 57-61), second case: the statement is added as a block of its own. -/
def statements (p : List Val) : Val := .st (.seq (Bs p 1 ++ [B p 2]))
/-- `p_break_stmt` (drel_ast_yacc.py 70-72). -/
def brk (_ : List Val) : Val := .st .brk
/-- `p_next_stmt` (drel_ast_yacc.py 74-76). -/
def next (_ : List Val) : Val := .st .next
/-- `p_print_stmt` (drel_ast_yacc.py 78-80). -/
def print (p : List Val) : Val := .st (.print (X p 2))
/-- `p_expr_stmt` (drel_ast_yacc.py 86-96), a list of expressions. -/
def exprs (p : List Val) : Val := .st (.exprs (L p 1))
/-- `p_expr_stmt` (drel_ast_yacc.py 86-96), an assignment. -/
def assign (p : List Val) : Val := .st (.assign (L p 1) (S p 2) (L p 3))
/-- `[p[1]]` (drel_ast_yacc.py 98-104, 390-396, 417-422). -/
def one (p : List Val) : Val := .es [X p 1]
/-- `[p[3]]` (drel_ast_yacc.py 274-283). -/
def one3 (p : List Val) : Val := .es [X p 3]
/-- `p[1] + [p[4]]` (drel_ast_yacc.py 98-104, 274-283). -/
def more14 (p : List Val) : Val := .es (L p 1 ++ [X p 4])
/-- `p[1] + [p[3]]` (drel_ast_yacc.py 390-396, 417-422). -/
def more13 (p : List Val) : Val := .es (L p 1 ++ [X p 3])
/-- `["MATHOP", op, p[1], p[3]]` (drel_ast_yacc.py 117-199). -/
def binary (o : Op) (p : List Val) : Val := .e (.op o (X p 1) (X p 3))
/-- `p_not_test` (drel_ast_yacc.py 131-135). -/
def not (p : List Val) : Val := .e (.not (X p 2))
/-- The operator written in a comparison (drel_ast_yacc.py 137-159). -/
def opOf (s : Str) : Op :=
  if s = "<".toList then .lt else if s = ">".toList then .gt else if s = ">=".toList then .ge else if s = "<=".toList then .le
  else if s = "!=".toList then .ne else if s = "==".toList then .eq else if s = "not in".toList then .notIn else .isIn
/-- `p_comparison` (drel_ast_yacc.py 137-142). -/
def compare (p : List Val) : Val := .e (.op (opOf (S p 2)) (X p 1) (X p 3))
/-- `p_comp_operator` (drel_ast_yacc.py 144-150), third case. -/
def notIn (_ : List Val) : Val := .str "not in".toList
/-- `p_u_expr` (drel_ast_yacc.py 182-189). -/
def sign (minus : Bool) (p : List Val) : Val := .e (.sign minus (X p 2))
/-- `p_atom` (drel_ast_yacc.py 209-215), first case. -/
def name (p : List Val) : Val := .e (.name (S p 1))
/-- `p_item_tag` (drel_ast_yacc.py 217-219). -/
def tag (p : List Val) : Val := .e (.tag (S p 1))
/-- `p_literal` (drel_ast_yacc.py 221-230). -/
def lit (p : List Val) : Val := .e (.lit (S p 1))
/-- `p_stringliteral` (drel_ast_yacc.py 232-238), with prefix. -/
def prefixed (p : List Val) : Val := .str (S p 1 ++ S p 2)
/-- `p_parenth_form` (drel_ast_yacc.py 247-253). -/
def group (p : List Val) : Val := .e (.group (L p 2))
/-- `p_parenth_form` (drel_ast_yacc.py 247-253), empty. -/
def groupNone (_ : List Val) : Val := .e (.group [])
/-- `p_string_conversion` (drel_ast_yacc.py 255-258); the wrapper `["ATOM", ...]` is left out. -/
def convert (p : List Val) : Val := .e (.call "str".toList (L p 2))
/-- `p_list_display` (drel_ast_yacc.py 260-265). -/
def list (p : List Val) : Val := .e (.list (L p 3))
/-- `p_list_display` (drel_ast_yacc.py 260-265), empty. -/
def listNone (_ : List Val) : Val := .e (.list [])
/-- `p_listmaker` (drel_ast_yacc.py 269-272). -/
def cons (p : List Val) : Val := .es (X p 1 :: L p 2)
/-- `p_listmaker2` (drel_ast_yacc.py 274-283), empty. -/
def nil (_ : List Val) : Val := .es []
/-- `p_table_display` (drel_ast_yacc.py 286-292). -/
def table (p : List Val) : Val := .e (.table (Ks p 3) (Vs p 3))
/-- `p_table_display` (drel_ast_yacc.py 286-292), empty. -/
def tableNone (_ : List Val) : Val := .e (.table [] [])
/-- `p_tablemaker` (drel_ast_yacc.py 294-296). -/
def tableCons (p : List Val) : Val := .tab (S p 1 :: Ks p 4) (X p 3 :: Vs p 4)
/-- `p_tablemaker2` (drel_ast_yacc.py 298-307), first case. -/
def entry (p : List Val) : Val := .tab [S p 3] [X p 5]
/-- `p_tablemaker2` (drel_ast_yacc.py 298-307), second case. -/
def entryMore (p : List Val) : Val := .tab (Ks p 1 ++ [S p 4]) (Vs p 1 ++ [X p 6])
/-- `p_tablemaker2` (drel_ast_yacc.py 298-307), empty. -/
def tableNil (_ : List Val) : Val := .tab [] []
/-- `p_attributeref` (drel_ast_yacc.py 314-316). -/
def attr (p : List Val) : Val := .e (.attr (X p 1) (S p 2))
/-- `p_attribute_tag` (drel_ast_yacc.py 318-324), second case: `p[1][1:]`. -/
def tail (p : List Val) : Val := .str (S p 1).tail
/-- `p_subscription` (drel_ast_yacc.py 326-328). -/
def sub (p : List Val) : Val := .e (.sub (X p 1) (X p 3))
/-- `p_slicing` (drel_ast_yacc.py 330-333), first case. -/
def slice (p : List Val) : Val := .e (.slice (X p 1) (P p 3))
/-- `p_slicing` (drel_ast_yacc.py 330-333), second case. -/
def slices (p : List Val) : Val := .e (if (O p 3).all Option.isSome then .items (X p 1) ((O p 3).filterMap id) else .slices (X p 1))
/-- `p_short_slice` (drel_ast_yacc.py 347-357), `:`. -/
def sliceAll (_ : List Val) : Val := .parts (sliceParts Option.none Option.none Option.none)
/-- `p_short_slice` (drel_ast_yacc.py 347-357), `x : y`. -/
def sliceBoth (p : List Val) : Val := .parts (sliceParts (some (X p 1)) (some (X p 3)) Option.none)
/-- `p_short_slice` (drel_ast_yacc.py 347-357), `: y`. -/
def sliceTo (p : List Val) : Val := .parts (sliceParts Option.none (some (X p 2)) Option.none)
/-- `p_short_slice` (drel_ast_yacc.py 347-357), `x :`. -/
def sliceFrom (p : List Val) : Val := .parts (sliceParts (some (X p 1)) Option.none Option.none)
/-- `p_long_slice` (drel_ast_yacc.py 359-364). -/
def sliceStep (p : List Val) : Val := .parts (P p 1 ++ [X p 3])
/-- `p_slice_list` (drel_ast_yacc.py 366-372), first case. -/
def slotOne (p : List Val) : Val := .slots [slot p 1]
/-- `p_slice_list` (drel_ast_yacc.py 366-372), second case. -/
def slotMore (p : List Val) : Val := .slots (O p 1 ++ [slot p 3])
/-- `p_call` (drel_ast_yacc.py 379-386), no arguments. -/
def callNone (p : List Val) : Val := .e (.call (S p 1) [])
/-- `p_call` (drel_ast_yacc.py 379-386). -/
def call (p : List Val) : Val := .e (.call (S p 1) (L p 3))
/-- `p_fancy_drel_assignment_stmt` (drel_ast_yacc.py 402-405). -/
def fancy (p : List Val) : Val := .st (.fancy (S p 1) (Ks p 3) (Vs p 3))
/-- `p_dotlist` (drel_ast_yacc.py 409-415), first case. -/
def dot (p : List Val) : Val := .tab [S p 2] [X p 4]
/-- `p_dotlist` (drel_ast_yacc.py 409-415), second case. -/
def dotMore (p : List Val) : Val := .tab (Ks p 1 ++ [S p 4]) (Vs p 1 ++ [X p 6])
/-- `p_id_list` (drel_ast_yacc.py 425-432), first case. -/
def id (p : List Val) : Val := .ids [S p 1]
/-- `p_id_list` (drel_ast_yacc.py 425-432), second case. -/
def idMore (p : List Val) : Val := .ids (I p 1 ++ [S p 3])
/-- `p_compound_stmt` (drel_ast_yacc.py 437-446). -/
def compound (p : List Val) : Val := .st (.seq [B p 1])
/-- `p_if_else_stmt` (drel_ast_yacc.py 451-454). -/
def else_ (p : List Val) : Val := match B p 1 with
  | .ite c b cs bs => .st (.ite c b cs (bs ++ [B p 3]))
  | _ => .none
/-- `p_if_stmt` (drel_ast_yacc.py 457-467), first case. -/
def if_ (p : List Val) : Val := .st (.ite (X p 3) (B p 6) [] [])
/-- `p_if_stmt` (drel_ast_yacc.py 457-467), second case. -/
def elseif (p : List Val) : Val := match B p 1 with
  | .ite c b cs bs => .st (.ite c b (cs ++ [X p 4]) (bs ++ [B p 7]))
  | _ => .none
/-- `p_for_stmt` (drel_ast_yacc.py 485-491); the places of names, list and body. -/
def for_ (i j k : Nat) (p : List Val) : Val := .st (.for_ (I p i) (L p j) (B p k))
/-- `p_loop_stmt` (drel_ast_yacc.py 493-495). -/
def loop (p : List Val) : Val := match I p 1 with
  | [a, c, i, t, l] => .st (.loop a c i t l (B p 2))
  | _ => .none
/-- `p_loop_head` (drel_ast_yacc.py 499-510), first case. -/
def loopHead (p : List Val) : Val := .ids [S p 2, S p 4, [], [], []]
/-- `p_loop_head` (drel_ast_yacc.py 499-510), second case. -/
def loopIndex (p : List Val) : Val := .ids [S p 2, S p 4, S p 6, [], []]
/-- `p_loop_head` (drel_ast_yacc.py 499-510), third case. -/
def loopTest (p : List Val) : Val := .ids [S p 2, S p 4, S p 6, S p 7, S p 8]
/-- `p_do_stmt` (drel_ast_yacc.py 512-514). -/
def do_ (p : List Val) : Val := match at_ p 1 with
  | .doHead i a b c => .st (.do_ i a b c (B p 2))
  | _ => .none
/-- `p_do_stmt_head` (drel_ast_yacc.py 519-527), first case. -/
def doHead (p : List Val) : Val := .doHead (S p 2) (X p 4) (X p 6) (.lit "1".toList)
/-- `p_do_stmt_head` (drel_ast_yacc.py 519-527), second case. -/
def doStep (p : List Val) : Val := .doHead (S p 2) (X p 4) (X p 6) (X p 8)
/-- `p_repeat_stmt` (drel_ast_yacc.py 529-531). -/
def rep (p : List Val) : Val := .st (.rep (B p 2))
/-- `p_with_stmt` (drel_ast_yacc.py 533-535). -/
def with_ (p : List Val) : Val := match I p 1 with
  | [a, c] => .st (.with_ a c (B p 3))
  | _ => .none
/-- `p_with_head` (drel_ast_yacc.py 537-539). -/
def withHead (p : List Val) : Val := .ids [S p 2, S p 4]
/-- `p_funcdef` (drel_ast_yacc.py 541-543). -/
def func (p : List Val) : Val := .st (.func (S p 2) (I p 4) (B p 6))
/-- `p_arglist` (drel_ast_yacc.py 545-548), first case, without the type (for which the code takes the colon). -/
def arg (p : List Val) : Val := .ids [S p 1]
/-- `p_arglist` (drel_ast_yacc.py 545-548), second case, without the type. -/
def argMore (p : List Val) : Val := .ids (I p 1 ++ [S p 3])

end Act

/-! ## The productions -/


/-- The production added by PLY for the whole text. -/
def Rules.top : List (Rule Val) := [⟨N.top, [.n N.input], Act.p1⟩]
/-- `p_input` (drel_ast_yacc.py 22-30). -/
def Rules.input : List (Rule Val) := [⟨N.input, [.n N.maybeNline, .n N.statement], Act.p2⟩,
  ⟨N.input, [.n N.input, .n N.statement], Act.input⟩]
/-- `p_statement` (drel_ast_yacc.py 39-43). -/
def Rules.statement : List (Rule Val) := [⟨N.statement, [.n N.simpleStmt, .n N.newlines], Act.p1⟩,
  ⟨N.statement, [.n N.simpleStmt, .t K.semi, .n N.newlines], Act.p1⟩,
  ⟨N.statement, [.n N.compoundStmt], Act.p1⟩]
/-- `p_simple_stmt` (drel_ast_yacc.py 47-53). -/
def Rules.simpleStmt : List (Rule Val) := [⟨N.simpleStmt, [.n N.smallStmt], Act.simple⟩,
  ⟨N.simpleStmt, [.n N.simpleStmt, .t K.semi, .n N.smallStmt], Act.simpleMore⟩]
/-- `p_statements` (drel_ast_yacc.py 58-62). -/
def Rules.statements : List (Rule Val) := [⟨N.statements, [.n N.statement], Act.p1⟩,
  ⟨N.statements, [.n N.statements, .n N.statement], Act.statements⟩]
/-- `p_small_stmt` (drel_ast_yacc.py 64-69). -/
def Rules.smallStmt : List (Rule Val) := [⟨N.smallStmt, [.n N.exprStmt], Act.p1⟩,
  ⟨N.smallStmt, [.n N.printStmt], Act.p1⟩,
  ⟨N.smallStmt, [.n N.breakStmt], Act.p1⟩,
  ⟨N.smallStmt, [.n N.nextStmt], Act.p1⟩]
/-- `p_break_stmt` (drel_ast_yacc.py 71-73). -/
def Rules.breakStmt : List (Rule Val) := [⟨N.breakStmt, [.t K.brk], Act.brk⟩]
/-- `p_next_stmt` (drel_ast_yacc.py 75-77). -/
def Rules.nextStmt : List (Rule Val) := [⟨N.nextStmt, [.t K.next], Act.next⟩]
/-- `p_print_stmt` (drel_ast_yacc.py 79-81). -/
def Rules.printStmt : List (Rule Val) := [⟨N.printStmt, [.t K.print, .n N.expression], Act.print⟩]
/-- `p_expr_stmt` (drel_ast_yacc.py 87-97). -/
def Rules.exprStmt : List (Rule Val) := [⟨N.exprStmt, [.n N.testlistStarExpr], Act.exprs⟩,
  ⟨N.exprStmt, [.n N.testlistStarExpr, .t K.augop, .n N.testlistStarExpr], Act.assign⟩,
  ⟨N.exprStmt, [.n N.testlistStarExpr, .t K.assign, .n N.testlistStarExpr], Act.assign⟩,
  ⟨N.exprStmt, [.n N.fancyDrelAssignmentStmt], Act.p1⟩]
/-- `p_testlist_star_expr` (drel_ast_yacc.py 99-105). -/
def Rules.testlistStarExpr : List (Rule Val) := [⟨N.testlistStarExpr, [.n N.expression], Act.one⟩,
  ⟨N.testlistStarExpr, [.n N.testlistStarExpr, .t K.comma, .n N.maybeNline, .n N.expression], Act.more14⟩]
/-- `p_expression` (drel_ast_yacc.py 110-112). -/
def Rules.expression : List (Rule Val) := [⟨N.expression, [.n N.orTest], Act.p1⟩]
/-- `p_or_test` (drel_ast_yacc.py 118-123). -/
def Rules.orTest : List (Rule Val) := [⟨N.orTest, [.n N.andTest], Act.p1⟩,
  ⟨N.orTest, [.n N.orTest, .t K.or_, .n N.andTest], Act.binary .or⟩,
  ⟨N.orTest, [.n N.orTest, .t K.badOr, .n N.andTest], Act.binary .or⟩]
/-- `p_and_test` (drel_ast_yacc.py 125-130). -/
def Rules.andTest : List (Rule Val) := [⟨N.andTest, [.n N.notTest], Act.p1⟩,
  ⟨N.andTest, [.n N.andTest, .t K.and_, .n N.notTest], Act.binary .and⟩,
  ⟨N.andTest, [.n N.andTest, .t K.badAnd, .n N.notTest], Act.binary .and⟩]
/-- `p_not_test` (drel_ast_yacc.py 132-136). -/
def Rules.notTest : List (Rule Val) := [⟨N.notTest, [.n N.comparison], Act.p1⟩,
  ⟨N.notTest, [.t K.not_, .n N.notTest], Act.not⟩]
/-- `p_comparison` (drel_ast_yacc.py 138-143). -/
def Rules.comparison : List (Rule Val) := [⟨N.comparison, [.n N.aExpr], Act.p1⟩,
  ⟨N.comparison, [.n N.aExpr, .n N.compOperator, .n N.aExpr], Act.compare⟩]
/-- `p_comp_operator` (drel_ast_yacc.py 145-151). -/
def Rules.compOperator : List (Rule Val) := [⟨N.compOperator, [.n N.restrictedCompOperator], Act.p1⟩,
  ⟨N.compOperator, [.t K.in_], Act.p1⟩,
  ⟨N.compOperator, [.t K.not_, .t K.in_], Act.notIn⟩]
/-- `p_restricted_comp_operator` (drel_ast_yacc.py 153-160). -/
def Rules.restrictedCompOperator : List (Rule Val) := [⟨N.restrictedCompOperator, [.t K.lt], Act.p1⟩,
  ⟨N.restrictedCompOperator, [.t K.gt], Act.p1⟩,
  ⟨N.restrictedCompOperator, [.t K.gte], Act.p1⟩,
  ⟨N.restrictedCompOperator, [.t K.lte], Act.p1⟩,
  ⟨N.restrictedCompOperator, [.t K.neq], Act.p1⟩,
  ⟨N.restrictedCompOperator, [.t K.isEqual], Act.p1⟩]
/-- `p_a_expr` (drel_ast_yacc.py 162-169). -/
def Rules.aExpr : List (Rule Val) := [⟨N.aExpr, [.n N.mExpr], Act.p1⟩,
  ⟨N.aExpr, [.n N.aExpr, .t K.plus, .n N.mExpr], Act.binary .add⟩,
  ⟨N.aExpr, [.n N.aExpr, .t K.minus, .n N.mExpr], Act.binary .sub⟩]
/-- `p_m_expr` (drel_ast_yacc.py 171-181). -/
def Rules.mExpr : List (Rule Val) := [⟨N.mExpr, [.n N.uExpr], Act.p1⟩,
  ⟨N.mExpr, [.n N.mExpr, .t K.star, .n N.uExpr], Act.binary .mul⟩,
  ⟨N.mExpr, [.n N.mExpr, .t K.slash, .n N.uExpr], Act.binary .div⟩,
  ⟨N.mExpr, [.n N.mExpr, .t K.caret, .n N.uExpr], Act.binary .cross⟩,
  ⟨N.mExpr, [.n N.mExpr, .t K.amp, .n N.uExpr], Act.binary .amp⟩,
  ⟨N.mExpr, [.n N.mExpr, .t K.bar, .n N.uExpr], Act.binary .bar⟩]
/-- `p_u_expr` (drel_ast_yacc.py 183-190). -/
def Rules.uExpr : List (Rule Val) := [⟨N.uExpr, [.n N.power], Act.p1⟩,
  ⟨N.uExpr, [.t K.minus, .n N.uExpr], Act.sign true⟩,
  ⟨N.uExpr, [.t K.plus, .n N.uExpr], Act.sign false⟩]
/-- `p_power` (drel_ast_yacc.py 192-198). -/
def Rules.power : List (Rule Val) := [⟨N.power, [.n N.primary], Act.p1⟩,
  ⟨N.power, [.n N.primary, .t K.power, .n N.uExpr], Act.binary .pow⟩]
/-- `p_primary` (drel_ast_yacc.py 201-208). -/
def Rules.primary : List (Rule Val) := [⟨N.primary, [.n N.atom], Act.p1⟩,
  ⟨N.primary, [.n N.attributeref], Act.p1⟩,
  ⟨N.primary, [.n N.subscription], Act.p1⟩,
  ⟨N.primary, [.n N.slicing], Act.p1⟩,
  ⟨N.primary, [.n N.call], Act.p1⟩]
/-- `p_atom` (drel_ast_yacc.py 210-216). -/
def Rules.atom : List (Rule Val) := [⟨N.atom, [.t K.id], Act.name⟩,
  ⟨N.atom, [.n N.itemTag], Act.p1⟩,
  ⟨N.atom, [.n N.literal], Act.p1⟩,
  ⟨N.atom, [.n N.enclosure], Act.p1⟩]
/-- `p_item_tag` (drel_ast_yacc.py 218-220). -/
def Rules.itemTag : List (Rule Val) := [⟨N.itemTag, [.t K.itemTag], Act.tag⟩]
/-- `p_literal` (drel_ast_yacc.py 222-231). -/
def Rules.literal : List (Rule Val) := [⟨N.literal, [.n N.stringliteral], Act.lit⟩,
  ⟨N.literal, [.t K.integer], Act.lit⟩,
  ⟨N.literal, [.t K.hexint], Act.lit⟩,
  ⟨N.literal, [.t K.octint], Act.lit⟩,
  ⟨N.literal, [.t K.binint], Act.lit⟩,
  ⟨N.literal, [.t K.real], Act.lit⟩,
  ⟨N.literal, [.t K.imaginary], Act.lit⟩]
/-- `p_stringliteral` (drel_ast_yacc.py 233-239). -/
def Rules.stringliteral : List (Rule Val) := [⟨N.stringliteral, [.t K.strPrefix, .t K.shortString], Act.prefixed⟩,
  ⟨N.stringliteral, [.t K.strPrefix, .t K.longString], Act.prefixed⟩,
  ⟨N.stringliteral, [.t K.shortString], Act.p1⟩,
  ⟨N.stringliteral, [.t K.longString], Act.p1⟩]
/-- `p_enclosure` (drel_ast_yacc.py 241-246). -/
def Rules.enclosure : List (Rule Val) := [⟨N.enclosure, [.n N.parenthForm], Act.p1⟩,
  ⟨N.enclosure, [.n N.stringConversion], Act.p1⟩,
  ⟨N.enclosure, [.n N.listDisplay], Act.p1⟩,
  ⟨N.enclosure, [.n N.tableDisplay], Act.p1⟩]
/-- `p_parenth_form` (drel_ast_yacc.py 248-253). -/
def Rules.parenthForm : List (Rule Val) := [⟨N.parenthForm, [.t K.openParen, .n N.testlistStarExpr, .t K.closeParen], Act.group⟩,
  ⟨N.parenthForm, [.t K.openParen, .t K.closeParen], Act.groupNone⟩]
/-- `p_string_conversion` (drel_ast_yacc.py 256-259). -/
def Rules.stringConversion : List (Rule Val) := [⟨N.stringConversion, [.t K.tick, .n N.testlistStarExpr, .t K.tick], Act.convert⟩]
/-- `p_list_display` (drel_ast_yacc.py 261-266). -/
def Rules.listDisplay : List (Rule Val) := [⟨N.listDisplay, [.t K.openSq, .n N.maybeNline, .n N.listmaker, .n N.maybeNline, .t K.closeSq], Act.list⟩,
  ⟨N.listDisplay, [.t K.openSq, .n N.maybeNline, .t K.closeSq], Act.listNone⟩]
/-- `p_listmaker` (drel_ast_yacc.py 270-272). -/
def Rules.listmaker : List (Rule Val) := [⟨N.listmaker, [.n N.expression, .n N.listmaker2], Act.cons⟩]
/-- `p_listmaker2` (drel_ast_yacc.py 275-284). -/
def Rules.listmaker2 : List (Rule Val) := [⟨N.listmaker2, [.t K.comma, .n N.maybeNline, .n N.expression], Act.one3⟩,
  ⟨N.listmaker2, [.n N.listmaker2, .t K.comma, .n N.maybeNline, .n N.expression], Act.more14⟩,
  ⟨N.listmaker2, [], Act.nil⟩]
/-- `p_table_display` (drel_ast_yacc.py 287-293). -/
def Rules.tableDisplay : List (Rule Val) := [⟨N.tableDisplay, [.t K.openBrace, .n N.maybeNline, .n N.tablemaker, .n N.maybeNline, .t K.closeBrace], Act.table⟩,
  ⟨N.tableDisplay, [.t K.openBrace, .n N.maybeNline, .t K.closeBrace], Act.tableNone⟩]
/-- `p_tablemaker` (drel_ast_yacc.py 295-297). -/
def Rules.tablemaker : List (Rule Val) := [⟨N.tablemaker, [.n N.stringliteral, .t K.colon, .n N.expression, .n N.tablemaker2], Act.tableCons⟩]
/-- `p_tablemaker2` (drel_ast_yacc.py 299-308). -/
def Rules.tablemaker2 : List (Rule Val) := [⟨N.tablemaker2, [.t K.comma, .n N.maybeNline, .n N.stringliteral, .t K.colon, .n N.expression], Act.entry⟩,
  ⟨N.tablemaker2, [.n N.tablemaker2, .t K.comma, .n N.maybeNline, .n N.stringliteral, .t K.colon, .n N.expression], Act.entryMore⟩,
  ⟨N.tablemaker2, [], Act.tableNil⟩]
/-- `p_attributeref` (drel_ast_yacc.py 315-317). -/
def Rules.attributeref : List (Rule Val) := [⟨N.attributeref, [.n N.primary, .n N.attributeTag], Act.attr⟩]
/-- `p_attribute_tag` (drel_ast_yacc.py 319-325). -/
def Rules.attributeTag : List (Rule Val) := [⟨N.attributeTag, [.t K.dot, .t K.id], Act.p2⟩,
  ⟨N.attributeTag, [.t K.real], Act.tail⟩]
/-- `p_subscription` (drel_ast_yacc.py 327-329). -/
def Rules.subscription : List (Rule Val) := [⟨N.subscription, [.n N.primary, .t K.openSq, .n N.expression, .t K.closeSq], Act.sub⟩]
/-- `p_slicing` (drel_ast_yacc.py 331-334). -/
def Rules.slicing : List (Rule Val) := [⟨N.slicing, [.n N.primary, .t K.openSq, .n N.properSlice, .t K.closeSq], Act.slice⟩,
  ⟨N.slicing, [.n N.primary, .t K.openSq, .n N.sliceList, .t K.closeSq], Act.slices⟩]
/-- `p_proper_slice` (drel_ast_yacc.py 336-339). -/
def Rules.properSlice : List (Rule Val) := [⟨N.properSlice, [.n N.shortSlice], Act.p1⟩,
  ⟨N.properSlice, [.n N.longSlice], Act.p1⟩]
/-- `p_short_slice` (drel_ast_yacc.py 348-358). -/
def Rules.shortSlice : List (Rule Val) := [⟨N.shortSlice, [.t K.colon], Act.sliceAll⟩,
  ⟨N.shortSlice, [.n N.expression, .t K.colon, .n N.expression], Act.sliceBoth⟩,
  ⟨N.shortSlice, [.t K.colon, .n N.expression], Act.sliceTo⟩,
  ⟨N.shortSlice, [.n N.expression, .t K.colon], Act.sliceFrom⟩]
/-- `p_long_slice` (drel_ast_yacc.py 360-365). -/
def Rules.longSlice : List (Rule Val) := [⟨N.longSlice, [.n N.shortSlice, .t K.colon, .n N.expression], Act.sliceStep⟩]
/-- `p_slice_list` (drel_ast_yacc.py 367-373). -/
def Rules.sliceList : List (Rule Val) := [⟨N.sliceList, [.n N.sliceItem], Act.slotOne⟩,
  ⟨N.sliceList, [.n N.sliceList, .t K.comma, .n N.sliceItem], Act.slotMore⟩]
/-- `p_slice_item` (drel_ast_yacc.py 375-378). -/
def Rules.sliceItem : List (Rule Val) := [⟨N.sliceItem, [.n N.expression], Act.p1⟩,
  ⟨N.sliceItem, [.n N.properSlice], Act.p1⟩]
/-- `p_call` (drel_ast_yacc.py 380-386). -/
def Rules.call : List (Rule Val) := [⟨N.call, [.t K.id, .t K.openParen, .t K.closeParen], Act.callNone⟩,
  ⟨N.call, [.t K.id, .t K.openParen, .n N.argumentList, .t K.closeParen], Act.call⟩]
/-- `p_argument_list` (drel_ast_yacc.py 391-397). -/
def Rules.argumentList : List (Rule Val) := [⟨N.argumentList, [.n N.funcArg], Act.one⟩,
  ⟨N.argumentList, [.n N.argumentList, .t K.comma, .n N.funcArg], Act.more13⟩]
/-- `p_func_arg` (drel_ast_yacc.py 399-401). -/
def Rules.funcArg : List (Rule Val) := [⟨N.funcArg, [.n N.expression], Act.p1⟩]
/-- `p_fancy_drel_assignment_stmt` (drel_ast_yacc.py 403-405). -/
def Rules.fancyDrelAssignmentStmt : List (Rule Val) := [⟨N.fancyDrelAssignmentStmt, [.t K.id, .t K.openParen, .n N.dotlist, .t K.closeParen], Act.fancy⟩]
/-- `p_dotlist` (drel_ast_yacc.py 410-416). -/
def Rules.dotlist : List (Rule Val) := [⟨N.dotlist, [.t K.dot, .t K.id, .t K.assign, .n N.expression], Act.dot⟩,
  ⟨N.dotlist, [.n N.dotlist, .t K.comma, .t K.dot, .t K.id, .t K.assign, .n N.expression], Act.dotMore⟩]
/-- `p_exprlist` (drel_ast_yacc.py 418-423). -/
def Rules.exprlist : List (Rule Val) := [⟨N.exprlist, [.n N.aExpr], Act.one⟩,
  ⟨N.exprlist, [.n N.exprlist, .t K.comma, .n N.aExpr], Act.more13⟩]
/-- `p_id_list` (drel_ast_yacc.py 426-433). -/
def Rules.idList : List (Rule Val) := [⟨N.idList, [.t K.id], Act.id⟩,
  ⟨N.idList, [.n N.idList, .t K.comma, .t K.id], Act.idMore⟩]
/-- `p_compound_stmt` (drel_ast_yacc.py 438-447). -/
def Rules.compoundStmt : List (Rule Val) := [⟨N.compoundStmt, [.n N.ifStmt], Act.compound⟩,
  ⟨N.compoundStmt, [.n N.ifElseStmt], Act.compound⟩,
  ⟨N.compoundStmt, [.n N.forStmt], Act.compound⟩,
  ⟨N.compoundStmt, [.n N.doStmt], Act.compound⟩,
  ⟨N.compoundStmt, [.n N.loopStmt], Act.compound⟩,
  ⟨N.compoundStmt, [.n N.withStmt], Act.compound⟩,
  ⟨N.compoundStmt, [.n N.repeatStmt], Act.compound⟩,
  ⟨N.compoundStmt, [.n N.funcdef], Act.compound⟩]
/-- `p_if_else_stmt` (drel_ast_yacc.py 452-455). -/
def Rules.ifElseStmt : List (Rule Val) := [⟨N.ifElseStmt, [.n N.ifStmt, .t K.else_, .n N.suite], Act.else_⟩]
/-- `p_if_stmt` (drel_ast_yacc.py 458-468). -/
def Rules.ifStmt : List (Rule Val) := [⟨N.ifStmt, [.t K.if_, .t K.openParen, .n N.expression, .t K.closeParen, .n N.maybeNline, .n N.suite], Act.if_⟩,
  ⟨N.ifStmt, [.n N.ifStmt, .t K.elseif, .t K.openParen, .n N.expression, .t K.closeParen, .n N.maybeNline, .n N.suite], Act.elseif⟩]
/-- `p_suite` (drel_ast_yacc.py 478-484). -/
def Rules.suite : List (Rule Val) := [⟨N.suite, [.n N.statement], Act.p1⟩,
  ⟨N.suite, [.t K.openBrace, .n N.maybeNline, .n N.statements, .t K.closeBrace, .n N.maybeNline], Act.p3⟩]
/-- `p_for_stmt` (drel_ast_yacc.py 486-492). -/
def Rules.forStmt : List (Rule Val) := [⟨N.forStmt, [.t K.for_, .n N.idList, .t K.in_, .n N.testlistStarExpr, .n N.suite], Act.for_ 2 4 5⟩,
  ⟨N.forStmt, [.t K.for_, .t K.openSq, .n N.idList, .t K.closeSq, .t K.in_, .n N.testlistStarExpr, .n N.suite], Act.for_ 3 6 7⟩]
/-- `p_loop_stmt` (drel_ast_yacc.py 494-496). -/
def Rules.loopStmt : List (Rule Val) := [⟨N.loopStmt, [.n N.loopHead, .n N.suite], Act.loop⟩]
/-- `p_loop_head` (drel_ast_yacc.py 500-511). -/
def Rules.loopHead : List (Rule Val) := [⟨N.loopHead, [.t K.loop, .t K.id, .t K.as_, .t K.id], Act.loopHead⟩,
  ⟨N.loopHead, [.t K.loop, .t K.id, .t K.as_, .t K.id, .t K.colon, .t K.id], Act.loopIndex⟩,
  ⟨N.loopHead, [.t K.loop, .t K.id, .t K.as_, .t K.id, .t K.colon, .t K.id, .n N.restrictedCompOperator, .t K.id], Act.loopTest⟩]
/-- `p_do_stmt` (drel_ast_yacc.py 513-515). -/
def Rules.doStmt : List (Rule Val) := [⟨N.doStmt, [.n N.doStmtHead, .n N.suite], Act.do_⟩]
/-- `p_do_stmt_head` (drel_ast_yacc.py 520-528). -/
def Rules.doStmtHead : List (Rule Val) := [⟨N.doStmtHead, [.t K.do_, .t K.id, .t K.assign, .n N.expression, .t K.comma, .n N.expression], Act.doHead⟩,
  ⟨N.doStmtHead, [.t K.do_, .t K.id, .t K.assign, .n N.expression, .t K.comma, .n N.expression, .t K.comma, .n N.expression], Act.doStep⟩]
/-- `p_repeat_stmt` (drel_ast_yacc.py 530-532). -/
def Rules.repeatStmt : List (Rule Val) := [⟨N.repeatStmt, [.t K.repeat_, .n N.suite], Act.rep⟩]
/-- `p_with_stmt` (drel_ast_yacc.py 534-536). -/
def Rules.withStmt : List (Rule Val) := [⟨N.withStmt, [.n N.withHead, .n N.maybeNline, .n N.suite], Act.with_⟩]
/-- `p_with_head` (drel_ast_yacc.py 538-540). -/
def Rules.withHead : List (Rule Val) := [⟨N.withHead, [.t K.with_, .t K.id, .t K.as_, .t K.id], Act.withHead⟩]
/-- `p_funcdef` (drel_ast_yacc.py 542-544). -/
def Rules.funcdef : List (Rule Val) := [⟨N.funcdef, [.t K.function, .t K.id, .t K.openParen, .n N.arglist, .t K.closeParen, .n N.suite], Act.func⟩]
/-- `p_arglist` (drel_ast_yacc.py 546-550). -/
def Rules.arglist : List (Rule Val) := [⟨N.arglist, [.t K.id, .t K.colon, .n N.listDisplay], Act.arg⟩,
  ⟨N.arglist, [.n N.arglist, .t K.comma, .t K.id, .t K.colon, .n N.listDisplay], Act.argMore⟩]
/-- `p_maybe_nline` (drel_ast_yacc.py 554-557). -/
def Rules.maybeNline : List (Rule Val) := [⟨N.maybeNline, [.n N.newlines], Act.none⟩,
  ⟨N.maybeNline, [.n N.empty], Act.none⟩]
/-- `p_newlines` (drel_ast_yacc.py 562-565). -/
def Rules.newlines : List (Rule Val) := [⟨N.newlines, [.t K.newline], Act.none⟩,
  ⟨N.newlines, [.n N.newlines, .t K.newline], Act.none⟩]
/-- `p_empty` (drel_ast_yacc.py 567-569). -/
def Rules.empty : List (Rule Val) := [⟨N.empty, [], Act.none⟩]

/-- The grammar: all productions in the order of the file. -/
def grammar : List (Rule Val) :=
  Rules.top ++ Rules.input ++ Rules.statement ++ Rules.simpleStmt ++ Rules.statements ++ Rules.smallStmt ++ Rules.breakStmt ++ Rules.nextStmt ++ Rules.printStmt ++ Rules.exprStmt ++ Rules.testlistStarExpr ++ Rules.expression ++ Rules.orTest ++ Rules.andTest ++ Rules.notTest ++ Rules.comparison ++ Rules.compOperator ++ Rules.restrictedCompOperator ++ Rules.aExpr ++ Rules.mExpr ++ Rules.uExpr ++ Rules.power ++ Rules.primary ++ Rules.atom ++ Rules.itemTag ++ Rules.literal ++ Rules.stringliteral ++ Rules.enclosure ++ Rules.parenthForm ++ Rules.stringConversion ++ Rules.listDisplay ++ Rules.listmaker ++ Rules.listmaker2 ++ Rules.tableDisplay ++ Rules.tablemaker ++ Rules.tablemaker2 ++ Rules.attributeref ++ Rules.attributeTag ++ Rules.subscription ++ Rules.slicing ++ Rules.properSlice ++ Rules.shortSlice ++ Rules.longSlice ++ Rules.sliceList ++ Rules.sliceItem ++ Rules.call ++ Rules.argumentList ++ Rules.funcArg ++ Rules.fancyDrelAssignmentStmt ++ Rules.dotlist ++ Rules.exprlist ++ Rules.idList ++ Rules.compoundStmt ++ Rules.ifElseStmt ++ Rules.ifStmt ++ Rules.suite ++ Rules.forStmt ++ Rules.loopStmt ++ Rules.loopHead ++ Rules.doStmt ++ Rules.doStmtHead ++ Rules.repeatStmt ++ Rules.withStmt ++ Rules.withHead ++ Rules.funcdef ++ Rules.arglist ++ Rules.maybeNline ++ Rules.newlines ++ Rules.empty

end Drel
end Verif
