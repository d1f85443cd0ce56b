import Verif.Spec.DrelGrammar
/-! # The productions of the finer grammar, one by one -/
namespace Verif
namespace Drel
open LR

theorem fine_rule (i : Nat) (f : Fine) (r : Rule Val) (hf : fine[i]? = some f) (hr : grammar[f.image]? = some r) {w : List (Tok Val)}
    {us : List Val} (h : Derives fineGrammar f.rhs w us) : Phrase fineGrammar f.lhs w (r.act us) := by
  have hm : f.rule grammar ∈ fineGrammar := List.mem_map.mpr ⟨f, List.mem_of_getElem? hf, rfl⟩
  have hd := Derives.rule (G := fineGrammar) hm h .nil
  rw [List.append_nil] at hd
  have : (f.rule grammar).act us = r.act us := by simp only [Fine.rule, hr]
  rw [this] at hd
  exact hd

theorem fine_input1 {w : List (Tok Val)} {us : List Val} (h : Derives fineGrammar [.n N.maybeNline, .n N.statement] w us) : Phrase fineGrammar N.input w (Act.p2 us) :=
  fine_rule 0 _ _ rfl rfl h

theorem fine_input2 {w : List (Tok Val)} {us : List Val} (h : Derives fineGrammar [.n N.input, .n N.statement] w us) : Phrase fineGrammar N.input w (Act.input us) :=
  fine_rule 1 _ _ rfl rfl h

theorem fine_statement1 {w : List (Tok Val)} {us : List Val} (h : Derives fineGrammar [.n N.simpleStmt, .n N.newlines] w us) : Phrase fineGrammar N.statement w (Act.p1 us) :=
  fine_rule 2 _ _ rfl rfl h

theorem fine_statementN1 {w : List (Tok Val)} {us : List Val} (h : Derives fineGrammar [.n N.simpleStmt, .n N.newlines] w us) : Phrase fineGrammar M.statementN w (Act.p1 us) :=
  fine_rule 3 _ _ rfl rfl h

theorem fine_statement2 {w : List (Tok Val)} {us : List Val} (h : Derives fineGrammar [.n N.simpleStmt, .t K.semi, .n N.newlines] w us) : Phrase fineGrammar N.statement w (Act.p1 us) :=
  fine_rule 4 _ _ rfl rfl h

theorem fine_statementN2 {w : List (Tok Val)} {us : List Val} (h : Derives fineGrammar [.n N.simpleStmt, .t K.semi, .n N.newlines] w us) : Phrase fineGrammar M.statementN w (Act.p1 us) :=
  fine_rule 5 _ _ rfl rfl h

theorem fine_statement3 {w : List (Tok Val)} {us : List Val} (h : Derives fineGrammar [.n N.compoundStmt] w us) : Phrase fineGrammar N.statement w (Act.p1 us) :=
  fine_rule 6 _ _ rfl rfl h

theorem fine_statementN3 {w : List (Tok Val)} {us : List Val} (h : Derives fineGrammar [.n M.compoundN] w us) : Phrase fineGrammar M.statementN w (Act.p1 us) :=
  fine_rule 7 _ _ rfl rfl h

theorem fine_statementK1 {w : List (Tok Val)} {us : List Val} (h : Derives fineGrammar [.n M.compoundN] w us) : Phrase fineGrammar M.statementK w (Act.p1 us) :=
  fine_rule 8 _ _ rfl rfl h

theorem fine_simpleStmt1 {w : List (Tok Val)} {us : List Val} (h : Derives fineGrammar [.n N.smallStmt] w us) : Phrase fineGrammar N.simpleStmt w (Act.simple us) :=
  fine_rule 9 _ _ rfl rfl h

theorem fine_simpleStmt2 {w : List (Tok Val)} {us : List Val} (h : Derives fineGrammar [.n N.simpleStmt, .t K.semi, .n N.smallStmt] w us) : Phrase fineGrammar N.simpleStmt w (Act.simpleMore us) :=
  fine_rule 10 _ _ rfl rfl h

theorem fine_statements1 {w : List (Tok Val)} {us : List Val} (h : Derives fineGrammar [.n N.statement] w us) : Phrase fineGrammar N.statements w (Act.p1 us) :=
  fine_rule 11 _ _ rfl rfl h

theorem fine_statements2 {w : List (Tok Val)} {us : List Val} (h : Derives fineGrammar [.n N.statements, .n N.statement] w us) : Phrase fineGrammar N.statements w (Act.statements us) :=
  fine_rule 12 _ _ rfl rfl h

theorem fine_smallStmt1 {w : List (Tok Val)} {us : List Val} (h : Derives fineGrammar [.n N.exprStmt] w us) : Phrase fineGrammar N.smallStmt w (Act.p1 us) :=
  fine_rule 13 _ _ rfl rfl h

theorem fine_smallStmt2 {w : List (Tok Val)} {us : List Val} (h : Derives fineGrammar [.n N.printStmt] w us) : Phrase fineGrammar N.smallStmt w (Act.p1 us) :=
  fine_rule 14 _ _ rfl rfl h

theorem fine_smallStmt3 {w : List (Tok Val)} {us : List Val} (h : Derives fineGrammar [.n N.breakStmt] w us) : Phrase fineGrammar N.smallStmt w (Act.p1 us) :=
  fine_rule 15 _ _ rfl rfl h

theorem fine_smallStmt4 {w : List (Tok Val)} {us : List Val} (h : Derives fineGrammar [.n N.nextStmt] w us) : Phrase fineGrammar N.smallStmt w (Act.p1 us) :=
  fine_rule 16 _ _ rfl rfl h

theorem fine_breakStmt1 {w : List (Tok Val)} {us : List Val} (h : Derives fineGrammar [.t K.brk] w us) : Phrase fineGrammar N.breakStmt w (Act.brk us) :=
  fine_rule 17 _ _ rfl rfl h

theorem fine_nextStmt1 {w : List (Tok Val)} {us : List Val} (h : Derives fineGrammar [.t K.next] w us) : Phrase fineGrammar N.nextStmt w (Act.next us) :=
  fine_rule 18 _ _ rfl rfl h

theorem fine_printStmt1 {w : List (Tok Val)} {us : List Val} (h : Derives fineGrammar [.t K.print, .n N.expression] w us) : Phrase fineGrammar N.printStmt w (Act.print us) :=
  fine_rule 19 _ _ rfl rfl h

theorem fine_exprStmt1 {w : List (Tok Val)} {us : List Val} (h : Derives fineGrammar [.n N.testlistStarExpr] w us) : Phrase fineGrammar N.exprStmt w (Act.exprs us) :=
  fine_rule 20 _ _ rfl rfl h

theorem fine_exprStmt2 {w : List (Tok Val)} {us : List Val} (h : Derives fineGrammar [.n N.testlistStarExpr, .t K.augop, .n N.testlistStarExpr] w us) : Phrase fineGrammar N.exprStmt w (Act.assign us) :=
  fine_rule 21 _ _ rfl rfl h

theorem fine_exprStmt3 {w : List (Tok Val)} {us : List Val} (h : Derives fineGrammar [.n N.testlistStarExpr, .t K.assign, .n N.testlistStarExpr] w us) : Phrase fineGrammar N.exprStmt w (Act.assign us) :=
  fine_rule 22 _ _ rfl rfl h

theorem fine_exprStmt4 {w : List (Tok Val)} {us : List Val} (h : Derives fineGrammar [.n N.fancyDrelAssignmentStmt] w us) : Phrase fineGrammar N.exprStmt w (Act.p1 us) :=
  fine_rule 23 _ _ rfl rfl h

theorem fine_testlistStarExpr1 {w : List (Tok Val)} {us : List Val} (h : Derives fineGrammar [.n N.expression] w us) : Phrase fineGrammar N.testlistStarExpr w (Act.one us) :=
  fine_rule 24 _ _ rfl rfl h

theorem fine_testlistStarExpr2 {w : List (Tok Val)} {us : List Val} (h : Derives fineGrammar [.n N.testlistStarExpr, .t K.comma, .n N.maybeNline, .n N.expression] w us) : Phrase fineGrammar N.testlistStarExpr w (Act.more14 us) :=
  fine_rule 25 _ _ rfl rfl h

theorem fine_expression1 {w : List (Tok Val)} {us : List Val} (h : Derives fineGrammar [.n N.orTest] w us) : Phrase fineGrammar N.expression w (Act.p1 us) :=
  fine_rule 26 _ _ rfl rfl h

theorem fine_orTest1 {w : List (Tok Val)} {us : List Val} (h : Derives fineGrammar [.n N.andTest] w us) : Phrase fineGrammar N.orTest w (Act.p1 us) :=
  fine_rule 27 _ _ rfl rfl h

theorem fine_orTest2 {w : List (Tok Val)} {us : List Val} (h : Derives fineGrammar [.n N.orTest, .t K.or_, .n N.andTest] w us) : Phrase fineGrammar N.orTest w (Act.binary .or us) :=
  fine_rule 28 _ _ rfl rfl h

theorem fine_orTest3 {w : List (Tok Val)} {us : List Val} (h : Derives fineGrammar [.n N.orTest, .t K.badOr, .n N.andTest] w us) : Phrase fineGrammar N.orTest w (Act.binary .or us) :=
  fine_rule 29 _ _ rfl rfl h

theorem fine_andTest1 {w : List (Tok Val)} {us : List Val} (h : Derives fineGrammar [.n N.notTest] w us) : Phrase fineGrammar N.andTest w (Act.p1 us) :=
  fine_rule 30 _ _ rfl rfl h

theorem fine_andTest2 {w : List (Tok Val)} {us : List Val} (h : Derives fineGrammar [.n N.andTest, .t K.and_, .n N.notTest] w us) : Phrase fineGrammar N.andTest w (Act.binary .and us) :=
  fine_rule 31 _ _ rfl rfl h

theorem fine_andTest3 {w : List (Tok Val)} {us : List Val} (h : Derives fineGrammar [.n N.andTest, .t K.badAnd, .n N.notTest] w us) : Phrase fineGrammar N.andTest w (Act.binary .and us) :=
  fine_rule 32 _ _ rfl rfl h

theorem fine_notTest1 {w : List (Tok Val)} {us : List Val} (h : Derives fineGrammar [.n N.comparison] w us) : Phrase fineGrammar N.notTest w (Act.p1 us) :=
  fine_rule 33 _ _ rfl rfl h

theorem fine_notTest2 {w : List (Tok Val)} {us : List Val} (h : Derives fineGrammar [.t K.not_, .n N.notTest] w us) : Phrase fineGrammar N.notTest w (Act.not us) :=
  fine_rule 34 _ _ rfl rfl h

theorem fine_comparison1 {w : List (Tok Val)} {us : List Val} (h : Derives fineGrammar [.n N.aExpr] w us) : Phrase fineGrammar N.comparison w (Act.p1 us) :=
  fine_rule 35 _ _ rfl rfl h

theorem fine_comparison2 {w : List (Tok Val)} {us : List Val} (h : Derives fineGrammar [.n N.aExpr, .n N.compOperator, .n N.aExpr] w us) : Phrase fineGrammar N.comparison w (Act.compare us) :=
  fine_rule 36 _ _ rfl rfl h

theorem fine_compOperator1 {w : List (Tok Val)} {us : List Val} (h : Derives fineGrammar [.n N.restrictedCompOperator] w us) : Phrase fineGrammar N.compOperator w (Act.p1 us) :=
  fine_rule 37 _ _ rfl rfl h

theorem fine_compOperator2 {w : List (Tok Val)} {us : List Val} (h : Derives fineGrammar [.t K.in_] w us) : Phrase fineGrammar N.compOperator w (Act.p1 us) :=
  fine_rule 38 _ _ rfl rfl h

theorem fine_compOperator3 {w : List (Tok Val)} {us : List Val} (h : Derives fineGrammar [.t K.not_, .t K.in_] w us) : Phrase fineGrammar N.compOperator w (Act.notIn us) :=
  fine_rule 39 _ _ rfl rfl h

theorem fine_restrictedCompOperator1 {w : List (Tok Val)} {us : List Val} (h : Derives fineGrammar [.t K.lt] w us) : Phrase fineGrammar N.restrictedCompOperator w (Act.p1 us) :=
  fine_rule 40 _ _ rfl rfl h

theorem fine_restrictedCompOperator2 {w : List (Tok Val)} {us : List Val} (h : Derives fineGrammar [.t K.gt] w us) : Phrase fineGrammar N.restrictedCompOperator w (Act.p1 us) :=
  fine_rule 41 _ _ rfl rfl h

theorem fine_restrictedCompOperator3 {w : List (Tok Val)} {us : List Val} (h : Derives fineGrammar [.t K.gte] w us) : Phrase fineGrammar N.restrictedCompOperator w (Act.p1 us) :=
  fine_rule 42 _ _ rfl rfl h

theorem fine_restrictedCompOperator4 {w : List (Tok Val)} {us : List Val} (h : Derives fineGrammar [.t K.lte] w us) : Phrase fineGrammar N.restrictedCompOperator w (Act.p1 us) :=
  fine_rule 43 _ _ rfl rfl h

theorem fine_restrictedCompOperator5 {w : List (Tok Val)} {us : List Val} (h : Derives fineGrammar [.t K.neq] w us) : Phrase fineGrammar N.restrictedCompOperator w (Act.p1 us) :=
  fine_rule 44 _ _ rfl rfl h

theorem fine_restrictedCompOperator6 {w : List (Tok Val)} {us : List Val} (h : Derives fineGrammar [.t K.isEqual] w us) : Phrase fineGrammar N.restrictedCompOperator w (Act.p1 us) :=
  fine_rule 45 _ _ rfl rfl h

theorem fine_aExpr1 {w : List (Tok Val)} {us : List Val} (h : Derives fineGrammar [.n N.mExpr] w us) : Phrase fineGrammar N.aExpr w (Act.p1 us) :=
  fine_rule 46 _ _ rfl rfl h

theorem fine_aExpr2 {w : List (Tok Val)} {us : List Val} (h : Derives fineGrammar [.n N.aExpr, .t K.plus, .n N.mExpr] w us) : Phrase fineGrammar N.aExpr w (Act.binary .add us) :=
  fine_rule 47 _ _ rfl rfl h

theorem fine_aExpr3 {w : List (Tok Val)} {us : List Val} (h : Derives fineGrammar [.n N.aExpr, .t K.minus, .n N.mExpr] w us) : Phrase fineGrammar N.aExpr w (Act.binary .sub us) :=
  fine_rule 48 _ _ rfl rfl h

theorem fine_mExpr1 {w : List (Tok Val)} {us : List Val} (h : Derives fineGrammar [.n N.uExpr] w us) : Phrase fineGrammar N.mExpr w (Act.p1 us) :=
  fine_rule 49 _ _ rfl rfl h

theorem fine_mExpr2 {w : List (Tok Val)} {us : List Val} (h : Derives fineGrammar [.n N.mExpr, .t K.star, .n N.uExpr] w us) : Phrase fineGrammar N.mExpr w (Act.binary .mul us) :=
  fine_rule 50 _ _ rfl rfl h

theorem fine_mExpr3 {w : List (Tok Val)} {us : List Val} (h : Derives fineGrammar [.n N.mExpr, .t K.slash, .n N.uExpr] w us) : Phrase fineGrammar N.mExpr w (Act.binary .div us) :=
  fine_rule 51 _ _ rfl rfl h

theorem fine_mExpr4 {w : List (Tok Val)} {us : List Val} (h : Derives fineGrammar [.n N.mExpr, .t K.caret, .n N.uExpr] w us) : Phrase fineGrammar N.mExpr w (Act.binary .cross us) :=
  fine_rule 52 _ _ rfl rfl h

theorem fine_mExpr5 {w : List (Tok Val)} {us : List Val} (h : Derives fineGrammar [.n N.mExpr, .t K.amp, .n N.uExpr] w us) : Phrase fineGrammar N.mExpr w (Act.binary .amp us) :=
  fine_rule 53 _ _ rfl rfl h

theorem fine_mExpr6 {w : List (Tok Val)} {us : List Val} (h : Derives fineGrammar [.n N.mExpr, .t K.bar, .n N.uExpr] w us) : Phrase fineGrammar N.mExpr w (Act.binary .bar us) :=
  fine_rule 54 _ _ rfl rfl h

theorem fine_uExpr1 {w : List (Tok Val)} {us : List Val} (h : Derives fineGrammar [.n N.power] w us) : Phrase fineGrammar N.uExpr w (Act.p1 us) :=
  fine_rule 55 _ _ rfl rfl h

theorem fine_uExpr2 {w : List (Tok Val)} {us : List Val} (h : Derives fineGrammar [.t K.minus, .n N.uExpr] w us) : Phrase fineGrammar N.uExpr w (Act.sign true us) :=
  fine_rule 56 _ _ rfl rfl h

theorem fine_uExpr3 {w : List (Tok Val)} {us : List Val} (h : Derives fineGrammar [.t K.plus, .n N.uExpr] w us) : Phrase fineGrammar N.uExpr w (Act.sign false us) :=
  fine_rule 57 _ _ rfl rfl h

theorem fine_power1 {w : List (Tok Val)} {us : List Val} (h : Derives fineGrammar [.n N.primary] w us) : Phrase fineGrammar N.power w (Act.p1 us) :=
  fine_rule 58 _ _ rfl rfl h

theorem fine_power2 {w : List (Tok Val)} {us : List Val} (h : Derives fineGrammar [.n N.primary, .t K.power, .n N.uExpr] w us) : Phrase fineGrammar N.power w (Act.binary .pow us) :=
  fine_rule 59 _ _ rfl rfl h

theorem fine_primary1 {w : List (Tok Val)} {us : List Val} (h : Derives fineGrammar [.n N.atom] w us) : Phrase fineGrammar N.primary w (Act.p1 us) :=
  fine_rule 60 _ _ rfl rfl h

theorem fine_primary2 {w : List (Tok Val)} {us : List Val} (h : Derives fineGrammar [.n N.attributeref] w us) : Phrase fineGrammar N.primary w (Act.p1 us) :=
  fine_rule 61 _ _ rfl rfl h

theorem fine_primary3 {w : List (Tok Val)} {us : List Val} (h : Derives fineGrammar [.n N.subscription] w us) : Phrase fineGrammar N.primary w (Act.p1 us) :=
  fine_rule 62 _ _ rfl rfl h

theorem fine_primary4 {w : List (Tok Val)} {us : List Val} (h : Derives fineGrammar [.n N.slicing] w us) : Phrase fineGrammar N.primary w (Act.p1 us) :=
  fine_rule 63 _ _ rfl rfl h

theorem fine_primary5 {w : List (Tok Val)} {us : List Val} (h : Derives fineGrammar [.n N.call] w us) : Phrase fineGrammar N.primary w (Act.p1 us) :=
  fine_rule 64 _ _ rfl rfl h

theorem fine_atom1 {w : List (Tok Val)} {us : List Val} (h : Derives fineGrammar [.t K.id] w us) : Phrase fineGrammar N.atom w (Act.name us) :=
  fine_rule 65 _ _ rfl rfl h

theorem fine_atom2 {w : List (Tok Val)} {us : List Val} (h : Derives fineGrammar [.n N.itemTag] w us) : Phrase fineGrammar N.atom w (Act.p1 us) :=
  fine_rule 66 _ _ rfl rfl h

theorem fine_atom3 {w : List (Tok Val)} {us : List Val} (h : Derives fineGrammar [.n N.literal] w us) : Phrase fineGrammar N.atom w (Act.p1 us) :=
  fine_rule 67 _ _ rfl rfl h

theorem fine_atom4 {w : List (Tok Val)} {us : List Val} (h : Derives fineGrammar [.n N.enclosure] w us) : Phrase fineGrammar N.atom w (Act.p1 us) :=
  fine_rule 68 _ _ rfl rfl h

theorem fine_itemTag1 {w : List (Tok Val)} {us : List Val} (h : Derives fineGrammar [.t K.itemTag] w us) : Phrase fineGrammar N.itemTag w (Act.tag us) :=
  fine_rule 69 _ _ rfl rfl h

theorem fine_literal1 {w : List (Tok Val)} {us : List Val} (h : Derives fineGrammar [.n N.stringliteral] w us) : Phrase fineGrammar N.literal w (Act.lit us) :=
  fine_rule 70 _ _ rfl rfl h

theorem fine_literal2 {w : List (Tok Val)} {us : List Val} (h : Derives fineGrammar [.t K.integer] w us) : Phrase fineGrammar N.literal w (Act.lit us) :=
  fine_rule 71 _ _ rfl rfl h

theorem fine_literal3 {w : List (Tok Val)} {us : List Val} (h : Derives fineGrammar [.t K.hexint] w us) : Phrase fineGrammar N.literal w (Act.lit us) :=
  fine_rule 72 _ _ rfl rfl h

theorem fine_literal4 {w : List (Tok Val)} {us : List Val} (h : Derives fineGrammar [.t K.octint] w us) : Phrase fineGrammar N.literal w (Act.lit us) :=
  fine_rule 73 _ _ rfl rfl h

theorem fine_literal5 {w : List (Tok Val)} {us : List Val} (h : Derives fineGrammar [.t K.binint] w us) : Phrase fineGrammar N.literal w (Act.lit us) :=
  fine_rule 74 _ _ rfl rfl h

theorem fine_literal6 {w : List (Tok Val)} {us : List Val} (h : Derives fineGrammar [.t K.real] w us) : Phrase fineGrammar N.literal w (Act.lit us) :=
  fine_rule 75 _ _ rfl rfl h

theorem fine_literal7 {w : List (Tok Val)} {us : List Val} (h : Derives fineGrammar [.t K.imaginary] w us) : Phrase fineGrammar N.literal w (Act.lit us) :=
  fine_rule 76 _ _ rfl rfl h

theorem fine_stringliteral1 {w : List (Tok Val)} {us : List Val} (h : Derives fineGrammar [.t K.strPrefix, .t K.shortString] w us) : Phrase fineGrammar N.stringliteral w (Act.prefixed us) :=
  fine_rule 77 _ _ rfl rfl h

theorem fine_stringliteral2 {w : List (Tok Val)} {us : List Val} (h : Derives fineGrammar [.t K.strPrefix, .t K.longString] w us) : Phrase fineGrammar N.stringliteral w (Act.prefixed us) :=
  fine_rule 78 _ _ rfl rfl h

theorem fine_stringliteral3 {w : List (Tok Val)} {us : List Val} (h : Derives fineGrammar [.t K.shortString] w us) : Phrase fineGrammar N.stringliteral w (Act.p1 us) :=
  fine_rule 79 _ _ rfl rfl h

theorem fine_stringliteral4 {w : List (Tok Val)} {us : List Val} (h : Derives fineGrammar [.t K.longString] w us) : Phrase fineGrammar N.stringliteral w (Act.p1 us) :=
  fine_rule 80 _ _ rfl rfl h

theorem fine_enclosure1 {w : List (Tok Val)} {us : List Val} (h : Derives fineGrammar [.n N.parenthForm] w us) : Phrase fineGrammar N.enclosure w (Act.p1 us) :=
  fine_rule 81 _ _ rfl rfl h

theorem fine_enclosure2 {w : List (Tok Val)} {us : List Val} (h : Derives fineGrammar [.n N.stringConversion] w us) : Phrase fineGrammar N.enclosure w (Act.p1 us) :=
  fine_rule 82 _ _ rfl rfl h

theorem fine_enclosure3 {w : List (Tok Val)} {us : List Val} (h : Derives fineGrammar [.n N.listDisplay] w us) : Phrase fineGrammar N.enclosure w (Act.p1 us) :=
  fine_rule 83 _ _ rfl rfl h

theorem fine_enclosure4 {w : List (Tok Val)} {us : List Val} (h : Derives fineGrammar [.n N.tableDisplay] w us) : Phrase fineGrammar N.enclosure w (Act.p1 us) :=
  fine_rule 84 _ _ rfl rfl h

theorem fine_parenthForm1 {w : List (Tok Val)} {us : List Val} (h : Derives fineGrammar [.t K.openParen, .n N.testlistStarExpr, .t K.closeParen] w us) : Phrase fineGrammar N.parenthForm w (Act.group us) :=
  fine_rule 85 _ _ rfl rfl h

theorem fine_parenthForm2 {w : List (Tok Val)} {us : List Val} (h : Derives fineGrammar [.t K.openParen, .t K.closeParen] w us) : Phrase fineGrammar N.parenthForm w (Act.groupNone us) :=
  fine_rule 86 _ _ rfl rfl h

theorem fine_stringConversion1 {w : List (Tok Val)} {us : List Val} (h : Derives fineGrammar [.t K.tick, .n N.testlistStarExpr, .t K.tick] w us) : Phrase fineGrammar N.stringConversion w (Act.convert us) :=
  fine_rule 87 _ _ rfl rfl h

theorem fine_listDisplay1 {w : List (Tok Val)} {us : List Val} (h : Derives fineGrammar [.t K.openSq, .n N.maybeNline, .n N.listmaker, .n N.maybeNline, .t K.closeSq] w us) : Phrase fineGrammar N.listDisplay w (Act.list us) :=
  fine_rule 88 _ _ rfl rfl h

theorem fine_listDisplay2 {w : List (Tok Val)} {us : List Val} (h : Derives fineGrammar [.t K.openSq, .n N.maybeNline, .t K.closeSq] w us) : Phrase fineGrammar N.listDisplay w (Act.listNone us) :=
  fine_rule 89 _ _ rfl rfl h

theorem fine_listmaker1 {w : List (Tok Val)} {us : List Val} (h : Derives fineGrammar [.n N.expression, .n M.listmaker2e] w us) : Phrase fineGrammar N.listmaker w (Act.cons us) :=
  fine_rule 90 _ _ rfl rfl h

theorem fine_listmaker2 {w : List (Tok Val)} {us : List Val} (h : Derives fineGrammar [.n N.expression, .n N.listmaker2] w us) : Phrase fineGrammar N.listmaker w (Act.cons us) :=
  fine_rule 91 _ _ rfl rfl h

theorem fine_listmaker21 {w : List (Tok Val)} {us : List Val} (h : Derives fineGrammar [.t K.comma, .n N.maybeNline, .n N.expression] w us) : Phrase fineGrammar N.listmaker2 w (Act.one3 us) :=
  fine_rule 92 _ _ rfl rfl h

theorem fine_listmaker22 {w : List (Tok Val)} {us : List Val} (h : Derives fineGrammar [.n N.listmaker2, .t K.comma, .n N.maybeNline, .n N.expression] w us) : Phrase fineGrammar N.listmaker2 w (Act.more14 us) :=
  fine_rule 93 _ _ rfl rfl h

theorem fine_listmaker2e1 {w : List (Tok Val)} {us : List Val} (h : Derives fineGrammar [] w us) : Phrase fineGrammar M.listmaker2e w (Act.nil us) :=
  fine_rule 94 _ _ rfl rfl h

theorem fine_tableDisplay1 {w : List (Tok Val)} {us : List Val} (h : Derives fineGrammar [.t K.openBrace, .n N.maybeNline, .n N.tablemaker, .n N.maybeNline, .t K.closeBrace] w us) : Phrase fineGrammar N.tableDisplay w (Act.table us) :=
  fine_rule 95 _ _ rfl rfl h

theorem fine_tableDisplay2 {w : List (Tok Val)} {us : List Val} (h : Derives fineGrammar [.t K.openBrace, .n N.maybeNline, .t K.closeBrace] w us) : Phrase fineGrammar N.tableDisplay w (Act.tableNone us) :=
  fine_rule 96 _ _ rfl rfl h

theorem fine_tablemaker1 {w : List (Tok Val)} {us : List Val} (h : Derives fineGrammar [.n N.stringliteral, .t K.colon, .n N.expression, .n M.tablemaker2e] w us) : Phrase fineGrammar N.tablemaker w (Act.tableCons us) :=
  fine_rule 97 _ _ rfl rfl h

theorem fine_tablemaker2 {w : List (Tok Val)} {us : List Val} (h : Derives fineGrammar [.n N.stringliteral, .t K.colon, .n N.expression, .n N.tablemaker2] w us) : Phrase fineGrammar N.tablemaker w (Act.tableCons us) :=
  fine_rule 98 _ _ rfl rfl h

theorem fine_tablemaker21 {w : List (Tok Val)} {us : List Val} (h : Derives fineGrammar [.t K.comma, .n N.maybeNline, .n N.stringliteral, .t K.colon, .n N.expression] w us) : Phrase fineGrammar N.tablemaker2 w (Act.entry us) :=
  fine_rule 99 _ _ rfl rfl h

theorem fine_tablemaker22 {w : List (Tok Val)} {us : List Val} (h : Derives fineGrammar [.n N.tablemaker2, .t K.comma, .n N.maybeNline, .n N.stringliteral, .t K.colon, .n N.expression] w us) : Phrase fineGrammar N.tablemaker2 w (Act.entryMore us) :=
  fine_rule 100 _ _ rfl rfl h

theorem fine_tablemaker2e1 {w : List (Tok Val)} {us : List Val} (h : Derives fineGrammar [] w us) : Phrase fineGrammar M.tablemaker2e w (Act.tableNil us) :=
  fine_rule 101 _ _ rfl rfl h

theorem fine_attributeref1 {w : List (Tok Val)} {us : List Val} (h : Derives fineGrammar [.n N.primary, .n N.attributeTag] w us) : Phrase fineGrammar N.attributeref w (Act.attr us) :=
  fine_rule 102 _ _ rfl rfl h

theorem fine_attributeTag1 {w : List (Tok Val)} {us : List Val} (h : Derives fineGrammar [.t K.dot, .t K.id] w us) : Phrase fineGrammar N.attributeTag w (Act.p2 us) :=
  fine_rule 103 _ _ rfl rfl h

theorem fine_attributeTag2 {w : List (Tok Val)} {us : List Val} (h : Derives fineGrammar [.t K.real] w us) : Phrase fineGrammar N.attributeTag w (Act.tail us) :=
  fine_rule 104 _ _ rfl rfl h

theorem fine_subscription1 {w : List (Tok Val)} {us : List Val} (h : Derives fineGrammar [.n N.primary, .t K.openSq, .n N.expression, .t K.closeSq] w us) : Phrase fineGrammar N.subscription w (Act.sub us) :=
  fine_rule 105 _ _ rfl rfl h

theorem fine_slicing1 {w : List (Tok Val)} {us : List Val} (h : Derives fineGrammar [.n N.primary, .t K.openSq, .n N.properSlice, .t K.closeSq] w us) : Phrase fineGrammar N.slicing w (Act.slice us) :=
  fine_rule 106 _ _ rfl rfl h

theorem fine_slicing2 {w : List (Tok Val)} {us : List Val} (h : Derives fineGrammar [.n N.primary, .t K.openSq, .n N.sliceList, .t K.closeSq] w us) : Phrase fineGrammar N.slicing w (Act.slices us) :=
  fine_rule 107 _ _ rfl rfl h

theorem fine_properSlice1 {w : List (Tok Val)} {us : List Val} (h : Derives fineGrammar [.n N.shortSlice] w us) : Phrase fineGrammar N.properSlice w (Act.p1 us) :=
  fine_rule 108 _ _ rfl rfl h

theorem fine_properSlice2 {w : List (Tok Val)} {us : List Val} (h : Derives fineGrammar [.n N.longSlice] w us) : Phrase fineGrammar N.properSlice w (Act.p1 us) :=
  fine_rule 109 _ _ rfl rfl h

theorem fine_shortSlice1 {w : List (Tok Val)} {us : List Val} (h : Derives fineGrammar [.t K.colon] w us) : Phrase fineGrammar N.shortSlice w (Act.sliceAll us) :=
  fine_rule 110 _ _ rfl rfl h

theorem fine_shortSlice2 {w : List (Tok Val)} {us : List Val} (h : Derives fineGrammar [.n N.expression, .t K.colon, .n N.expression] w us) : Phrase fineGrammar N.shortSlice w (Act.sliceBoth us) :=
  fine_rule 111 _ _ rfl rfl h

theorem fine_shortSlice3 {w : List (Tok Val)} {us : List Val} (h : Derives fineGrammar [.t K.colon, .n N.expression] w us) : Phrase fineGrammar N.shortSlice w (Act.sliceTo us) :=
  fine_rule 112 _ _ rfl rfl h

theorem fine_shortSlice4 {w : List (Tok Val)} {us : List Val} (h : Derives fineGrammar [.n N.expression, .t K.colon] w us) : Phrase fineGrammar N.shortSlice w (Act.sliceFrom us) :=
  fine_rule 113 _ _ rfl rfl h

theorem fine_longSlice1 {w : List (Tok Val)} {us : List Val} (h : Derives fineGrammar [.n N.shortSlice, .t K.colon, .n N.expression] w us) : Phrase fineGrammar N.longSlice w (Act.sliceStep us) :=
  fine_rule 114 _ _ rfl rfl h

theorem fine_sliceList11 {w : List (Tok Val)} {us : List Val} (h : Derives fineGrammar [.n N.sliceItem] w us) : Phrase fineGrammar M.sliceList1 w (Act.slotOne us) :=
  fine_rule 115 _ _ rfl rfl h

theorem fine_sliceList1 {w : List (Tok Val)} {us : List Val} (h : Derives fineGrammar [.n M.sliceList1, .t K.comma, .n N.sliceItem] w us) : Phrase fineGrammar N.sliceList w (Act.slotMore us) :=
  fine_rule 116 _ _ rfl rfl h

theorem fine_sliceList2 {w : List (Tok Val)} {us : List Val} (h : Derives fineGrammar [.n N.sliceList, .t K.comma, .n N.sliceItem] w us) : Phrase fineGrammar N.sliceList w (Act.slotMore us) :=
  fine_rule 117 _ _ rfl rfl h

theorem fine_sliceItem1 {w : List (Tok Val)} {us : List Val} (h : Derives fineGrammar [.n N.expression] w us) : Phrase fineGrammar N.sliceItem w (Act.p1 us) :=
  fine_rule 118 _ _ rfl rfl h

theorem fine_sliceItem2 {w : List (Tok Val)} {us : List Val} (h : Derives fineGrammar [.n N.properSlice] w us) : Phrase fineGrammar N.sliceItem w (Act.p1 us) :=
  fine_rule 119 _ _ rfl rfl h

theorem fine_call1 {w : List (Tok Val)} {us : List Val} (h : Derives fineGrammar [.t K.id, .t K.openParen, .t K.closeParen] w us) : Phrase fineGrammar N.call w (Act.callNone us) :=
  fine_rule 120 _ _ rfl rfl h

theorem fine_call2 {w : List (Tok Val)} {us : List Val} (h : Derives fineGrammar [.t K.id, .t K.openParen, .n N.argumentList, .t K.closeParen] w us) : Phrase fineGrammar N.call w (Act.call us) :=
  fine_rule 121 _ _ rfl rfl h

theorem fine_argumentList1 {w : List (Tok Val)} {us : List Val} (h : Derives fineGrammar [.n N.funcArg] w us) : Phrase fineGrammar N.argumentList w (Act.one us) :=
  fine_rule 122 _ _ rfl rfl h

theorem fine_argumentList2 {w : List (Tok Val)} {us : List Val} (h : Derives fineGrammar [.n N.argumentList, .t K.comma, .n N.funcArg] w us) : Phrase fineGrammar N.argumentList w (Act.more13 us) :=
  fine_rule 123 _ _ rfl rfl h

theorem fine_funcArg1 {w : List (Tok Val)} {us : List Val} (h : Derives fineGrammar [.n N.expression] w us) : Phrase fineGrammar N.funcArg w (Act.p1 us) :=
  fine_rule 124 _ _ rfl rfl h

theorem fine_fancyDrelAssignmentStmt1 {w : List (Tok Val)} {us : List Val} (h : Derives fineGrammar [.t K.id, .t K.openParen, .n N.dotlist, .t K.closeParen] w us) : Phrase fineGrammar N.fancyDrelAssignmentStmt w (Act.fancy us) :=
  fine_rule 125 _ _ rfl rfl h

theorem fine_dotlist1 {w : List (Tok Val)} {us : List Val} (h : Derives fineGrammar [.t K.dot, .t K.id, .t K.assign, .n N.expression] w us) : Phrase fineGrammar N.dotlist w (Act.dot us) :=
  fine_rule 126 _ _ rfl rfl h

theorem fine_dotlist2 {w : List (Tok Val)} {us : List Val} (h : Derives fineGrammar [.n N.dotlist, .t K.comma, .t K.dot, .t K.id, .t K.assign, .n N.expression] w us) : Phrase fineGrammar N.dotlist w (Act.dotMore us) :=
  fine_rule 127 _ _ rfl rfl h

theorem fine_idList1 {w : List (Tok Val)} {us : List Val} (h : Derives fineGrammar [.t K.id] w us) : Phrase fineGrammar N.idList w (Act.id us) :=
  fine_rule 128 _ _ rfl rfl h

theorem fine_idList2 {w : List (Tok Val)} {us : List Val} (h : Derives fineGrammar [.n N.idList, .t K.comma, .t K.id] w us) : Phrase fineGrammar N.idList w (Act.idMore us) :=
  fine_rule 129 _ _ rfl rfl h

theorem fine_compoundStmt1 {w : List (Tok Val)} {us : List Val} (h : Derives fineGrammar [.n N.ifStmt] w us) : Phrase fineGrammar N.compoundStmt w (Act.compound us) :=
  fine_rule 130 _ _ rfl rfl h

theorem fine_compoundStmt2 {w : List (Tok Val)} {us : List Val} (h : Derives fineGrammar [.n N.ifElseStmt] w us) : Phrase fineGrammar N.compoundStmt w (Act.compound us) :=
  fine_rule 131 _ _ rfl rfl h

theorem fine_compoundN1 {w : List (Tok Val)} {us : List Val} (h : Derives fineGrammar [.n N.ifElseStmt] w us) : Phrase fineGrammar M.compoundN w (Act.compound us) :=
  fine_rule 132 _ _ rfl rfl h

theorem fine_compoundStmt3 {w : List (Tok Val)} {us : List Val} (h : Derives fineGrammar [.n N.forStmt] w us) : Phrase fineGrammar N.compoundStmt w (Act.compound us) :=
  fine_rule 133 _ _ rfl rfl h

theorem fine_compoundN2 {w : List (Tok Val)} {us : List Val} (h : Derives fineGrammar [.n N.forStmt] w us) : Phrase fineGrammar M.compoundN w (Act.compound us) :=
  fine_rule 134 _ _ rfl rfl h

theorem fine_compoundStmt4 {w : List (Tok Val)} {us : List Val} (h : Derives fineGrammar [.n N.doStmt] w us) : Phrase fineGrammar N.compoundStmt w (Act.compound us) :=
  fine_rule 135 _ _ rfl rfl h

theorem fine_compoundN3 {w : List (Tok Val)} {us : List Val} (h : Derives fineGrammar [.n N.doStmt] w us) : Phrase fineGrammar M.compoundN w (Act.compound us) :=
  fine_rule 136 _ _ rfl rfl h

theorem fine_compoundStmt5 {w : List (Tok Val)} {us : List Val} (h : Derives fineGrammar [.n N.loopStmt] w us) : Phrase fineGrammar N.compoundStmt w (Act.compound us) :=
  fine_rule 137 _ _ rfl rfl h

theorem fine_compoundN4 {w : List (Tok Val)} {us : List Val} (h : Derives fineGrammar [.n N.loopStmt] w us) : Phrase fineGrammar M.compoundN w (Act.compound us) :=
  fine_rule 138 _ _ rfl rfl h

theorem fine_compoundStmt6 {w : List (Tok Val)} {us : List Val} (h : Derives fineGrammar [.n N.withStmt] w us) : Phrase fineGrammar N.compoundStmt w (Act.compound us) :=
  fine_rule 139 _ _ rfl rfl h

theorem fine_compoundN5 {w : List (Tok Val)} {us : List Val} (h : Derives fineGrammar [.n N.withStmt] w us) : Phrase fineGrammar M.compoundN w (Act.compound us) :=
  fine_rule 140 _ _ rfl rfl h

theorem fine_compoundStmt7 {w : List (Tok Val)} {us : List Val} (h : Derives fineGrammar [.n N.repeatStmt] w us) : Phrase fineGrammar N.compoundStmt w (Act.compound us) :=
  fine_rule 141 _ _ rfl rfl h

theorem fine_compoundN6 {w : List (Tok Val)} {us : List Val} (h : Derives fineGrammar [.n N.repeatStmt] w us) : Phrase fineGrammar M.compoundN w (Act.compound us) :=
  fine_rule 142 _ _ rfl rfl h

theorem fine_compoundStmt8 {w : List (Tok Val)} {us : List Val} (h : Derives fineGrammar [.n N.funcdef] w us) : Phrase fineGrammar N.compoundStmt w (Act.compound us) :=
  fine_rule 143 _ _ rfl rfl h

theorem fine_compoundN7 {w : List (Tok Val)} {us : List Val} (h : Derives fineGrammar [.n N.funcdef] w us) : Phrase fineGrammar M.compoundN w (Act.compound us) :=
  fine_rule 144 _ _ rfl rfl h

theorem fine_ifElseStmt1 {w : List (Tok Val)} {us : List Val} (h : Derives fineGrammar [.n N.ifStmt, .t K.else_, .n M.suiteN] w us) : Phrase fineGrammar N.ifElseStmt w (Act.else_ us) :=
  fine_rule 145 _ _ rfl rfl h

theorem fine_ifStmt1 {w : List (Tok Val)} {us : List Val} (h : Derives fineGrammar [.t K.if_, .t K.openParen, .n N.expression, .t K.closeParen, .n N.maybeNline, .n M.suiteN] w us) : Phrase fineGrammar N.ifStmt w (Act.if_ us) :=
  fine_rule 146 _ _ rfl rfl h

theorem fine_ifStmt2 {w : List (Tok Val)} {us : List Val} (h : Derives fineGrammar [.n N.ifStmt, .t K.elseif, .t K.openParen, .n N.expression, .t K.closeParen, .n N.maybeNline, .n M.suiteN] w us) : Phrase fineGrammar N.ifStmt w (Act.elseif us) :=
  fine_rule 147 _ _ rfl rfl h

theorem fine_suiteN1 {w : List (Tok Val)} {us : List Val} (h : Derives fineGrammar [.n M.statementN] w us) : Phrase fineGrammar M.suiteN w (Act.p1 us) :=
  fine_rule 148 _ _ rfl rfl h

theorem fine_suiteK1 {w : List (Tok Val)} {us : List Val} (h : Derives fineGrammar [.n M.statementK] w us) : Phrase fineGrammar M.suiteK w (Act.p1 us) :=
  fine_rule 149 _ _ rfl rfl h

theorem fine_suiteN2 {w : List (Tok Val)} {us : List Val} (h : Derives fineGrammar [.t K.openBrace, .n N.maybeNline, .n N.statements, .t K.closeBrace, .n N.maybeNline] w us) : Phrase fineGrammar M.suiteN w (Act.p3 us) :=
  fine_rule 150 _ _ rfl rfl h

theorem fine_suiteK2 {w : List (Tok Val)} {us : List Val} (h : Derives fineGrammar [.t K.openBrace, .n N.maybeNline, .n N.statements, .t K.closeBrace, .n N.maybeNline] w us) : Phrase fineGrammar M.suiteK w (Act.p3 us) :=
  fine_rule 151 _ _ rfl rfl h

theorem fine_forStmt1 {w : List (Tok Val)} {us : List Val} (h : Derives fineGrammar [.t K.for_, .n N.idList, .t K.in_, .n N.testlistStarExpr, .n M.suiteK] w us) : Phrase fineGrammar N.forStmt w (Act.for_ 2 4 5 us) :=
  fine_rule 152 _ _ rfl rfl h

theorem fine_forStmt2 {w : List (Tok Val)} {us : List Val} (h : Derives fineGrammar [.t K.for_, .t K.openSq, .n N.idList, .t K.closeSq, .t K.in_, .n N.testlistStarExpr, .n M.suiteK] w us) : Phrase fineGrammar N.forStmt w (Act.for_ 3 6 7 us) :=
  fine_rule 153 _ _ rfl rfl h

theorem fine_loopStmt1 {w : List (Tok Val)} {us : List Val} (h : Derives fineGrammar [.n N.loopHead, .n M.suiteN] w us) : Phrase fineGrammar N.loopStmt w (Act.loop us) :=
  fine_rule 154 _ _ rfl rfl h

theorem fine_loopHead1 {w : List (Tok Val)} {us : List Val} (h : Derives fineGrammar [.t K.loop, .t K.id, .t K.as_, .t K.id] w us) : Phrase fineGrammar N.loopHead w (Act.loopHead us) :=
  fine_rule 155 _ _ rfl rfl h

theorem fine_loopHead2 {w : List (Tok Val)} {us : List Val} (h : Derives fineGrammar [.t K.loop, .t K.id, .t K.as_, .t K.id, .t K.colon, .t K.id] w us) : Phrase fineGrammar N.loopHead w (Act.loopIndex us) :=
  fine_rule 156 _ _ rfl rfl h

theorem fine_loopHead3 {w : List (Tok Val)} {us : List Val} (h : Derives fineGrammar [.t K.loop, .t K.id, .t K.as_, .t K.id, .t K.colon, .t K.id, .n N.restrictedCompOperator, .t K.id] w us) : Phrase fineGrammar N.loopHead w (Act.loopTest us) :=
  fine_rule 157 _ _ rfl rfl h

theorem fine_doStmt1 {w : List (Tok Val)} {us : List Val} (h : Derives fineGrammar [.n N.doStmtHead, .n M.suiteK] w us) : Phrase fineGrammar N.doStmt w (Act.do_ us) :=
  fine_rule 158 _ _ rfl rfl h

theorem fine_doStmtHead1 {w : List (Tok Val)} {us : List Val} (h : Derives fineGrammar [.t K.do_, .t K.id, .t K.assign, .n N.expression, .t K.comma, .n N.expression] w us) : Phrase fineGrammar N.doStmtHead w (Act.doHead us) :=
  fine_rule 159 _ _ rfl rfl h

theorem fine_doStmtHead2 {w : List (Tok Val)} {us : List Val} (h : Derives fineGrammar [.t K.do_, .t K.id, .t K.assign, .n N.expression, .t K.comma, .n N.expression, .t K.comma, .n N.expression] w us) : Phrase fineGrammar N.doStmtHead w (Act.doStep us) :=
  fine_rule 160 _ _ rfl rfl h

theorem fine_repeatStmt1 {w : List (Tok Val)} {us : List Val} (h : Derives fineGrammar [.t K.repeat_, .n M.suiteN] w us) : Phrase fineGrammar N.repeatStmt w (Act.rep us) :=
  fine_rule 161 _ _ rfl rfl h

theorem fine_withStmt1 {w : List (Tok Val)} {us : List Val} (h : Derives fineGrammar [.n N.withHead, .n N.maybeNline, .n M.suiteN] w us) : Phrase fineGrammar N.withStmt w (Act.with_ us) :=
  fine_rule 162 _ _ rfl rfl h

theorem fine_withHead1 {w : List (Tok Val)} {us : List Val} (h : Derives fineGrammar [.t K.with_, .t K.id, .t K.as_, .t K.id] w us) : Phrase fineGrammar N.withHead w (Act.withHead us) :=
  fine_rule 163 _ _ rfl rfl h

theorem fine_funcdef1 {w : List (Tok Val)} {us : List Val} (h : Derives fineGrammar [.t K.function, .t K.id, .t K.openParen, .n N.arglist, .t K.closeParen, .n M.suiteN] w us) : Phrase fineGrammar N.funcdef w (Act.func us) :=
  fine_rule 164 _ _ rfl rfl h

theorem fine_arglist1 {w : List (Tok Val)} {us : List Val} (h : Derives fineGrammar [.t K.id, .t K.colon, .n N.listDisplay] w us) : Phrase fineGrammar N.arglist w (Act.arg us) :=
  fine_rule 165 _ _ rfl rfl h

theorem fine_arglist2 {w : List (Tok Val)} {us : List Val} (h : Derives fineGrammar [.n N.arglist, .t K.comma, .t K.id, .t K.colon, .n N.listDisplay] w us) : Phrase fineGrammar N.arglist w (Act.argMore us) :=
  fine_rule 166 _ _ rfl rfl h

theorem fine_maybeNline1 {w : List (Tok Val)} {us : List Val} (h : Derives fineGrammar [.n N.newlines] w us) : Phrase fineGrammar N.maybeNline w (Act.none us) :=
  fine_rule 167 _ _ rfl rfl h

theorem fine_maybeNline2 {w : List (Tok Val)} {us : List Val} (h : Derives fineGrammar [.n N.empty] w us) : Phrase fineGrammar N.maybeNline w (Act.none us) :=
  fine_rule 168 _ _ rfl rfl h

theorem fine_newlines1 {w : List (Tok Val)} {us : List Val} (h : Derives fineGrammar [.t K.newline] w us) : Phrase fineGrammar N.newlines w (Act.none us) :=
  fine_rule 169 _ _ rfl rfl h

theorem fine_newlines2 {w : List (Tok Val)} {us : List Val} (h : Derives fineGrammar [.n N.newlines, .t K.newline] w us) : Phrase fineGrammar N.newlines w (Act.none us) :=
  fine_rule 170 _ _ rfl rfl h

theorem fine_empty1 {w : List (Tok Val)} {us : List Val} (h : Derives fineGrammar [] w us) : Phrase fineGrammar N.empty w (Act.none us) :=
  fine_rule 171 _ _ rfl rfl h

end Drel
end Verif
