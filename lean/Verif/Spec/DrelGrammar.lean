import Verif.Model.DrelGrammar
import Verif.Lemmas.LR
/-! # Specification: the grammar of dREL without ambiguities

The grammar of the code is ambiguous. Here the nonterminals concerned are split so that each text has one reading:
- the bodies of `else`, `elseif`, loops and functions, and those of an `if`, are not a plain `if` (so that an `else` belongs to the nearest `if` and is written after a
  body in braces),
- the bodies of `for` and `do` are in braces or begin with a keyword, because an expression is continued by what follows it,
- lists and tables with one entry, and lists of slices with one entry, have one derivation only. -/
namespace Verif
namespace Drel
open LR

/-! ## Nonterminals that are split -/
namespace M
/-- A `suite` that is not a plain `if` without `else`. -/
abbrev suiteN : Nat := 69
/-- A `statement` that is not a plain `if`. -/
abbrev statementN : Nat := 70
/-- A `compound_stmt` that is not a plain `if`. -/
abbrev compoundN : Nat := 71
/-- A `suite` that is in braces or a compound statement other than a plain `if`. -/
abbrev suiteK : Nat := 72
/-- A compound `statement` that is not a plain `if`. -/
abbrev statementK : Nat := 73
/-- `slice_list` with a single entry. -/
abbrev sliceList1 : Nat := 74
/-- `tablemaker2` when it is empty. -/
abbrev tablemaker2e : Nat := 75
/-- `listmaker2` when it is empty. -/
abbrev listmaker2e : Nat := 76
end M

/-- The productions; the last number is the place of the production of the code in `grammar`. -/
def fine : List Fine := [
  ⟨N.input, [.n N.maybeNline, .n N.statement], 1⟩,
  ⟨N.input, [.n N.input, .n N.statement], 2⟩,
  ⟨N.statement, [.n N.simpleStmt, .n N.newlines], 3⟩,
  ⟨M.statementN, [.n N.simpleStmt, .n N.newlines], 3⟩,
  ⟨N.statement, [.n N.simpleStmt, .t K.semi, .n N.newlines], 4⟩,
  ⟨M.statementN, [.n N.simpleStmt, .t K.semi, .n N.newlines], 4⟩,
  ⟨N.statement, [.n N.compoundStmt], 5⟩,
  ⟨M.statementN, [.n M.compoundN], 5⟩,
  ⟨M.statementK, [.n M.compoundN], 5⟩,
  ⟨N.simpleStmt, [.n N.smallStmt], 6⟩,
  ⟨N.simpleStmt, [.n N.simpleStmt, .t K.semi, .n N.smallStmt], 7⟩,
  ⟨N.statements, [.n N.statement], 8⟩,
  ⟨N.statements, [.n N.statements, .n N.statement], 9⟩,
  ⟨N.smallStmt, [.n N.exprStmt], 10⟩,
  ⟨N.smallStmt, [.n N.printStmt], 11⟩,
  ⟨N.smallStmt, [.n N.breakStmt], 12⟩,
  ⟨N.smallStmt, [.n N.nextStmt], 13⟩,
  ⟨N.breakStmt, [.t K.brk], 14⟩,
  ⟨N.nextStmt, [.t K.next], 15⟩,
  ⟨N.printStmt, [.t K.print, .n N.expression], 16⟩,
  ⟨N.exprStmt, [.n N.testlistStarExpr], 17⟩,
  ⟨N.exprStmt, [.n N.testlistStarExpr, .t K.augop, .n N.testlistStarExpr], 18⟩,
  ⟨N.exprStmt, [.n N.testlistStarExpr, .t K.assign, .n N.testlistStarExpr], 19⟩,
  ⟨N.exprStmt, [.n N.fancyDrelAssignmentStmt], 20⟩,
  ⟨N.testlistStarExpr, [.n N.expression], 21⟩,
  ⟨N.testlistStarExpr, [.n N.testlistStarExpr, .t K.comma, .n N.maybeNline, .n N.expression], 22⟩,
  ⟨N.expression, [.n N.orTest], 23⟩,
  ⟨N.orTest, [.n N.andTest], 24⟩,
  ⟨N.orTest, [.n N.orTest, .t K.or_, .n N.andTest], 25⟩,
  ⟨N.orTest, [.n N.orTest, .t K.badOr, .n N.andTest], 26⟩,
  ⟨N.andTest, [.n N.notTest], 27⟩,
  ⟨N.andTest, [.n N.andTest, .t K.and_, .n N.notTest], 28⟩,
  ⟨N.andTest, [.n N.andTest, .t K.badAnd, .n N.notTest], 29⟩,
  ⟨N.notTest, [.n N.comparison], 30⟩,
  ⟨N.notTest, [.t K.not_, .n N.notTest], 31⟩,
  ⟨N.comparison, [.n N.aExpr], 32⟩,
  ⟨N.comparison, [.n N.aExpr, .n N.compOperator, .n N.aExpr], 33⟩,
  ⟨N.compOperator, [.n N.restrictedCompOperator], 34⟩,
  ⟨N.compOperator, [.t K.in_], 35⟩,
  ⟨N.compOperator, [.t K.not_, .t K.in_], 36⟩,
  ⟨N.restrictedCompOperator, [.t K.lt], 37⟩,
  ⟨N.restrictedCompOperator, [.t K.gt], 38⟩,
  ⟨N.restrictedCompOperator, [.t K.gte], 39⟩,
  ⟨N.restrictedCompOperator, [.t K.lte], 40⟩,
  ⟨N.restrictedCompOperator, [.t K.neq], 41⟩,
  ⟨N.restrictedCompOperator, [.t K.isEqual], 42⟩,
  ⟨N.aExpr, [.n N.mExpr], 43⟩,
  ⟨N.aExpr, [.n N.aExpr, .t K.plus, .n N.mExpr], 44⟩,
  ⟨N.aExpr, [.n N.aExpr, .t K.minus, .n N.mExpr], 45⟩,
  ⟨N.mExpr, [.n N.uExpr], 46⟩,
  ⟨N.mExpr, [.n N.mExpr, .t K.star, .n N.uExpr], 47⟩,
  ⟨N.mExpr, [.n N.mExpr, .t K.slash, .n N.uExpr], 48⟩,
  ⟨N.mExpr, [.n N.mExpr, .t K.caret, .n N.uExpr], 49⟩,
  ⟨N.mExpr, [.n N.mExpr, .t K.amp, .n N.uExpr], 50⟩,
  ⟨N.mExpr, [.n N.mExpr, .t K.bar, .n N.uExpr], 51⟩,
  ⟨N.uExpr, [.n N.power], 52⟩,
  ⟨N.uExpr, [.t K.minus, .n N.uExpr], 53⟩,
  ⟨N.uExpr, [.t K.plus, .n N.uExpr], 54⟩,
  ⟨N.power, [.n N.primary], 55⟩,
  ⟨N.power, [.n N.primary, .t K.power, .n N.uExpr], 56⟩,
  ⟨N.primary, [.n N.atom], 57⟩,
  ⟨N.primary, [.n N.attributeref], 58⟩,
  ⟨N.primary, [.n N.subscription], 59⟩,
  ⟨N.primary, [.n N.slicing], 60⟩,
  ⟨N.primary, [.n N.call], 61⟩,
  ⟨N.atom, [.t K.id], 62⟩,
  ⟨N.atom, [.n N.itemTag], 63⟩,
  ⟨N.atom, [.n N.literal], 64⟩,
  ⟨N.atom, [.n N.enclosure], 65⟩,
  ⟨N.itemTag, [.t K.itemTag], 66⟩,
  ⟨N.literal, [.n N.stringliteral], 67⟩,
  ⟨N.literal, [.t K.integer], 68⟩,
  ⟨N.literal, [.t K.hexint], 69⟩,
  ⟨N.literal, [.t K.octint], 70⟩,
  ⟨N.literal, [.t K.binint], 71⟩,
  ⟨N.literal, [.t K.real], 72⟩,
  ⟨N.literal, [.t K.imaginary], 73⟩,
  ⟨N.stringliteral, [.t K.strPrefix, .t K.shortString], 74⟩,
  ⟨N.stringliteral, [.t K.strPrefix, .t K.longString], 75⟩,
  ⟨N.stringliteral, [.t K.shortString], 76⟩,
  ⟨N.stringliteral, [.t K.longString], 77⟩,
  ⟨N.enclosure, [.n N.parenthForm], 78⟩,
  ⟨N.enclosure, [.n N.stringConversion], 79⟩,
  ⟨N.enclosure, [.n N.listDisplay], 80⟩,
  ⟨N.enclosure, [.n N.tableDisplay], 81⟩,
  ⟨N.parenthForm, [.t K.openParen, .n N.testlistStarExpr, .t K.closeParen], 82⟩,
  ⟨N.parenthForm, [.t K.openParen, .t K.closeParen], 83⟩,
  ⟨N.stringConversion, [.t K.tick, .n N.testlistStarExpr, .t K.tick], 84⟩,
  ⟨N.listDisplay, [.t K.openSq, .n N.maybeNline, .n N.listmaker, .n N.maybeNline, .t K.closeSq], 85⟩,
  ⟨N.listDisplay, [.t K.openSq, .n N.maybeNline, .t K.closeSq], 86⟩,
  ⟨N.listmaker, [.n N.expression, .n M.listmaker2e], 87⟩,
  ⟨N.listmaker, [.n N.expression, .n N.listmaker2], 87⟩,
  ⟨N.listmaker2, [.t K.comma, .n N.maybeNline, .n N.expression], 88⟩,
  ⟨N.listmaker2, [.n N.listmaker2, .t K.comma, .n N.maybeNline, .n N.expression], 89⟩,
  ⟨M.listmaker2e, [], 90⟩,
  ⟨N.tableDisplay, [.t K.openBrace, .n N.maybeNline, .n N.tablemaker, .n N.maybeNline, .t K.closeBrace], 91⟩,
  ⟨N.tableDisplay, [.t K.openBrace, .n N.maybeNline, .t K.closeBrace], 92⟩,
  ⟨N.tablemaker, [.n N.stringliteral, .t K.colon, .n N.expression, .n M.tablemaker2e], 93⟩,
  ⟨N.tablemaker, [.n N.stringliteral, .t K.colon, .n N.expression, .n N.tablemaker2], 93⟩,
  ⟨N.tablemaker2, [.t K.comma, .n N.maybeNline, .n N.stringliteral, .t K.colon, .n N.expression], 94⟩,
  ⟨N.tablemaker2, [.n N.tablemaker2, .t K.comma, .n N.maybeNline, .n N.stringliteral, .t K.colon, .n N.expression], 95⟩,
  ⟨M.tablemaker2e, [], 96⟩,
  ⟨N.attributeref, [.n N.primary, .n N.attributeTag], 97⟩,
  ⟨N.attributeTag, [.t K.dot, .t K.id], 98⟩,
  ⟨N.attributeTag, [.t K.real], 99⟩,
  ⟨N.subscription, [.n N.primary, .t K.openSq, .n N.expression, .t K.closeSq], 100⟩,
  ⟨N.slicing, [.n N.primary, .t K.openSq, .n N.properSlice, .t K.closeSq], 101⟩,
  ⟨N.slicing, [.n N.primary, .t K.openSq, .n N.sliceList, .t K.closeSq], 102⟩,
  ⟨N.properSlice, [.n N.shortSlice], 103⟩,
  ⟨N.properSlice, [.n N.longSlice], 104⟩,
  ⟨N.shortSlice, [.t K.colon], 105⟩,
  ⟨N.shortSlice, [.n N.expression, .t K.colon, .n N.expression], 106⟩,
  ⟨N.shortSlice, [.t K.colon, .n N.expression], 107⟩,
  ⟨N.shortSlice, [.n N.expression, .t K.colon], 108⟩,
  ⟨N.longSlice, [.n N.shortSlice, .t K.colon, .n N.expression], 109⟩,
  ⟨M.sliceList1, [.n N.sliceItem], 110⟩,
  ⟨N.sliceList, [.n M.sliceList1, .t K.comma, .n N.sliceItem], 111⟩,
  ⟨N.sliceList, [.n N.sliceList, .t K.comma, .n N.sliceItem], 111⟩,
  ⟨N.sliceItem, [.n N.expression], 112⟩,
  ⟨N.sliceItem, [.n N.properSlice], 113⟩,
  ⟨N.call, [.t K.id, .t K.openParen, .t K.closeParen], 114⟩,
  ⟨N.call, [.t K.id, .t K.openParen, .n N.argumentList, .t K.closeParen], 115⟩,
  ⟨N.argumentList, [.n N.funcArg], 116⟩,
  ⟨N.argumentList, [.n N.argumentList, .t K.comma, .n N.funcArg], 117⟩,
  ⟨N.funcArg, [.n N.expression], 118⟩,
  ⟨N.fancyDrelAssignmentStmt, [.t K.id, .t K.openParen, .n N.dotlist, .t K.closeParen], 119⟩,
  ⟨N.dotlist, [.t K.dot, .t K.id, .t K.assign, .n N.expression], 120⟩,
  ⟨N.dotlist, [.n N.dotlist, .t K.comma, .t K.dot, .t K.id, .t K.assign, .n N.expression], 121⟩,
  ⟨N.idList, [.t K.id], 124⟩,
  ⟨N.idList, [.n N.idList, .t K.comma, .t K.id], 125⟩,
  ⟨N.compoundStmt, [.n N.ifStmt], 126⟩,
  ⟨N.compoundStmt, [.n N.ifElseStmt], 127⟩,
  ⟨M.compoundN, [.n N.ifElseStmt], 127⟩,
  ⟨N.compoundStmt, [.n N.forStmt], 128⟩,
  ⟨M.compoundN, [.n N.forStmt], 128⟩,
  ⟨N.compoundStmt, [.n N.doStmt], 129⟩,
  ⟨M.compoundN, [.n N.doStmt], 129⟩,
  ⟨N.compoundStmt, [.n N.loopStmt], 130⟩,
  ⟨M.compoundN, [.n N.loopStmt], 130⟩,
  ⟨N.compoundStmt, [.n N.withStmt], 131⟩,
  ⟨M.compoundN, [.n N.withStmt], 131⟩,
  ⟨N.compoundStmt, [.n N.repeatStmt], 132⟩,
  ⟨M.compoundN, [.n N.repeatStmt], 132⟩,
  ⟨N.compoundStmt, [.n N.funcdef], 133⟩,
  ⟨M.compoundN, [.n N.funcdef], 133⟩,
  ⟨N.ifElseStmt, [.n N.ifStmt, .t K.else_, .n M.suiteN], 134⟩,
  ⟨N.ifStmt, [.t K.if_, .t K.openParen, .n N.expression, .t K.closeParen, .n N.maybeNline, .n M.suiteN], 135⟩,
  ⟨N.ifStmt, [.n N.ifStmt, .t K.elseif, .t K.openParen, .n N.expression, .t K.closeParen, .n N.maybeNline, .n M.suiteN], 136⟩,
  ⟨M.suiteN, [.n M.statementN], 137⟩,
  ⟨M.suiteK, [.n M.statementK], 137⟩,
  ⟨M.suiteN, [.t K.openBrace, .n N.maybeNline, .n N.statements, .t K.closeBrace, .n N.maybeNline], 138⟩,
  ⟨M.suiteK, [.t K.openBrace, .n N.maybeNline, .n N.statements, .t K.closeBrace, .n N.maybeNline], 138⟩,
  ⟨N.forStmt, [.t K.for_, .n N.idList, .t K.in_, .n N.testlistStarExpr, .n M.suiteK], 139⟩,
  ⟨N.forStmt, [.t K.for_, .t K.openSq, .n N.idList, .t K.closeSq, .t K.in_, .n N.testlistStarExpr, .n M.suiteK], 140⟩,
  ⟨N.loopStmt, [.n N.loopHead, .n M.suiteN], 141⟩,
  ⟨N.loopHead, [.t K.loop, .t K.id, .t K.as_, .t K.id], 142⟩,
  ⟨N.loopHead, [.t K.loop, .t K.id, .t K.as_, .t K.id, .t K.colon, .t K.id], 143⟩,
  ⟨N.loopHead, [.t K.loop, .t K.id, .t K.as_, .t K.id, .t K.colon, .t K.id, .n N.restrictedCompOperator, .t K.id], 144⟩,
  ⟨N.doStmt, [.n N.doStmtHead, .n M.suiteK], 145⟩,
  ⟨N.doStmtHead, [.t K.do_, .t K.id, .t K.assign, .n N.expression, .t K.comma, .n N.expression], 146⟩,
  ⟨N.doStmtHead, [.t K.do_, .t K.id, .t K.assign, .n N.expression, .t K.comma, .n N.expression, .t K.comma, .n N.expression], 147⟩,
  ⟨N.repeatStmt, [.t K.repeat_, .n M.suiteN], 148⟩,
  ⟨N.withStmt, [.n N.withHead, .n N.maybeNline, .n M.suiteN], 149⟩,
  ⟨N.withHead, [.t K.with_, .t K.id, .t K.as_, .t K.id], 150⟩,
  ⟨N.funcdef, [.t K.function, .t K.id, .t K.openParen, .n N.arglist, .t K.closeParen, .n M.suiteN], 151⟩,
  ⟨N.arglist, [.t K.id, .t K.colon, .n N.listDisplay], 152⟩,
  ⟨N.arglist, [.n N.arglist, .t K.comma, .t K.id, .t K.colon, .n N.listDisplay], 153⟩,
  ⟨N.maybeNline, [.n N.newlines], 154⟩,
  ⟨N.maybeNline, [.n N.empty], 155⟩,
  ⟨N.newlines, [.t K.newline], 156⟩,
  ⟨N.newlines, [.n N.newlines, .t K.newline], 157⟩,
  ⟨N.empty, [], 158⟩]

/-- The nonterminal of the code for each nonterminal. -/
def img : List Nat := [0, 1, 2, 3, 4, 5, 6, 7, 8, 9, 10, 11, 12, 13, 14, 15, 16, 17, 18, 19, 20, 21, 22, 23, 24, 25, 26, 27, 28, 29, 30, 31, 32, 33, 34, 35, 36, 37, 38, 39, 40, 41, 42, 43, 44, 45, 46, 47, 48, 49, 50, 51, 52, 53, 54, 55, 56, 57, 58, 59, 60, 61, 62, 63, 64, 65, 66, 67, 68, 55, 2, 52, 55, 2, 43, 35, 32]

/-- The grammar with the values that the code computes. -/
def fineGrammar : List (Rule Val) := fine.map (Fine.rule grammar)

end Drel
end Verif
