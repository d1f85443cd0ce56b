import Verif.Spec.DrelGrammar
/-! # What is known in each state of the parser for dREL

Computed data that is checked in `Verif.Lemmas.DrelParser`: symbols on the stack, first symbols and items of each state. -/
namespace Verif
namespace Drel
open LR

/-- The symbols on top of the stack in each state, the last first. -/
def past : List (List Sym) := [
  [],
  [.n N.input],
  [.n N.maybeNline],
  [.n N.newlines],
  [.n N.empty],
  [.t K.newline],
  [.n N.statement, .n N.input],
  [.n N.simpleStmt],
  [.n N.compoundStmt],
  [.n N.smallStmt],
  [.n N.exprStmt],
  [.n N.printStmt],
  [.n N.breakStmt],
  [.n N.nextStmt],
  [.t K.brk],
  [.t K.next],
  [.t K.print],
  [.n N.testlistStarExpr],
  [.n N.fancyDrelAssignmentStmt],
  [.n N.expression],
  [.n N.orTest],
  [.n N.andTest],
  [.n N.notTest],
  [.n N.comparison],
  [.t K.not_],
  [.n N.aExpr],
  [.n N.mExpr],
  [.n N.uExpr],
  [.n N.power],
  [.t K.minus],
  [.t K.plus],
  [.n N.primary],
  [.n N.atom],
  [.n N.attributeref],
  [.n N.subscription],
  [.n N.slicing],
  [.n N.call],
  [.t K.id],
  [.n N.itemTag],
  [.n N.literal],
  [.n N.enclosure],
  [.t K.itemTag],
  [.n N.stringliteral],
  [.t K.integer],
  [.t K.hexint],
  [.t K.octint],
  [.t K.binint],
  [.t K.real],
  [.t K.imaginary],
  [.t K.strPrefix],
  [.t K.shortString],
  [.t K.longString],
  [.n N.parenthForm],
  [.n N.stringConversion],
  [.n N.listDisplay],
  [.n N.tableDisplay],
  [.t K.openParen],
  [.t K.tick],
  [.t K.openSq],
  [.t K.openBrace],
  [.n N.ifStmt],
  [.n N.ifElseStmt],
  [.n N.forStmt],
  [.n N.doStmt],
  [.n N.loopStmt],
  [.n N.withStmt],
  [.n N.repeatStmt],
  [.n N.funcdef],
  [.t K.if_],
  [.t K.for_],
  [.n N.loopHead],
  [.t K.loop],
  [.n N.doStmtHead],
  [.t K.do_],
  [.t K.repeat_],
  [.n N.withHead],
  [.t K.with_],
  [.t K.function],
  [.n N.statement, .n N.maybeNline],
  [.t K.newline, .n N.newlines],
  [.n N.newlines, .n N.simpleStmt],
  [.t K.semi, .n N.simpleStmt],
  [.n N.expression, .t K.print],
  [.t K.id],
  [.t K.augop, .n N.testlistStarExpr],
  [.t K.assign, .n N.testlistStarExpr],
  [.t K.comma, .n N.testlistStarExpr],
  [.t K.or_, .n N.orTest],
  [.t K.badOr, .n N.orTest],
  [.t K.and_, .n N.andTest],
  [.t K.badAnd, .n N.andTest],
  [.n N.notTest, .t K.not_],
  [.n N.compOperator, .n N.aExpr],
  [.n N.restrictedCompOperator],
  [.t K.in_],
  [.t K.not_],
  [.t K.lt],
  [.t K.gt],
  [.t K.gte],
  [.t K.lte],
  [.t K.neq],
  [.t K.isEqual],
  [.t K.plus, .n N.aExpr],
  [.t K.minus, .n N.aExpr],
  [.t K.star, .n N.mExpr],
  [.t K.slash, .n N.mExpr],
  [.t K.caret, .n N.mExpr],
  [.t K.amp, .n N.mExpr],
  [.t K.bar, .n N.mExpr],
  [.n N.uExpr, .t K.minus],
  [.n N.uExpr, .t K.plus],
  [.t K.power, .n N.primary],
  [.n N.attributeTag, .n N.primary],
  [.t K.dot],
  [.t K.real],
  [.t K.openSq, .n N.primary],
  [.t K.openParen, .t K.id],
  [.t K.shortString, .t K.strPrefix],
  [.t K.longString, .t K.strPrefix],
  [.n N.testlistStarExpr, .t K.openParen],
  [.t K.closeParen, .t K.openParen],
  [.n N.testlistStarExpr, .t K.tick],
  [.n N.maybeNline, .t K.openSq],
  [.n N.maybeNline, .t K.openBrace],
  [.t K.else_, .n N.ifStmt],
  [.t K.elseif, .n N.ifStmt],
  [.t K.openParen, .t K.if_],
  [.t K.id],
  [.n N.idList, .t K.for_],
  [.t K.openSq, .t K.for_],
  [.t K.openBrace],
  [.n N.statement],
  [.n N.suite, .n N.loopHead],
  [.t K.id, .t K.loop],
  [.n N.suite, .n N.doStmtHead],
  [.t K.id, .t K.do_],
  [.n N.suite, .t K.repeat_],
  [.n N.maybeNline, .n N.withHead],
  [.t K.id, .t K.with_],
  [.t K.id, .t K.function],
  [.n N.newlines, .t K.semi, .n N.simpleStmt],
  [.n N.smallStmt, .t K.semi, .n N.simpleStmt],
  [.t K.openParen, .t K.id],
  [.n N.testlistStarExpr, .t K.augop, .n N.testlistStarExpr],
  [.n N.testlistStarExpr, .t K.assign, .n N.testlistStarExpr],
  [.n N.maybeNline, .t K.comma, .n N.testlistStarExpr],
  [.n N.andTest, .t K.or_, .n N.orTest],
  [.n N.andTest, .t K.badOr, .n N.orTest],
  [.n N.notTest, .t K.and_, .n N.andTest],
  [.n N.notTest, .t K.badAnd, .n N.andTest],
  [.n N.aExpr, .n N.compOperator, .n N.aExpr],
  [.t K.in_, .t K.not_],
  [.n N.mExpr, .t K.plus, .n N.aExpr],
  [.n N.mExpr, .t K.minus, .n N.aExpr],
  [.n N.uExpr, .t K.star, .n N.mExpr],
  [.n N.uExpr, .t K.slash, .n N.mExpr],
  [.n N.uExpr, .t K.caret, .n N.mExpr],
  [.n N.uExpr, .t K.amp, .n N.mExpr],
  [.n N.uExpr, .t K.bar, .n N.mExpr],
  [.n N.uExpr, .t K.power, .n N.primary],
  [.t K.id, .t K.dot],
  [.n N.expression, .t K.openSq, .n N.primary],
  [.n N.properSlice, .t K.openSq, .n N.primary],
  [.n N.sliceList, .t K.openSq, .n N.primary],
  [.n N.shortSlice],
  [.n N.longSlice],
  [.t K.colon],
  [.n N.sliceItem],
  [.t K.closeParen, .t K.openParen, .t K.id],
  [.n N.argumentList, .t K.openParen, .t K.id],
  [.n N.funcArg],
  [.n N.expression],
  [.n N.dotlist, .t K.openParen, .t K.id],
  [.t K.dot],
  [.t K.closeParen, .n N.testlistStarExpr, .t K.openParen],
  [.t K.tick, .n N.testlistStarExpr, .t K.tick],
  [.n N.listmaker, .n N.maybeNline, .t K.openSq],
  [.t K.closeSq, .n N.maybeNline, .t K.openSq],
  [.n N.expression],
  [.n N.tablemaker, .n N.maybeNline, .t K.openBrace],
  [.t K.closeBrace, .n N.maybeNline, .t K.openBrace],
  [.n N.stringliteral],
  [.n N.suite, .t K.else_, .n N.ifStmt],
  [.t K.openParen, .t K.elseif, .n N.ifStmt],
  [.n N.expression, .t K.openParen, .t K.if_],
  [.t K.comma, .n N.idList],
  [.t K.in_, .n N.idList, .t K.for_],
  [.n N.idList, .t K.openSq, .t K.for_],
  [.n N.maybeNline, .t K.openBrace],
  [.t K.as_, .t K.id, .t K.loop],
  [.t K.assign, .t K.id, .t K.do_],
  [.n N.suite, .n N.maybeNline, .n N.withHead],
  [.t K.as_, .t K.id, .t K.with_],
  [.t K.openParen, .t K.id, .t K.function],
  [.n N.expression, .n N.maybeNline, .t K.comma, .n N.testlistStarExpr],
  [.t K.closeSq, .n N.expression, .t K.openSq, .n N.primary],
  [.t K.colon, .n N.expression],
  [.t K.closeSq, .n N.properSlice, .t K.openSq, .n N.primary],
  [.t K.closeSq, .n N.sliceList, .t K.openSq, .n N.primary],
  [.t K.comma, .n N.sliceList],
  [.t K.colon, .n N.shortSlice],
  [.n N.expression, .t K.colon],
  [.t K.closeParen, .n N.argumentList, .t K.openParen, .t K.id],
  [.t K.comma, .n N.argumentList],
  [.t K.closeParen, .n N.dotlist, .t K.openParen, .t K.id],
  [.t K.comma, .n N.dotlist],
  [.t K.id, .t K.dot],
  [.n N.maybeNline, .n N.listmaker, .n N.maybeNline, .t K.openSq],
  [.n N.listmaker2, .n N.expression],
  [.t K.comma],
  [.n N.maybeNline, .n N.tablemaker, .n N.maybeNline, .t K.openBrace],
  [.t K.colon, .n N.stringliteral],
  [.n N.expression, .t K.openParen, .t K.elseif, .n N.ifStmt],
  [.t K.closeParen, .n N.expression, .t K.openParen, .t K.if_],
  [.t K.id, .t K.comma, .n N.idList],
  [.n N.testlistStarExpr, .t K.in_, .n N.idList, .t K.for_],
  [.t K.closeSq, .n N.idList, .t K.openSq, .t K.for_],
  [.n N.statement],
  [.n N.statements, .n N.maybeNline, .t K.openBrace],
  [.n N.stringliteral],
  [.t K.id, .t K.as_, .t K.id, .t K.loop],
  [.n N.expression, .t K.assign, .t K.id, .t K.do_],
  [.t K.id, .t K.as_, .t K.id, .t K.with_],
  [.n N.arglist, .t K.openParen, .t K.id, .t K.function],
  [.t K.id],
  [.n N.expression, .t K.colon, .n N.expression],
  [.n N.expression],
  [.n N.sliceItem, .t K.comma, .n N.sliceList],
  [.n N.properSlice],
  [.n N.expression, .t K.colon, .n N.shortSlice],
  [.n N.funcArg, .t K.comma, .n N.argumentList],
  [.t K.dot, .t K.comma, .n N.dotlist],
  [.t K.assign, .t K.id, .t K.dot],
  [.t K.closeSq, .n N.maybeNline, .n N.listmaker, .n N.maybeNline, .t K.openSq],
  [.t K.comma, .n N.listmaker2],
  [.n N.maybeNline, .t K.comma],
  [.t K.closeBrace, .n N.maybeNline, .n N.tablemaker, .n N.maybeNline, .t K.openBrace],
  [.n N.expression, .t K.colon, .n N.stringliteral],
  [.t K.closeParen, .n N.expression, .t K.openParen, .t K.elseif, .n N.ifStmt],
  [.n N.maybeNline, .t K.closeParen, .n N.expression, .t K.openParen, .t K.if_],
  [.n N.suite, .n N.testlistStarExpr, .t K.in_, .n N.idList, .t K.for_],
  [.t K.in_, .t K.closeSq, .n N.idList, .t K.openSq, .t K.for_],
  [.n N.statement, .n N.statements],
  [.t K.closeBrace, .n N.statements, .n N.maybeNline, .t K.openBrace],
  [.t K.colon, .t K.id, .t K.as_, .t K.id, .t K.loop],
  [.t K.comma, .n N.expression, .t K.assign, .t K.id, .t K.do_],
  [.t K.closeParen, .n N.arglist, .t K.openParen, .t K.id, .t K.function],
  [.t K.comma, .n N.arglist],
  [.t K.colon, .t K.id],
  [.t K.id, .t K.dot, .t K.comma, .n N.dotlist],
  [.n N.expression, .t K.assign, .t K.id, .t K.dot],
  [.n N.maybeNline, .t K.comma, .n N.listmaker2],
  [.n N.expression, .n N.maybeNline, .t K.comma],
  [.n N.tablemaker2, .n N.expression, .t K.colon, .n N.stringliteral],
  [.t K.comma],
  [.n N.maybeNline, .t K.closeParen, .n N.expression, .t K.openParen, .t K.elseif, .n N.ifStmt],
  [.n N.suite, .n N.maybeNline, .t K.closeParen, .n N.expression, .t K.openParen, .t K.if_],
  [.n N.testlistStarExpr, .t K.in_, .t K.closeSq, .n N.idList, .t K.openSq, .t K.for_],
  [.n N.maybeNline, .t K.closeBrace, .n N.statements, .n N.maybeNline, .t K.openBrace],
  [.t K.id, .t K.colon, .t K.id, .t K.as_, .t K.id, .t K.loop],
  [.n N.expression, .t K.comma, .n N.expression, .t K.assign, .t K.id, .t K.do_],
  [.n N.suite, .t K.closeParen, .n N.arglist, .t K.openParen, .t K.id, .t K.function],
  [.t K.id, .t K.comma, .n N.arglist],
  [.n N.listDisplay, .t K.colon, .t K.id],
  [.t K.assign, .t K.id, .t K.dot, .t K.comma, .n N.dotlist],
  [.n N.expression, .n N.maybeNline, .t K.comma, .n N.listmaker2],
  [.t K.comma, .n N.tablemaker2],
  [.n N.maybeNline, .t K.comma],
  [.n N.suite, .n N.maybeNline, .t K.closeParen, .n N.expression, .t K.openParen, .t K.elseif, .n N.ifStmt],
  [.n N.suite, .n N.testlistStarExpr, .t K.in_, .t K.closeSq, .n N.idList, .t K.openSq, .t K.for_],
  [.n N.restrictedCompOperator, .t K.id, .t K.colon, .t K.id, .t K.as_, .t K.id, .t K.loop],
  [.t K.comma, .n N.expression, .t K.comma, .n N.expression, .t K.assign, .t K.id, .t K.do_],
  [.t K.colon, .t K.id, .t K.comma, .n N.arglist],
  [.n N.expression, .t K.assign, .t K.id, .t K.dot, .t K.comma, .n N.dotlist],
  [.n N.maybeNline, .t K.comma, .n N.tablemaker2],
  [.n N.stringliteral, .n N.maybeNline, .t K.comma],
  [.t K.id, .n N.restrictedCompOperator, .t K.id, .t K.colon, .t K.id, .t K.as_, .t K.id, .t K.loop],
  [.n N.expression, .t K.comma, .n N.expression, .t K.comma, .n N.expression, .t K.assign, .t K.id, .t K.do_],
  [.n N.listDisplay, .t K.colon, .t K.id, .t K.comma, .n N.arglist],
  [.n N.stringliteral, .n N.maybeNline, .t K.comma, .n N.tablemaker2],
  [.t K.colon, .n N.stringliteral, .n N.maybeNline, .t K.comma],
  [.t K.colon, .n N.stringliteral, .n N.maybeNline, .t K.comma, .n N.tablemaker2],
  [.n N.expression, .t K.colon, .n N.stringliteral, .n N.maybeNline, .t K.comma],
  [.n N.expression, .t K.colon, .n N.stringliteral, .n N.maybeNline, .t K.comma, .n N.tablemaker2]]

/-- The first symbols of each nonterminal. -/
def firsts : List Nat := [
  565789991690571804, 565789991690571804, 277559615538860060, 25288502153244, 277559615538860060, 25288502153244, 4, 8, 16, 25288502153216,
    25288502153216, 25288502153216, 25288502153216, 25288502153216, 25288502153216, 25288502149120, 1044480, 1032192, 25288502149120,
    25288502149120, 25288502149120, 25288499003392, 25288499003392, 25288499003392, 536870912, 548682072064, 481036337152, 24739011624960,
    549755813888, 2199023255552, 4398046511104, 25288502153216, 128, 17592186044416, 481036337152, 128, 25288499003392, 140754668224512,
    25288499003392, 25288499003392, 95657246330880, 95657246330880, 95657246330880, 95657246330880, 95657246330880, 268435456, 25288502153216,
    25288502153216, 268435456, 140737488355328, 0, 268435456, 277534327036706816, 562949953421312, 562949953421312, 0, 2251799813685248,
    4503599627370496, 4503599627370496, 18014398509481984, 18014398509481984, 36028797018963968, 72057594037927936, 72057594037927936,
    144115188075855872, 268435456, 288230376151711744, 288230376151711744, 0, 277559615538860060, 277559615538860060, 277534327036706816,
    277551919222751232, 277534327036706816, 95657246330880, 0, 0]

/-- The nonterminals that can be empty. -/
def nulls : Nat := 113705730470345676161024

/-- The items of each state, states 0 to 15. -/
def itemRows0 : List (List Nat) := [
  [1136884185247170805927, 1136884185247170805928, 1136884185247170805931, 1136884185247170809856, 1136884185247170809857,
    2317475805964582109353, 2317475805964582109354],
  [1136852661136389046431, 1136852661136389046432, 1136884185247170805915, 1136884185247170805916, 1136884185247170805917,
    1136884185247170809858, 1136884185247170809860, 1136884185247170809862, 1136884185247170809986, 1136884185247170809987,
    1136884185247170809989, 1136884185247170809991, 1136884185247170809993, 1136884185247170809995, 1136884185247170809997,
    1136884185247170809999, 1136884185247170810001, 1136884185247170810008, 1136884185247170810009, 1136884185247170810010,
    1136884185247170810014, 1136884185247170810017, 1136884185247170810018, 1136884185247170810020, 1136884185247170810113,
    1142648792770205044882, 1142648792770205044883, 1180591620717411311625, 1180591620717411311626, 1180591620717411311629,
    1180591620717411311630, 1180591620717411311631, 1180591620717411311632, 1180591620717411311633, 1180591620717411311634,
    1180591620717411311635, 1180591620717411311636, 1180591620717411311637, 1180591620717411311638, 1180591620717411311639,
    1180591620717411311741, 1180591620717412229144, 1180591620717412229145, 1180591620717412229146, 1180591620717415374875,
    1180591620717415374876, 1180591620717415374877, 1180591620717427957790, 1180591620717427957791, 1180591620717427957792,
    1180591620717427957793, 1180591620717427957794, 1180591620717427957795, 1180591620717427957796, 1180591620734591049774,
    1180591620734591049775, 1180591620734591049776, 1180591621267166994481, 1180591621267166994482, 1180591621267166994483,
    1180591621267166994484, 1180591621267166994485, 1180591621267166994486, 1180591621267166994487, 1180591621267166994488,
    1180591621267166994489, 1180591621267166994490, 1180591621267166994491, 1181186167336479891516, 1181186167336479891517,
    1181186167336479891518, 1181186167336479891519, 1181186167336479891520, 1181186167336479891521, 1181186167336479891522,
    1181186167336479891523, 1181186167336479891524, 1181186167336479891525, 1181186167336479891526, 1181186167336479891527,
    1181186167336479891528, 1181186167336479891529, 1181186167336479891530, 1181186167336479891531, 1181186167336479891532,
    1181186167336479891533, 1181186167336479891534, 1181186167336479891535, 1181186167336479891536, 1181186167336479891537,
    1181186167336479891538, 1181186167336479891539, 1181186167336479891540, 1181186167336479891541, 1181186167336479891542,
    1181186167336479891543, 1181186167336479891544, 1181186167336479891545, 1181186167336479891551, 1181186167336479891552,
    1181186167336479891558, 1181186167336479891561, 1181186167336479891562, 1181186167336479891563, 1181186167336479891576,
    1181186167336479891577, 2317475805964582109347],
  [1136852661136389046431, 1136852661136389046432, 1136884185247170805915, 1136884185247170805916, 1136884185247170805917,
    1136884185247170809858, 1136884185247170809860, 1136884185247170809862, 1136884185247170809986, 1136884185247170809987,
    1136884185247170809989, 1136884185247170809991, 1136884185247170809993, 1136884185247170809995, 1136884185247170809997,
    1136884185247170809999, 1136884185247170810001, 1136884185247170810008, 1136884185247170810009, 1136884185247170810010,
    1136884185247170810014, 1136884185247170810017, 1136884185247170810018, 1136884185247170810020, 1136884185247170810112,
    1142648792770205044882, 1142648792770205044883, 1180591620717411311625, 1180591620717411311626, 1180591620717411311629,
    1180591620717411311630, 1180591620717411311631, 1180591620717411311632, 1180591620717411311633, 1180591620717411311634,
    1180591620717411311635, 1180591620717411311636, 1180591620717411311637, 1180591620717411311638, 1180591620717411311639,
    1180591620717411311741, 1180591620717412229144, 1180591620717412229145, 1180591620717412229146, 1180591620717415374875,
    1180591620717415374876, 1180591620717415374877, 1180591620717427957790, 1180591620717427957791, 1180591620717427957792,
    1180591620717427957793, 1180591620717427957794, 1180591620717427957795, 1180591620717427957796, 1180591620734591049774,
    1180591620734591049775, 1180591620734591049776, 1180591621267166994481, 1180591621267166994482, 1180591621267166994483,
    1180591621267166994484, 1180591621267166994485, 1180591621267166994486, 1180591621267166994487, 1180591621267166994488,
    1180591621267166994489, 1180591621267166994490, 1180591621267166994491, 1181186167336479891516, 1181186167336479891517,
    1181186167336479891518, 1181186167336479891519, 1181186167336479891520, 1181186167336479891521, 1181186167336479891522,
    1181186167336479891523, 1181186167336479891524, 1181186167336479891525, 1181186167336479891526, 1181186167336479891527,
    1181186167336479891528, 1181186167336479891529, 1181186167336479891530, 1181186167336479891531, 1181186167336479891532,
    1181186167336479891533, 1181186167336479891534, 1181186167336479891535, 1181186167336479891536, 1181186167336479891537,
    1181186167336479891538, 1181186167336479891539, 1181186167336479891540, 1181186167336479891541, 1181186167336479891542,
    1181186167336479891543, 1181186167336479891544, 1181186167336479891545, 1181186167336479891551, 1181186167336479891552,
    1181186167336479891558, 1181186167336479891561, 1181186167336479891562, 1181186167336479891563, 1181186167336479891576,
    1181186167336479891577, 2317475805964582109347],
  [1142828936755299864999, 2323420557472711168426],
  [1142828936755299865000],
  [2323420557472711168425],
  [1136884185247170810369],
  [1137028300435246665986, 1137028300435246665988, 1142792907958280900867, 1142792907958280900869, 1180591620717411311882,
    2323384528675692204201, 2323384528675692204202],
  [1137028300435246665990, 1142792907958280900871, 1142792907958280900872],
  [1180591620717411311881],
  [1180591620717411311885],
  [1180591620717411311886],
  [1180591620717411311887],
  [1180591620717411311888],
  [1180591620717411311889],
  [1180591620717411311890]]

/-- The items of each state, states 16 to 31. -/
def itemRows1 : List (List Nat) := [
  [1180591620717411311642, 1180591620717411311891, 1180591620717414457371, 1180591620717414457372, 1180591620717414457373,
    1180591620717427040286, 1180591620717427040287, 1180591620717427040288, 1180591620717427040289, 1180591620717427040290,
    1180591620717427040291, 1180591620717427040292, 1180591620734590132270, 1180591620734590132271, 1180591620734590132272,
    1180591621267166076977, 1180591621267166076978, 1180591621267166076979, 1180591621267166076980, 1180591621267166076981,
    1180591621267166076982, 1180591621267166076983, 1180591621267166076984, 1180591621267166076985, 1180591621267166076986,
    1180591621267166076987, 1181186167336478974012, 1181186167336478974013, 1181186167336478974014, 1181186167336478974015,
    1181186167336478974016, 1181186167336478974017, 1181186167336478974018, 1181186167336478974019, 1181186167336478974020,
    1181186167336478974021, 1181186167336478974022, 1181186167336478974023, 1181186167336478974024, 1181186167336478974025,
    1181186167336478974026, 1181186167336478974027, 1181186167336478974028, 1181186167336478974029, 1181186167336478974030,
    1181186167336478974031, 1181186167336478974032, 1181186167336478974033, 1181186167336478974034, 1181186167336478974035,
    1181186167336478974036, 1181186167336478974037, 1181186167336478974038, 1181186167336478974039, 1181186167336478974040,
    1181186167336478974041, 1181186167336478974047, 1181186167336478974048, 1181186167336478974054, 1181186167336478974057,
    1181186167336478974058, 1181186167336478974059, 1181186167336478974072, 1181186167336478974073],
  [1180591620717411311892, 1180591620717411311893, 1180591620717411311894, 1180591620717412229401],
  [1180591620717411311895],
  [2317457792652683387160],
  [2317926167013929918746, 2317926167013933064476, 2317926167013933064477],
  [2317926167013933064475, 2317926167013945647391, 2317926167013945647392],
  [2317926167013945647390],
  [2317926167013945647393],
  [2317926167013945647137, 2317926167013945647138, 2317926167013945647139, 2317926167013945647140, 2317926167013945647394,
    2317926167031108739118, 2317926167031108739119, 2317926167031108739120, 2317926167563684683825, 2317926167563684683826,
    2317926167563684683827, 2317926167563684683828, 2317926167563684683829, 2317926167563684683830, 2317926167563684683831,
    2317926167563684683832, 2317926167563684683833, 2317926167563684683834, 2317926167563684683835, 2318520713632997580860,
    2318520713632997580861, 2318520713632997580862, 2318520713632997580863, 2318520713632997580864, 2318520713632997580865,
    2318520713632997580866, 2318520713632997580867, 2318520713632997580868, 2318520713632997580869, 2318520713632997580870,
    2318520713632997580871, 2318520713632997580872, 2318520713632997580873, 2318520713632997580874, 2318520713632997580875,
    2318520713632997580876, 2318520713632997580877, 2318520713632997580878, 2318520713632997580879, 2318520713632997580880,
    2318520713632997580881, 2318520713632997580882, 2318520713632997580883, 2318520713632997580884, 2318520713632997580885,
    2318520713632997580886, 2318520713632997580887, 2318520713632997580888, 2318520713632997580889, 2318520713632997580895,
    2318520713632997580896, 2318520713632997580902, 2318520713632997580905, 2318520713632997580906, 2318520713632997580907,
    2318520713632997580920, 2318520713632997580921],
  [103581704802795557, 103581704802795558, 103581704802795559, 103581704802795560, 103581704802795561, 103581704802795562, 103581704802795563,
    103581704802795564, 103581704802795565, 2317926167013945647395, 2317926167013945647396, 2317926167031108739375, 2317926167031108739376],
  [2317926167031108739374, 2317926167563684684082, 2317926167563684684083, 2317926167563684684084, 2317926167563684684085,
    2317926167563684684086],
  [2317926167563684684081],
  [2317926167563684684087],
  [2317926167563684683831, 2317926167563684683832, 2317926167563684683833, 2317926167563684683834, 2317926167563684683835,
    2317926167563684684088, 2318520713632997580860, 2318520713632997580861, 2318520713632997580862, 2318520713632997580863,
    2318520713632997580864, 2318520713632997580865, 2318520713632997580866, 2318520713632997580867, 2318520713632997580868,
    2318520713632997580869, 2318520713632997580870, 2318520713632997580871, 2318520713632997580872, 2318520713632997580873,
    2318520713632997580874, 2318520713632997580875, 2318520713632997580876, 2318520713632997580877, 2318520713632997580878,
    2318520713632997580879, 2318520713632997580880, 2318520713632997580881, 2318520713632997580882, 2318520713632997580883,
    2318520713632997580884, 2318520713632997580885, 2318520713632997580886, 2318520713632997580887, 2318520713632997580888,
    2318520713632997580889, 2318520713632997580895, 2318520713632997580896, 2318520713632997580902, 2318520713632997580905,
    2318520713632997580906, 2318520713632997580907, 2318520713632997580920, 2318520713632997580921],
  [2317926167563684683831, 2317926167563684683832, 2317926167563684683833, 2317926167563684683834, 2317926167563684683835,
    2317926167563684684089, 2318520713632997580860, 2318520713632997580861, 2318520713632997580862, 2318520713632997580863,
    2318520713632997580864, 2318520713632997580865, 2318520713632997580866, 2318520713632997580867, 2318520713632997580868,
    2318520713632997580869, 2318520713632997580870, 2318520713632997580871, 2318520713632997580872, 2318520713632997580873,
    2318520713632997580874, 2318520713632997580875, 2318520713632997580876, 2318520713632997580877, 2318520713632997580878,
    2318520713632997580879, 2318520713632997580880, 2318520713632997580881, 2318520713632997580882, 2318520713632997580883,
    2318520713632997580884, 2318520713632997580885, 2318520713632997580886, 2318520713632997580887, 2318520713632997580888,
    2318520713632997580889, 2318520713632997580895, 2318520713632997580896, 2318520713632997580902, 2318520713632997580905,
    2318520713632997580906, 2318520713632997580907, 2318520713632997580920, 2318520713632997580921],
  [2317926167563684684090, 2317926167563684684091, 2318520713632997580903, 2318520713632997580904, 2318520713632997581158,
    2318520713632997581161, 2318520713632997581162, 2318520713632997581163]]

/-- The items of each state, states 32 to 47. -/
def itemRows2 : List (List Nat) := [
  [2318520713632997581116],
  [2318520713632997581117],
  [2318520713632997581118],
  [2318520713632997581119],
  [2318520713632997581120],
  [1180591620717411311997, 1181186167336479891777, 1181186167336479891832, 1181186167336479891833],
  [2318520713632997581122],
  [2318520713632997581123],
  [2318520713632997581124],
  [2318520713632997581125],
  [2318520713632997581126],
  [2318520713632997581127],
  [2318520713632997581128],
  [2318520713632997581129],
  [2318520713632997581130],
  [2318520713632997581131]]

/-- The items of each state, states 48 to 63. -/
def itemRows3 : List (List Nat) := [
  [2318520713632997581132],
  [2318520713632997581133, 2318520713632997581134],
  [2318520713632997581135],
  [2318520713632997581136],
  [2318520713632997581137],
  [2318520713632997581138],
  [2318520713632997581139],
  [2318520713632997581140],
  [4503599627894808, 4503599627894809, 4503599627894810, 4503599631040539, 4503599631040540, 4503599631040541, 4503599643623454,
    4503599643623455, 4503599643623456, 4503599643623457, 4503599643623458, 4503599643623459, 4503599643623460, 4503616806715438,
    4503616806715439, 4503616806715440, 4504149382660145, 4504149382660146, 4504149382660147, 4504149382660148, 4504149382660149,
    4504149382660150, 4504149382660151, 4504149382660152, 4504149382660153, 4504149382660154, 4504149382660155, 599050218695557180,
    599050218695557181, 599050218695557182, 599050218695557183, 599050218695557184, 599050218695557185, 599050218695557186, 599050218695557187,
    599050218695557188, 599050218695557189, 599050218695557190, 599050218695557191, 599050218695557192, 599050218695557193, 599050218695557194,
    599050218695557195, 599050218695557196, 599050218695557197, 599050218695557198, 599050218695557199, 599050218695557200, 599050218695557201,
    599050218695557202, 599050218695557203, 599050218695557204, 599050218695557205, 599050218695557206, 599050218695557207, 599050218695557208,
    599050218695557209, 599050218695557215, 599050218695557216, 599050218695557222, 599050218695557225, 599050218695557226, 599050218695557227,
    599050218695557240, 599050218695557241, 2318520713632997581141, 2318520713632997581142],
  [9007199255265304, 9007199255265305, 9007199255265306, 9007199258411035, 9007199258411036, 9007199258411037, 9007199270993950,
    9007199270993951, 9007199270993952, 9007199270993953, 9007199270993954, 9007199270993955, 9007199270993956, 9007216434085934,
    9007216434085935, 9007216434085936, 9007749010030641, 9007749010030642, 9007749010030643, 9007749010030644, 9007749010030645,
    9007749010030646, 9007749010030647, 9007749010030648, 9007749010030649, 9007749010030650, 9007749010030651, 603553818322927676,
    603553818322927677, 603553818322927678, 603553818322927679, 603553818322927680, 603553818322927681, 603553818322927682, 603553818322927683,
    603553818322927684, 603553818322927685, 603553818322927686, 603553818322927687, 603553818322927688, 603553818322927689, 603553818322927690,
    603553818322927691, 603553818322927692, 603553818322927693, 603553818322927694, 603553818322927695, 603553818322927696, 603553818322927697,
    603553818322927698, 603553818322927699, 603553818322927700, 603553818322927701, 603553818322927702, 603553818322927703, 603553818322927704,
    603553818322927705, 603553818322927711, 603553818322927712, 603553818322927718, 603553818322927721, 603553818322927722, 603553818322927723,
    603553818322927736, 603553818322927737, 2318520713632997581143],
  [139610501838536871, 139610501838536872, 139610501838536875, 1180731231219249840297, 1180731231219249840298, 2318520713632997581144,
    2318520713632997581145],
  [146085512912830631, 146085512912830632, 146085512912830635, 1180737706230324134057, 1180737706230324134058, 2318520713632997581151,
    2318520713632997581152],
  [1137028300435246666114, 1142792907958280901009, 1142792907958280901011],
  [1137028300435246666115, 1142792907958280900996],
  [1137028300435246666117, 1142792907958280900998],
  [1137028300435246666119, 1142792907958280901000]]

/-- The items of each state, states 64 to 79. -/
def itemRows4 : List (List Nat) := [
  [1137028300435246666121, 1142792907958280901002],
  [1137028300435246666123, 1142792907958280901004],
  [1137028300435246666125, 1142792907958280901006],
  [1137028300435246666127, 1142792907958280901008],
  [1142792907958280901010],
  [34078848, 34078849, 1142792907958280901016, 1142792907958280901017],
  [5764607523034235026, 5764607523034235027, 1136852661136389046431, 1136852661136389046432, 1136884185247170805915, 1136884185247170805916,
    1136884185247170805917, 1142792907958280900611, 1142792907958280900613, 1142792907958280900615, 1142792907958280900740,
    1142792907958280900742, 1142792907958280900744, 1142792907958280900746, 1142792907958280900748, 1142792907958280900750,
    1142792907958280900752, 1142792907958280900753, 1142792907958280900756, 1142792907958280900758, 1142792907958280900760,
    1142792907958280900761, 1142792907958280900762, 1142792907958280900766, 1142792907958280900769, 1142792907958280900770,
    1142792907958280900772, 1142792907958280901018, 1180591620717411311625, 1180591620717411311626, 1180591620717411311629,
    1180591620717411311630, 1180591620717411311631, 1180591620717411311632, 1180591620717411311633, 1180591620717411311634,
    1180591620717411311635, 1180591620717411311636, 1180591620717411311637, 1180591620717411311638, 1180591620717411311639,
    1180591620717411311741, 1180591620717412229144, 1180591620717412229145, 1180591620717412229146, 1180591620717415374875,
    1180591620717415374876, 1180591620717415374877, 1180591620717427957790, 1180591620717427957791, 1180591620717427957792,
    1180591620717427957793, 1180591620717427957794, 1180591620717427957795, 1180591620717427957796, 1180591620734591049774,
    1180591620734591049775, 1180591620734591049776, 1180591621267166994481, 1180591621267166994482, 1180591621267166994483,
    1180591621267166994484, 1180591621267166994485, 1180591621267166994486, 1180591621267166994487, 1180591621267166994488,
    1180591621267166994489, 1180591621267166994490, 1180591621267166994491, 1181186167336479891516, 1181186167336479891517,
    1181186167336479891518, 1181186167336479891519, 1181186167336479891520, 1181186167336479891521, 1181186167336479891522,
    1181186167336479891523, 1181186167336479891524, 1181186167336479891525, 1181186167336479891526, 1181186167336479891527,
    1181186167336479891528, 1181186167336479891529, 1181186167336479891530, 1181186167336479891531, 1181186167336479891532,
    1181186167336479891533, 1181186167336479891534, 1181186167336479891535, 1181186167336479891536, 1181186167336479891537,
    1181186167336479891538, 1181186167336479891539, 1181186167336479891540, 1181186167336479891541, 1181186167336479891542,
    1181186167336479891543, 1181186167336479891544, 1181186167336479891545, 1181186167336479891551, 1181186167336479891552,
    1181186167336479891558, 1181186167336479891561, 1181186167336479891562, 1181186167336479891563, 1181186167336479891576,
    1181186167336479891577, 2317475805964582109347],
  [1136884185247170806171, 1136884185247170806172, 1136884185247170806173],
  [5764607523034235026, 5764607523034235027, 1136852661136389046431, 1136852661136389046432, 1136884185247170805915, 1136884185247170805916,
    1136884185247170805917, 1142792907958280900616, 1142792907958280900740, 1142792907958280900742, 1142792907958280900744,
    1142792907958280900746, 1142792907958280900748, 1142792907958280900750, 1142792907958280900752, 1142792907958280900753,
    1142792907958280900757, 1142792907958280900759, 1142792907958280900760, 1142792907958280900761, 1142792907958280900762,
    1142792907958280900766, 1142792907958280900769, 1142792907958280900770, 1142792907958280900772, 1142792907958280901022,
    2317475805964582109347],
  [1136852661136389046687, 1136852661136389046688],
  [5764607523034235026, 5764607523034235027, 1136852661136389046431, 1136852661136389046432, 1136884185247170805915, 1136884185247170805916,
    1136884185247170805917, 1142792907958280900611, 1142792907958280900613, 1142792907958280900615, 1142792907958280900740,
    1142792907958280900742, 1142792907958280900744, 1142792907958280900746, 1142792907958280900748, 1142792907958280900750,
    1142792907958280900752, 1142792907958280900753, 1142792907958280900756, 1142792907958280900758, 1142792907958280900760,
    1142792907958280900761, 1142792907958280900762, 1142792907958280900766, 1142792907958280900769, 1142792907958280900770,
    1142792907958280900772, 1142792907958280901025, 1180591620717411311625, 1180591620717411311626, 1180591620717411311629,
    1180591620717411311630, 1180591620717411311631, 1180591620717411311632, 1180591620717411311633, 1180591620717411311634,
    1180591620717411311635, 1180591620717411311636, 1180591620717411311637, 1180591620717411311638, 1180591620717411311639,
    1180591620717411311741, 1180591620717412229144, 1180591620717412229145, 1180591620717412229146, 1180591620717415374875,
    1180591620717415374876, 1180591620717415374877, 1180591620717427957790, 1180591620717427957791, 1180591620717427957792,
    1180591620717427957793, 1180591620717427957794, 1180591620717427957795, 1180591620717427957796, 1180591620734591049774,
    1180591620734591049775, 1180591620734591049776, 1180591621267166994481, 1180591621267166994482, 1180591621267166994483,
    1180591621267166994484, 1180591621267166994485, 1180591621267166994486, 1180591621267166994487, 1180591621267166994488,
    1180591621267166994489, 1180591621267166994490, 1180591621267166994491, 1181186167336479891516, 1181186167336479891517,
    1181186167336479891518, 1181186167336479891519, 1181186167336479891520, 1181186167336479891521, 1181186167336479891522,
    1181186167336479891523, 1181186167336479891524, 1181186167336479891525, 1181186167336479891526, 1181186167336479891527,
    1181186167336479891528, 1181186167336479891529, 1181186167336479891530, 1181186167336479891531, 1181186167336479891532,
    1181186167336479891533, 1181186167336479891534, 1181186167336479891535, 1181186167336479891536, 1181186167336479891537,
    1181186167336479891538, 1181186167336479891539, 1181186167336479891540, 1181186167336479891541, 1181186167336479891542,
    1181186167336479891543, 1181186167336479891544, 1181186167336479891545, 1181186167336479891551, 1181186167336479891552,
    1181186167336479891558, 1181186167336479891561, 1181186167336479891562, 1181186167336479891563, 1181186167336479891576,
    1181186167336479891577, 2317475805964582109347],
  [1136884185247170805927, 1136884185247170805928, 1136884185247170805931, 1142792907958280901026, 2317475805964582109353,
    2317475805964582109354],
  [2317475805964582109603],
  [1142792907958280901028],
  [1136884185247170810368],
  [2323420557472711168682]]

/-- The items of each state, states 80 to 95. -/
def itemRows5 : List (List Nat) := [
  [1137028300435246666242, 1142792907958280901123, 2323384528675692204458],
  [1137028300435246666244, 1142792907958280901125, 1180591620717411311629, 1180591620717411311630, 1180591620717411311631,
    1180591620717411311632, 1180591620717411311633, 1180591620717411311634, 1180591620717411311635, 1180591620717411311636,
    1180591620717411311637, 1180591620717411311638, 1180591620717411311639, 1180591620717411311741, 1180591620717411312138,
    1180591620717412229144, 1180591620717412229145, 1180591620717412229146, 1180591620717415374875, 1180591620717415374876,
    1180591620717415374877, 1180591620717427957790, 1180591620717427957791, 1180591620717427957792, 1180591620717427957793,
    1180591620717427957794, 1180591620717427957795, 1180591620717427957796, 1180591620734591049774, 1180591620734591049775,
    1180591620734591049776, 1180591621267166994481, 1180591621267166994482, 1180591621267166994483, 1180591621267166994484,
    1180591621267166994485, 1180591621267166994486, 1180591621267166994487, 1180591621267166994488, 1180591621267166994489,
    1180591621267166994490, 1180591621267166994491, 1181186167336479891516, 1181186167336479891517, 1181186167336479891518,
    1181186167336479891519, 1181186167336479891520, 1181186167336479891521, 1181186167336479891522, 1181186167336479891523,
    1181186167336479891524, 1181186167336479891525, 1181186167336479891526, 1181186167336479891527, 1181186167336479891528,
    1181186167336479891529, 1181186167336479891530, 1181186167336479891531, 1181186167336479891532, 1181186167336479891533,
    1181186167336479891534, 1181186167336479891535, 1181186167336479891536, 1181186167336479891537, 1181186167336479891538,
    1181186167336479891539, 1181186167336479891540, 1181186167336479891541, 1181186167336479891542, 1181186167336479891543,
    1181186167336479891544, 1181186167336479891545, 1181186167336479891551, 1181186167336479891552, 1181186167336479891558,
    1181186167336479891561, 1181186167336479891562, 1181186167336479891563, 1181186167336479891576, 1181186167336479891577,
    2323384528675692204201, 2323384528675692204202],
  [1180591620717411312147],
  [2318520713632997581121, 2318520713632997581176, 2318520713632997581177],
  [1180591620717411312149, 1180591620717411835928, 1180591620717411835929, 1180591620717411835930, 1180591620717414981659,
    1180591620717414981660, 1180591620717414981661, 1180591620717427564574, 1180591620717427564575, 1180591620717427564576,
    1180591620717427564577, 1180591620717427564578, 1180591620717427564579, 1180591620717427564580, 1180591620734590656558,
    1180591620734590656559, 1180591620734590656560, 1180591621267166601265, 1180591621267166601266, 1180591621267166601267,
    1180591621267166601268, 1180591621267166601269, 1180591621267166601270, 1180591621267166601271, 1180591621267166601272,
    1180591621267166601273, 1180591621267166601274, 1180591621267166601275, 1181186167336479498300, 1181186167336479498301,
    1181186167336479498302, 1181186167336479498303, 1181186167336479498304, 1181186167336479498305, 1181186167336479498306,
    1181186167336479498307, 1181186167336479498308, 1181186167336479498309, 1181186167336479498310, 1181186167336479498311,
    1181186167336479498312, 1181186167336479498313, 1181186167336479498314, 1181186167336479498315, 1181186167336479498316,
    1181186167336479498317, 1181186167336479498318, 1181186167336479498319, 1181186167336479498320, 1181186167336479498321,
    1181186167336479498322, 1181186167336479498323, 1181186167336479498324, 1181186167336479498325, 1181186167336479498326,
    1181186167336479498327, 1181186167336479498328, 1181186167336479498329, 1181186167336479498335, 1181186167336479498336,
    1181186167336479498342, 1181186167336479498345, 1181186167336479498346, 1181186167336479498347, 1181186167336479498360,
    1181186167336479498361],
  [1180591620717411312150, 1180591620717411835928, 1180591620717411835929, 1180591620717411835930, 1180591620717414981659,
    1180591620717414981660, 1180591620717414981661, 1180591620717427564574, 1180591620717427564575, 1180591620717427564576,
    1180591620717427564577, 1180591620717427564578, 1180591620717427564579, 1180591620717427564580, 1180591620734590656558,
    1180591620734590656559, 1180591620734590656560, 1180591621267166601265, 1180591621267166601266, 1180591621267166601267,
    1180591621267166601268, 1180591621267166601269, 1180591621267166601270, 1180591621267166601271, 1180591621267166601272,
    1180591621267166601273, 1180591621267166601274, 1180591621267166601275, 1181186167336479498300, 1181186167336479498301,
    1181186167336479498302, 1181186167336479498303, 1181186167336479498304, 1181186167336479498305, 1181186167336479498306,
    1181186167336479498307, 1181186167336479498308, 1181186167336479498309, 1181186167336479498310, 1181186167336479498311,
    1181186167336479498312, 1181186167336479498313, 1181186167336479498314, 1181186167336479498315, 1181186167336479498316,
    1181186167336479498317, 1181186167336479498318, 1181186167336479498319, 1181186167336479498320, 1181186167336479498321,
    1181186167336479498322, 1181186167336479498323, 1181186167336479498324, 1181186167336479498325, 1181186167336479498326,
    1181186167336479498327, 1181186167336479498328, 1181186167336479498329, 1181186167336479498335, 1181186167336479498336,
    1181186167336479498342, 1181186167336479498345, 1181186167336479498346, 1181186167336479498347, 1181186167336479498360,
    1181186167336479498361],
  [103581704819572903, 103581704819572904, 103581704819572907, 1180695202422230876329, 1180695202422230876330, 2317457792652683387417],
  [2317926167013933064732, 2317926167013945647134, 2317926167013945647135, 2317926167013945647136, 2317926167013945647137,
    2317926167013945647138, 2317926167013945647139, 2317926167013945647140, 2317926167031108739118, 2317926167031108739119,
    2317926167031108739120, 2317926167563684683825, 2317926167563684683826, 2317926167563684683827, 2317926167563684683828,
    2317926167563684683829, 2317926167563684683830, 2317926167563684683831, 2317926167563684683832, 2317926167563684683833,
    2317926167563684683834, 2317926167563684683835, 2318520713632997580860, 2318520713632997580861, 2318520713632997580862,
    2318520713632997580863, 2318520713632997580864, 2318520713632997580865, 2318520713632997580866, 2318520713632997580867,
    2318520713632997580868, 2318520713632997580869, 2318520713632997580870, 2318520713632997580871, 2318520713632997580872,
    2318520713632997580873, 2318520713632997580874, 2318520713632997580875, 2318520713632997580876, 2318520713632997580877,
    2318520713632997580878, 2318520713632997580879, 2318520713632997580880, 2318520713632997580881, 2318520713632997580882,
    2318520713632997580883, 2318520713632997580884, 2318520713632997580885, 2318520713632997580886, 2318520713632997580887,
    2318520713632997580888, 2318520713632997580889, 2318520713632997580895, 2318520713632997580896, 2318520713632997580902,
    2318520713632997580905, 2318520713632997580906, 2318520713632997580907, 2318520713632997580920, 2318520713632997580921],
  [2317926167013933064733, 2317926167013945647134, 2317926167013945647135, 2317926167013945647136, 2317926167013945647137,
    2317926167013945647138, 2317926167013945647139, 2317926167013945647140, 2317926167031108739118, 2317926167031108739119,
    2317926167031108739120, 2317926167563684683825, 2317926167563684683826, 2317926167563684683827, 2317926167563684683828,
    2317926167563684683829, 2317926167563684683830, 2317926167563684683831, 2317926167563684683832, 2317926167563684683833,
    2317926167563684683834, 2317926167563684683835, 2318520713632997580860, 2318520713632997580861, 2318520713632997580862,
    2318520713632997580863, 2318520713632997580864, 2318520713632997580865, 2318520713632997580866, 2318520713632997580867,
    2318520713632997580868, 2318520713632997580869, 2318520713632997580870, 2318520713632997580871, 2318520713632997580872,
    2318520713632997580873, 2318520713632997580874, 2318520713632997580875, 2318520713632997580876, 2318520713632997580877,
    2318520713632997580878, 2318520713632997580879, 2318520713632997580880, 2318520713632997580881, 2318520713632997580882,
    2318520713632997580883, 2318520713632997580884, 2318520713632997580885, 2318520713632997580886, 2318520713632997580887,
    2318520713632997580888, 2318520713632997580889, 2318520713632997580895, 2318520713632997580896, 2318520713632997580902,
    2318520713632997580905, 2318520713632997580906, 2318520713632997580907, 2318520713632997580920, 2318520713632997580921],
  [2317926167013945647137, 2317926167013945647138, 2317926167013945647139, 2317926167013945647140, 2317926167013945647647,
    2317926167031108739118, 2317926167031108739119, 2317926167031108739120, 2317926167563684683825, 2317926167563684683826,
    2317926167563684683827, 2317926167563684683828, 2317926167563684683829, 2317926167563684683830, 2317926167563684683831,
    2317926167563684683832, 2317926167563684683833, 2317926167563684683834, 2317926167563684683835, 2318520713632997580860,
    2318520713632997580861, 2318520713632997580862, 2318520713632997580863, 2318520713632997580864, 2318520713632997580865,
    2318520713632997580866, 2318520713632997580867, 2318520713632997580868, 2318520713632997580869, 2318520713632997580870,
    2318520713632997580871, 2318520713632997580872, 2318520713632997580873, 2318520713632997580874, 2318520713632997580875,
    2318520713632997580876, 2318520713632997580877, 2318520713632997580878, 2318520713632997580879, 2318520713632997580880,
    2318520713632997580881, 2318520713632997580882, 2318520713632997580883, 2318520713632997580884, 2318520713632997580885,
    2318520713632997580886, 2318520713632997580887, 2318520713632997580888, 2318520713632997580889, 2318520713632997580895,
    2318520713632997580896, 2318520713632997580902, 2318520713632997580905, 2318520713632997580906, 2318520713632997580907,
    2318520713632997580920, 2318520713632997580921],
  [2317926167013945647137, 2317926167013945647138, 2317926167013945647139, 2317926167013945647140, 2317926167013945647648,
    2317926167031108739118, 2317926167031108739119, 2317926167031108739120, 2317926167563684683825, 2317926167563684683826,
    2317926167563684683827, 2317926167563684683828, 2317926167563684683829, 2317926167563684683830, 2317926167563684683831,
    2317926167563684683832, 2317926167563684683833, 2317926167563684683834, 2317926167563684683835, 2318520713632997580860,
    2318520713632997580861, 2318520713632997580862, 2318520713632997580863, 2318520713632997580864, 2318520713632997580865,
    2318520713632997580866, 2318520713632997580867, 2318520713632997580868, 2318520713632997580869, 2318520713632997580870,
    2318520713632997580871, 2318520713632997580872, 2318520713632997580873, 2318520713632997580874, 2318520713632997580875,
    2318520713632997580876, 2318520713632997580877, 2318520713632997580878, 2318520713632997580879, 2318520713632997580880,
    2318520713632997580881, 2318520713632997580882, 2318520713632997580883, 2318520713632997580884, 2318520713632997580885,
    2318520713632997580886, 2318520713632997580887, 2318520713632997580888, 2318520713632997580889, 2318520713632997580895,
    2318520713632997580896, 2318520713632997580902, 2318520713632997580905, 2318520713632997580906, 2318520713632997580907,
    2318520713632997580920, 2318520713632997580921],
  [2317926167013945647650],
  [2317926167013945647652, 2317926167026830549038, 2317926167026830549039, 2317926167026830549040, 2317926167559406493745,
    2317926167559406493746, 2317926167559406493747, 2317926167559406493748, 2317926167559406493749, 2317926167559406493750,
    2317926167559406493751, 2317926167559406493752, 2317926167559406493753, 2317926167559406493754, 2317926167559406493755,
    2318520713628719390780, 2318520713628719390781, 2318520713628719390782, 2318520713628719390783, 2318520713628719390784,
    2318520713628719390785, 2318520713628719390786, 2318520713628719390787, 2318520713628719390788, 2318520713628719390789,
    2318520713628719390790, 2318520713628719390791, 2318520713628719390792, 2318520713628719390793, 2318520713628719390794,
    2318520713628719390795, 2318520713628719390796, 2318520713628719390797, 2318520713628719390798, 2318520713628719390799,
    2318520713628719390800, 2318520713628719390801, 2318520713628719390802, 2318520713628719390803, 2318520713628719390804,
    2318520713628719390805, 2318520713628719390806, 2318520713628719390807, 2318520713628719390808, 2318520713628719390809,
    2318520713628719390815, 2318520713628719390816, 2318520713628719390822, 2318520713628719390825, 2318520713628719390826,
    2318520713628719390827, 2318520713628719390840, 2318520713628719390841],
  [103581704802795813],
  [103581704802795814],
  [103581704802795815]]

/-- The items of each state, states 96 to 111. -/
def itemRows6 : List (List Nat) := [
  [103581704802795816],
  [103581704802795817],
  [103581704802795818],
  [103581704802795819],
  [103581704802795820],
  [103581704802795821],
  [2317926167031108739631, 2317926167563684683825, 2317926167563684683826, 2317926167563684683827, 2317926167563684683828,
    2317926167563684683829, 2317926167563684683830, 2317926167563684683831, 2317926167563684683832, 2317926167563684683833,
    2317926167563684683834, 2317926167563684683835, 2318520713632997580860, 2318520713632997580861, 2318520713632997580862,
    2318520713632997580863, 2318520713632997580864, 2318520713632997580865, 2318520713632997580866, 2318520713632997580867,
    2318520713632997580868, 2318520713632997580869, 2318520713632997580870, 2318520713632997580871, 2318520713632997580872,
    2318520713632997580873, 2318520713632997580874, 2318520713632997580875, 2318520713632997580876, 2318520713632997580877,
    2318520713632997580878, 2318520713632997580879, 2318520713632997580880, 2318520713632997580881, 2318520713632997580882,
    2318520713632997580883, 2318520713632997580884, 2318520713632997580885, 2318520713632997580886, 2318520713632997580887,
    2318520713632997580888, 2318520713632997580889, 2318520713632997580895, 2318520713632997580896, 2318520713632997580902,
    2318520713632997580905, 2318520713632997580906, 2318520713632997580907, 2318520713632997580920, 2318520713632997580921],
  [2317926167031108739632, 2317926167563684683825, 2317926167563684683826, 2317926167563684683827, 2317926167563684683828,
    2317926167563684683829, 2317926167563684683830, 2317926167563684683831, 2317926167563684683832, 2317926167563684683833,
    2317926167563684683834, 2317926167563684683835, 2318520713632997580860, 2318520713632997580861, 2318520713632997580862,
    2318520713632997580863, 2318520713632997580864, 2318520713632997580865, 2318520713632997580866, 2318520713632997580867,
    2318520713632997580868, 2318520713632997580869, 2318520713632997580870, 2318520713632997580871, 2318520713632997580872,
    2318520713632997580873, 2318520713632997580874, 2318520713632997580875, 2318520713632997580876, 2318520713632997580877,
    2318520713632997580878, 2318520713632997580879, 2318520713632997580880, 2318520713632997580881, 2318520713632997580882,
    2318520713632997580883, 2318520713632997580884, 2318520713632997580885, 2318520713632997580886, 2318520713632997580887,
    2318520713632997580888, 2318520713632997580889, 2318520713632997580895, 2318520713632997580896, 2318520713632997580902,
    2318520713632997580905, 2318520713632997580906, 2318520713632997580907, 2318520713632997580920, 2318520713632997580921],
  [2317926167563684683831, 2317926167563684683832, 2317926167563684683833, 2317926167563684683834, 2317926167563684683835,
    2317926167563684684338, 2318520713632997580860, 2318520713632997580861, 2318520713632997580862, 2318520713632997580863,
    2318520713632997580864, 2318520713632997580865, 2318520713632997580866, 2318520713632997580867, 2318520713632997580868,
    2318520713632997580869, 2318520713632997580870, 2318520713632997580871, 2318520713632997580872, 2318520713632997580873,
    2318520713632997580874, 2318520713632997580875, 2318520713632997580876, 2318520713632997580877, 2318520713632997580878,
    2318520713632997580879, 2318520713632997580880, 2318520713632997580881, 2318520713632997580882, 2318520713632997580883,
    2318520713632997580884, 2318520713632997580885, 2318520713632997580886, 2318520713632997580887, 2318520713632997580888,
    2318520713632997580889, 2318520713632997580895, 2318520713632997580896, 2318520713632997580902, 2318520713632997580905,
    2318520713632997580906, 2318520713632997580907, 2318520713632997580920, 2318520713632997580921],
  [2317926167563684683831, 2317926167563684683832, 2317926167563684683833, 2317926167563684683834, 2317926167563684683835,
    2317926167563684684339, 2318520713632997580860, 2318520713632997580861, 2318520713632997580862, 2318520713632997580863,
    2318520713632997580864, 2318520713632997580865, 2318520713632997580866, 2318520713632997580867, 2318520713632997580868,
    2318520713632997580869, 2318520713632997580870, 2318520713632997580871, 2318520713632997580872, 2318520713632997580873,
    2318520713632997580874, 2318520713632997580875, 2318520713632997580876, 2318520713632997580877, 2318520713632997580878,
    2318520713632997580879, 2318520713632997580880, 2318520713632997580881, 2318520713632997580882, 2318520713632997580883,
    2318520713632997580884, 2318520713632997580885, 2318520713632997580886, 2318520713632997580887, 2318520713632997580888,
    2318520713632997580889, 2318520713632997580895, 2318520713632997580896, 2318520713632997580902, 2318520713632997580905,
    2318520713632997580906, 2318520713632997580907, 2318520713632997580920, 2318520713632997580921],
  [2317926167563684683831, 2317926167563684683832, 2317926167563684683833, 2317926167563684683834, 2317926167563684683835,
    2317926167563684684340, 2318520713632997580860, 2318520713632997580861, 2318520713632997580862, 2318520713632997580863,
    2318520713632997580864, 2318520713632997580865, 2318520713632997580866, 2318520713632997580867, 2318520713632997580868,
    2318520713632997580869, 2318520713632997580870, 2318520713632997580871, 2318520713632997580872, 2318520713632997580873,
    2318520713632997580874, 2318520713632997580875, 2318520713632997580876, 2318520713632997580877, 2318520713632997580878,
    2318520713632997580879, 2318520713632997580880, 2318520713632997580881, 2318520713632997580882, 2318520713632997580883,
    2318520713632997580884, 2318520713632997580885, 2318520713632997580886, 2318520713632997580887, 2318520713632997580888,
    2318520713632997580889, 2318520713632997580895, 2318520713632997580896, 2318520713632997580902, 2318520713632997580905,
    2318520713632997580906, 2318520713632997580907, 2318520713632997580920, 2318520713632997580921],
  [2317926167563684683831, 2317926167563684683832, 2317926167563684683833, 2317926167563684683834, 2317926167563684683835,
    2317926167563684684341, 2318520713632997580860, 2318520713632997580861, 2318520713632997580862, 2318520713632997580863,
    2318520713632997580864, 2318520713632997580865, 2318520713632997580866, 2318520713632997580867, 2318520713632997580868,
    2318520713632997580869, 2318520713632997580870, 2318520713632997580871, 2318520713632997580872, 2318520713632997580873,
    2318520713632997580874, 2318520713632997580875, 2318520713632997580876, 2318520713632997580877, 2318520713632997580878,
    2318520713632997580879, 2318520713632997580880, 2318520713632997580881, 2318520713632997580882, 2318520713632997580883,
    2318520713632997580884, 2318520713632997580885, 2318520713632997580886, 2318520713632997580887, 2318520713632997580888,
    2318520713632997580889, 2318520713632997580895, 2318520713632997580896, 2318520713632997580902, 2318520713632997580905,
    2318520713632997580906, 2318520713632997580907, 2318520713632997580920, 2318520713632997580921],
  [2317926167563684683831, 2317926167563684683832, 2317926167563684683833, 2317926167563684683834, 2317926167563684683835,
    2317926167563684684342, 2318520713632997580860, 2318520713632997580861, 2318520713632997580862, 2318520713632997580863,
    2318520713632997580864, 2318520713632997580865, 2318520713632997580866, 2318520713632997580867, 2318520713632997580868,
    2318520713632997580869, 2318520713632997580870, 2318520713632997580871, 2318520713632997580872, 2318520713632997580873,
    2318520713632997580874, 2318520713632997580875, 2318520713632997580876, 2318520713632997580877, 2318520713632997580878,
    2318520713632997580879, 2318520713632997580880, 2318520713632997580881, 2318520713632997580882, 2318520713632997580883,
    2318520713632997580884, 2318520713632997580885, 2318520713632997580886, 2318520713632997580887, 2318520713632997580888,
    2318520713632997580889, 2318520713632997580895, 2318520713632997580896, 2318520713632997580902, 2318520713632997580905,
    2318520713632997580906, 2318520713632997580907, 2318520713632997580920, 2318520713632997580921],
  [2317926167563684684344],
  [2317926167563684684345],
  [2317926167563684683831, 2317926167563684683832, 2317926167563684683833, 2317926167563684683834, 2317926167563684683835,
    2317926167563684684347, 2318520713632997580860, 2318520713632997580861, 2318520713632997580862, 2318520713632997580863,
    2318520713632997580864, 2318520713632997580865, 2318520713632997580866, 2318520713632997580867, 2318520713632997580868,
    2318520713632997580869, 2318520713632997580870, 2318520713632997580871, 2318520713632997580872, 2318520713632997580873,
    2318520713632997580874, 2318520713632997580875, 2318520713632997580876, 2318520713632997580877, 2318520713632997580878,
    2318520713632997580879, 2318520713632997580880, 2318520713632997580881, 2318520713632997580882, 2318520713632997580883,
    2318520713632997580884, 2318520713632997580885, 2318520713632997580886, 2318520713632997580887, 2318520713632997580888,
    2318520713632997580889, 2318520713632997580895, 2318520713632997580896, 2318520713632997580902, 2318520713632997580905,
    2318520713632997580906, 2318520713632997580907, 2318520713632997580920, 2318520713632997580921]]

/-- The items of each state, states 112 to 127. -/
def itemRows7 : List (List Nat) := [
  [2318520713632997581414],
  [2318520713632997581159],
  [2318520713632997581160],
  [524403, 524406, 524407, 36028797019488364, 36028797019488365, 36028797019488370, 36028797019488372, 36028797019488373, 324259173171200026,
    324259173171200110, 324259173171200111, 324259173171200112, 324259173171200113, 324259173174345755, 324259173174345756, 324259173174345757,
    324259173186928670, 324259173186928671, 324259173186928672, 324259173186928673, 324259173186928674, 324259173186928675, 324259173186928676,
    324259190350020654, 324259190350020655, 324259190350020656, 324259722925965361, 324259722925965362, 324259722925965363, 324259722925965364,
    324259722925965365, 324259722925965366, 324259722925965367, 324259722925965368, 324259722925965369, 324259722925965370, 324259722925965371,
    918805792238862396, 918805792238862397, 918805792238862398, 918805792238862399, 918805792238862400, 918805792238862401, 918805792238862402,
    918805792238862403, 918805792238862404, 918805792238862405, 918805792238862406, 918805792238862407, 918805792238862408, 918805792238862409,
    918805792238862410, 918805792238862411, 918805792238862412, 918805792238862413, 918805792238862414, 918805792238862415, 918805792238862416,
    918805792238862417, 918805792238862418, 918805792238862419, 918805792238862420, 918805792238862421, 918805792238862422, 918805792238862423,
    918805792238862424, 918805792238862425, 918805792238862431, 918805792238862432, 918805792238862438, 918805792238862441, 918805792238862442,
    918805792238862443, 918805792238862456, 918805792238862457, 2318520713632997581417, 2318520713632997581418, 2318520713632997581419],
  [4503599627894810, 4503599627894906, 4503599627894907, 4503599627894908, 4503599627894910, 4503599627894911, 4503599631040539,
    4503599631040540, 4503599631040541, 4503599643623454, 4503599643623455, 4503599643623456, 4503599643623457, 4503599643623458,
    4503599643623459, 4503599643623460, 4503616806715438, 4503616806715439, 4503616806715440, 4504149382660145, 4504149382660146,
    4504149382660147, 4504149382660148, 4504149382660149, 4504149382660150, 4504149382660151, 4504149382660152, 4504149382660153,
    4504149382660154, 4504149382660155, 599050218695557180, 599050218695557181, 599050218695557182, 599050218695557183, 599050218695557184,
    599050218695557185, 599050218695557186, 599050218695557187, 599050218695557188, 599050218695557189, 599050218695557190, 599050218695557191,
    599050218695557192, 599050218695557193, 599050218695557194, 599050218695557195, 599050218695557196, 599050218695557197, 599050218695557198,
    599050218695557199, 599050218695557200, 599050218695557201, 599050218695557202, 599050218695557203, 599050218695557204, 599050218695557205,
    599050218695557206, 599050218695557207, 599050218695557208, 599050218695557209, 599050218695557215, 599050218695557216, 599050218695557222,
    599050218695557225, 599050218695557226, 599050218695557227, 599050218695557240, 599050218695557241, 1180591620717411312253,
    1181186167336479892088, 1181186167336479892089],
  [2318520713632997581389],
  [2318520713632997581390],
  [4503599627895065, 2318520713632997581397],
  [2318520713632997581398],
  [9007199255265561, 2318520713632997581399],
  [1180627649514430267482, 1180627649514430267483, 1180627649514430791706, 1180627649514433937435, 1180627649514433937436,
    1180627649514433937437, 1180627649514446520350, 1180627649514446520351, 1180627649514446520352, 1180627649514446520353,
    1180627649514446520354, 1180627649514446520355, 1180627649514446520356, 1180627649531609612334, 1180627649531609612335,
    1180627649531609612336, 1180627650064185557041, 1180627650064185557042, 1180627650064185557043, 1180627650064185557044,
    1180627650064185557045, 1180627650064185557046, 1180627650064185557047, 1180627650064185557048, 1180627650064185557049,
    1180627650064185557050, 1180627650064185557051, 1181222196133498454076, 1181222196133498454077, 1181222196133498454078,
    1181222196133498454079, 1181222196133498454080, 1181222196133498454081, 1181222196133498454082, 1181222196133498454083,
    1181222196133498454084, 1181222196133498454085, 1181222196133498454086, 1181222196133498454087, 1181222196133498454088,
    1181222196133498454089, 1181222196133498454090, 1181222196133498454091, 1181222196133498454092, 1181222196133498454093,
    1181222196133498454094, 1181222196133498454095, 1181222196133498454096, 1181222196133498454097, 1181222196133498454098,
    1181222196133498454099, 1181222196133498454100, 1181222196133498454101, 1181222196133498454102, 1181222196133498454103,
    1181222196133498454104, 1181222196133498454105, 1181222196133498454111, 1181222196133498454112, 1181222196133498454118,
    1181222196133498454121, 1181222196133498454122, 1181222196133498454123, 1181222196133498454136, 1181222196133498454137,
    2318520713632997581400, 2318520713632997581401],
  [288230376151711821, 288230376151711822, 288230376151711823, 288230376151711824, 1180735735905487159393, 1180735735905487159394,
    2318520713632997581407, 2318520713632997581408],
  [5764607523034235026, 5764607523034235027, 1136852661136389046431, 1136852661136389046432, 1136884185247170805915, 1136884185247170805916,
    1136884185247170805917, 1142792907958280900611, 1142792907958280900613, 1142792907958280900615, 1142792907958280900740,
    1142792907958280900742, 1142792907958280900744, 1142792907958280900746, 1142792907958280900748, 1142792907958280900750,
    1142792907958280900752, 1142792907958280900753, 1142792907958280900756, 1142792907958280900758, 1142792907958280900760,
    1142792907958280900761, 1142792907958280900762, 1142792907958280900766, 1142792907958280900769, 1142792907958280900770,
    1142792907958280900772, 1142792907958280901265, 1180591620717411311625, 1180591620717411311626, 1180591620717411311629,
    1180591620717411311630, 1180591620717411311631, 1180591620717411311632, 1180591620717411311633, 1180591620717411311634,
    1180591620717411311635, 1180591620717411311636, 1180591620717411311637, 1180591620717411311638, 1180591620717411311639,
    1180591620717411311741, 1180591620717412229144, 1180591620717412229145, 1180591620717412229146, 1180591620717415374875,
    1180591620717415374876, 1180591620717415374877, 1180591620717427957790, 1180591620717427957791, 1180591620717427957792,
    1180591620717427957793, 1180591620717427957794, 1180591620717427957795, 1180591620717427957796, 1180591620734591049774,
    1180591620734591049775, 1180591620734591049776, 1180591621267166994481, 1180591621267166994482, 1180591621267166994483,
    1180591621267166994484, 1180591621267166994485, 1180591621267166994486, 1180591621267166994487, 1180591621267166994488,
    1180591621267166994489, 1180591621267166994490, 1180591621267166994491, 1181186167336479891516, 1181186167336479891517,
    1181186167336479891518, 1181186167336479891519, 1181186167336479891520, 1181186167336479891521, 1181186167336479891522,
    1181186167336479891523, 1181186167336479891524, 1181186167336479891525, 1181186167336479891526, 1181186167336479891527,
    1181186167336479891528, 1181186167336479891529, 1181186167336479891530, 1181186167336479891531, 1181186167336479891532,
    1181186167336479891533, 1181186167336479891534, 1181186167336479891535, 1181186167336479891536, 1181186167336479891537,
    1181186167336479891538, 1181186167336479891539, 1181186167336479891540, 1181186167336479891541, 1181186167336479891542,
    1181186167336479891543, 1181186167336479891544, 1181186167336479891545, 1181186167336479891551, 1181186167336479891552,
    1181186167336479891558, 1181186167336479891561, 1181186167336479891562, 1181186167336479891563, 1181186167336479891576,
    1181186167336479891577, 2317475805964582109347],
  [1142792907958280901267],
  [4503599627370522, 4503599630516251, 4503599630516252, 4503599630516253, 4503599643099166, 4503599643099167, 4503599643099168,
    4503599643099169, 4503599643099170, 4503599643099171, 4503599643099172, 4503616806191150, 4503616806191151, 4503616806191152,
    4504149382135857, 4504149382135858, 4504149382135859, 4504149382135860, 4504149382135861, 4504149382135862, 4504149382135863,
    4504149382135864, 4504149382135865, 4504149382135866, 4504149382135867, 599050218695032892, 599050218695032893, 599050218695032894,
    599050218695032895, 599050218695032896, 599050218695032897, 599050218695032898, 599050218695032899, 599050218695032900, 599050218695032901,
    599050218695032902, 599050218695032903, 599050218695032904, 599050218695032905, 599050218695032906, 599050218695032907, 599050218695032908,
    599050218695032909, 599050218695032910, 599050218695032911, 599050218695032912, 599050218695032913, 599050218695032914, 599050218695032915,
    599050218695032916, 599050218695032917, 599050218695032918, 599050218695032919, 599050218695032920, 599050218695032921, 599050218695032927,
    599050218695032928, 599050218695032934, 599050218695032937, 599050218695032938, 599050218695032939, 599050218695032952, 599050218695032953,
    1142792907958280901266],
  [36028797053043072]]

/-- The items of each state, states 128 to 143. -/
def itemRows8 : List (List Nat) := [
  [34079105, 1142792907958280901272],
  [36028797019488384, 36028797019488385, 1142792907958280901273],
  [1137028300435246661799, 1137028300435246661800, 1137028300435246661803, 1142792907958280901014, 1142792907958280901015,
    1181186167336479891807, 1181186167336479891808, 2317619921152657965225, 2317619921152657965226],
  [1142792907958280901012, 1142792907958280901013],
  [1142792907958280901274],
  [1136884185247170806427, 1136884185247170806428, 1136884185247170806429],
  [1142792907958280901278],
  [1136852661136389046943, 1136852661136389046944],
  [1142792907958280901281],
  [5764607523034235026, 5764607523034235027, 1136852661136389046431, 1136852661136389046432, 1136884185247170805915, 1136884185247170805916,
    1136884185247170805917, 1142792907958280900611, 1142792907958280900613, 1142792907958280900615, 1142792907958280900740,
    1142792907958280900742, 1142792907958280900744, 1142792907958280900746, 1142792907958280900748, 1142792907958280900750,
    1142792907958280900752, 1142792907958280900753, 1142792907958280900756, 1142792907958280900758, 1142792907958280900760,
    1142792907958280900761, 1142792907958280900762, 1142792907958280900766, 1142792907958280900769, 1142792907958280900770,
    1142792907958280900772, 1142792907958280901282, 1180591620717411311625, 1180591620717411311626, 1180591620717411311629,
    1180591620717411311630, 1180591620717411311631, 1180591620717411311632, 1180591620717411311633, 1180591620717411311634,
    1180591620717411311635, 1180591620717411311636, 1180591620717411311637, 1180591620717411311638, 1180591620717411311639,
    1180591620717411311741, 1180591620717412229144, 1180591620717412229145, 1180591620717412229146, 1180591620717415374875,
    1180591620717415374876, 1180591620717415374877, 1180591620717427957790, 1180591620717427957791, 1180591620717427957792,
    1180591620717427957793, 1180591620717427957794, 1180591620717427957795, 1180591620717427957796, 1180591620734591049774,
    1180591620734591049775, 1180591620734591049776, 1180591621267166994481, 1180591621267166994482, 1180591621267166994483,
    1180591621267166994484, 1180591621267166994485, 1180591621267166994486, 1180591621267166994487, 1180591621267166994488,
    1180591621267166994489, 1180591621267166994490, 1180591621267166994491, 1181186167336479891516, 1181186167336479891517,
    1181186167336479891518, 1181186167336479891519, 1181186167336479891520, 1181186167336479891521, 1181186167336479891522,
    1181186167336479891523, 1181186167336479891524, 1181186167336479891525, 1181186167336479891526, 1181186167336479891527,
    1181186167336479891528, 1181186167336479891529, 1181186167336479891530, 1181186167336479891531, 1181186167336479891532,
    1181186167336479891533, 1181186167336479891534, 1181186167336479891535, 1181186167336479891536, 1181186167336479891537,
    1181186167336479891538, 1181186167336479891539, 1181186167336479891540, 1181186167336479891541, 1181186167336479891542,
    1181186167336479891543, 1181186167336479891544, 1181186167336479891545, 1181186167336479891551, 1181186167336479891552,
    1181186167336479891558, 1181186167336479891561, 1181186167336479891562, 1181186167336479891563, 1181186167336479891576,
    1181186167336479891577, 2317475805964582109347],
  [2317475805964582109859],
  [1142792907958280901284],
  [1137028300435246666500, 1142792907958280901381, 2323384528675692204458],
  [1180591620717411312394],
  [4503599627894810, 4503599627894906, 4503599627894907, 4503599627894908, 4503599631040539, 4503599631040540, 4503599631040541,
    4503599643623454, 4503599643623455, 4503599643623456, 4503599643623457, 4503599643623458, 4503599643623459, 4503599643623460,
    4503616806715438, 4503616806715439, 4503616806715440, 4504149382660145, 4504149382660146, 4504149382660147, 4504149382660148,
    4504149382660149, 4504149382660150, 4504149382660151, 4504149382660152, 4504149382660153, 4504149382660154, 4504149382660155,
    599050218695557180, 599050218695557181, 599050218695557182, 599050218695557183, 599050218695557184, 599050218695557185, 599050218695557186,
    599050218695557187, 599050218695557188, 599050218695557189, 599050218695557190, 599050218695557191, 599050218695557192, 599050218695557193,
    599050218695557194, 599050218695557195, 599050218695557196, 599050218695557197, 599050218695557198, 599050218695557199, 599050218695557200,
    599050218695557201, 599050218695557202, 599050218695557203, 599050218695557204, 599050218695557205, 599050218695557206, 599050218695557207,
    599050218695557208, 599050218695557209, 599050218695557215, 599050218695557216, 599050218695557222, 599050218695557225, 599050218695557226,
    599050218695557227, 599050218695557240, 599050218695557241, 2318520713632997581432, 2318520713632997581433],
  [1180591620717411312405, 1180591620717411836185]]

/-- The items of each state, states 144 to 159. -/
def itemRows9 : List (List Nat) := [
  [1180591620717411312406, 1180591620717411836185],
  [2317457792652683386906, 2317457792652683387673, 2317457792652686532635, 2317457792652686532636, 2317457792652686532637,
    2317457792652699115550, 2317457792652699115551, 2317457792652699115552, 2317457792652699115553, 2317457792652699115554,
    2317457792652699115555, 2317457792652699115556, 2317457792669862207534, 2317457792669862207535, 2317457792669862207536,
    2317457793202438152241, 2317457793202438152242, 2317457793202438152243, 2317457793202438152244, 2317457793202438152245,
    2317457793202438152246, 2317457793202438152247, 2317457793202438152248, 2317457793202438152249, 2317457793202438152250,
    2317457793202438152251, 2318052339271751049276, 2318052339271751049277, 2318052339271751049278, 2318052339271751049279,
    2318052339271751049280, 2318052339271751049281, 2318052339271751049282, 2318052339271751049283, 2318052339271751049284,
    2318052339271751049285, 2318052339271751049286, 2318052339271751049287, 2318052339271751049288, 2318052339271751049289,
    2318052339271751049290, 2318052339271751049291, 2318052339271751049292, 2318052339271751049293, 2318052339271751049294,
    2318052339271751049295, 2318052339271751049296, 2318052339271751049297, 2318052339271751049298, 2318052339271751049299,
    2318052339271751049300, 2318052339271751049301, 2318052339271751049302, 2318052339271751049303, 2318052339271751049304,
    2318052339271751049305, 2318052339271751049311, 2318052339271751049312, 2318052339271751049318, 2318052339271751049321,
    2318052339271751049322, 2318052339271751049323, 2318052339271751049336, 2318052339271751049337],
  [2317926167013933064988, 2317926167013945647391, 2317926167013945647392],
  [2317926167013933064989, 2317926167013945647391, 2317926167013945647392],
  [2317926167013945647903],
  [2317926167013945647904],
  [2317926167013945647908, 2317926167026830549295, 2317926167026830549296],
  [103581704802796071],
  [2317926167031108739887, 2317926167563684684082, 2317926167563684684083, 2317926167563684684084, 2317926167563684684085,
    2317926167563684684086],
  [2317926167031108739888, 2317926167563684684082, 2317926167563684684083, 2317926167563684684084, 2317926167563684684085,
    2317926167563684684086],
  [2317926167563684684594],
  [2317926167563684684595],
  [2317926167563684684596],
  [2317926167563684684597],
  [2317926167563684684598],
  [2317926167563684684603]]

/-- The items of each state, states 160 to 175. -/
def itemRows10 : List (List Nat) := [
  [2318520713632997581415],
  [524662, 324259173171200367, 324259173171200369, 2318520713632997581673],
  [524663, 2318520713632997581674],
  [36028797019488628, 36028797019488629, 2318520713632997581675],
  [36028797019488620, 36028797019488626],
  [36028797019488621],
  [324259173171200026, 324259173171200366, 324259173171200368, 324259173174345755, 324259173174345756, 324259173174345757, 324259173186928670,
    324259173186928671, 324259173186928672, 324259173186928673, 324259173186928674, 324259173186928675, 324259173186928676, 324259190350020654,
    324259190350020655, 324259190350020656, 324259722925965361, 324259722925965362, 324259722925965363, 324259722925965364, 324259722925965365,
    324259722925965366, 324259722925965367, 324259722925965368, 324259722925965369, 324259722925965370, 324259722925965371, 918805792238862396,
    918805792238862397, 918805792238862398, 918805792238862399, 918805792238862400, 918805792238862401, 918805792238862402, 918805792238862403,
    918805792238862404, 918805792238862405, 918805792238862406, 918805792238862407, 918805792238862408, 918805792238862409, 918805792238862410,
    918805792238862411, 918805792238862412, 918805792238862413, 918805792238862414, 918805792238862415, 918805792238862416, 918805792238862417,
    918805792238862418, 918805792238862419, 918805792238862420, 918805792238862421, 918805792238862422, 918805792238862423, 918805792238862424,
    918805792238862425, 918805792238862431, 918805792238862432, 918805792238862438, 918805792238862441, 918805792238862442, 918805792238862443,
    918805792238862456, 918805792238862457],
  [524659],
  [2318520713632997581688],
  [4503599627895163, 2318520713632997581689],
  [4503599627895162],
  [4503599627895164],
  [4503599627895167, 1180591620717411312509],
  [4503599627895166],
  [2318520713632997581653],
  [2318520713632997581655]]

/-- The items of each state, states 176 to 191. -/
def itemRows11 : List (List Nat) := [
  [36028797018964135, 36028797018964136, 36028797018964139, 1180627649514430267561, 1180627649514430267562, 2318520713632997581656],
  [2318520713632997581657],
  [1180627649514430267486, 1180627649514430267738, 1180627649514430267739, 1180627649514430791772, 1180627649514430791773],
  [144115188075856039, 144115188075856040, 144115188075856043, 1180735735905487159465, 1180735735905487159466, 2318520713632997581663],
  [2318520713632997581664],
  [1180735735905487159649, 1180735735905487159650],
  [1142792907958280901521],
  [4503599627370522, 4503599630516251, 4503599630516252, 4503599630516253, 4503599643099166, 4503599643099167, 4503599643099168,
    4503599643099169, 4503599643099170, 4503599643099171, 4503599643099172, 4503616806191150, 4503616806191151, 4503616806191152,
    4504149382135857, 4504149382135858, 4504149382135859, 4504149382135860, 4504149382135861, 4504149382135862, 4504149382135863,
    4504149382135864, 4504149382135865, 4504149382135866, 4504149382135867, 599050218695032892, 599050218695032893, 599050218695032894,
    599050218695032895, 599050218695032896, 599050218695032897, 599050218695032898, 599050218695032899, 599050218695032900, 599050218695032901,
    599050218695032902, 599050218695032903, 599050218695032904, 599050218695032905, 599050218695032906, 599050218695032907, 599050218695032908,
    599050218695032909, 599050218695032910, 599050218695032911, 599050218695032912, 599050218695032913, 599050218695032914, 599050218695032915,
    599050218695032916, 599050218695032917, 599050218695032918, 599050218695032919, 599050218695032920, 599050218695032921, 599050218695032927,
    599050218695032928, 599050218695032934, 599050218695032937, 599050218695032938, 599050218695032939, 599050218695032952, 599050218695032953,
    1142792907958280901523],
  [1142792907958280901522],
  [36028797053043329],
  [1136852661136389570584, 1136852661136389570585, 1136852661136389570586, 1136852661136392716315, 1136852661136392716316,
    1136852661136392716317, 1136852661136405299230, 1136852661136405299231, 1136852661136405299232, 1136852661136405299233,
    1136852661136405299234, 1136852661136405299235, 1136852661136405299236, 1136852661153568391214, 1136852661153568391215,
    1136852661153568391216, 1136852661686144335921, 1136852661686144335922, 1136852661686144335923, 1136852661686144335924,
    1136852661686144335925, 1136852661686144335926, 1136852661686144335927, 1136852661686144335928, 1136852661686144335929,
    1136852661686144335930, 1136852661686144335931, 1137447207755457232956, 1137447207755457232957, 1137447207755457232958,
    1137447207755457232959, 1137447207755457232960, 1137447207755457232961, 1137447207755457232962, 1137447207755457232963,
    1137447207755457232964, 1137447207755457232965, 1137447207755457232966, 1137447207755457232967, 1137447207755457232968,
    1137447207755457232969, 1137447207755457232970, 1137447207755457232971, 1137447207755457232972, 1137447207755457232973,
    1137447207755457232974, 1137447207755457232975, 1137447207755457232976, 1137447207755457232977, 1137447207755457232978,
    1137447207755457232979, 1137447207755457232980, 1137447207755457232981, 1137447207755457232982, 1137447207755457232983,
    1137447207755457232984, 1137447207755457232985, 1137447207755457232991, 1137447207755457232992, 1137447207755457232998,
    1137447207755457233001, 1137447207755457233002, 1137447207755457233003, 1137447207755457233016, 1137447207755457233017,
    1142792907958280901528],
  [36028797019488641, 1142792907958280901529],
  [1136852661136389046431, 1136852661136389046432, 1136884185247170805915, 1136884185247170805916, 1136884185247170805917,
    1137028300435246661634, 1137028300435246661636, 1137028300435246661638, 1137028300435246661643, 1137028300435246661644,
    1137028300435246661762, 1137028300435246661763, 1137028300435246661765, 1137028300435246661767, 1137028300435246661769,
    1137028300435246661771, 1137028300435246661773, 1137028300435246661775, 1137028300435246661777, 1137028300435246661784,
    1137028300435246661785, 1137028300435246661786, 1137028300435246661790, 1137028300435246661793, 1137028300435246661794,
    1137028300435246661796, 1142792907958280896658, 1142792907958280896659, 1142792907958280901270, 1142792907958280901271,
    1180591620717411311625, 1180591620717411311626, 1180591620717411311629, 1180591620717411311630, 1180591620717411311631,
    1180591620717411311632, 1180591620717411311633, 1180591620717411311634, 1180591620717411311635, 1180591620717411311636,
    1180591620717411311637, 1180591620717411311638, 1180591620717411311639, 1180591620717411311741, 1180591620717412229144,
    1180591620717412229145, 1180591620717412229146, 1180591620717415374875, 1180591620717415374876, 1180591620717415374877,
    1180591620717427957790, 1180591620717427957791, 1180591620717427957792, 1180591620717427957793, 1180591620717427957794,
    1180591620717427957795, 1180591620717427957796, 1180591620734591049774, 1180591620734591049775, 1180591620734591049776,
    1180591621267166994481, 1180591621267166994482, 1180591621267166994483, 1180591621267166994484, 1180591621267166994485,
    1180591621267166994486, 1180591621267166994487, 1180591621267166994488, 1180591621267166994489, 1180591621267166994490,
    1180591621267166994491, 1180735735905487159393, 1180735735905487159394, 1181186167336479891516, 1181186167336479891517,
    1181186167336479891518, 1181186167336479891519, 1181186167336479891520, 1181186167336479891521, 1181186167336479891522,
    1181186167336479891523, 1181186167336479891524, 1181186167336479891525, 1181186167336479891526, 1181186167336479891527,
    1181186167336479891528, 1181186167336479891529, 1181186167336479891530, 1181186167336479891531, 1181186167336479891532,
    1181186167336479891537, 1181186167336479891538, 1181186167336479891539, 1181186167336479891540, 1181186167336479891541,
    1181186167336479891542, 1181186167336479891543, 1181186167336479891544, 1181186167336479891545, 1181186167336479891551,
    1181186167336479891552, 1181186167336479891558, 1181186167336479891561, 1181186167336479891562, 1181186167336479891563,
    1181186167336479891576, 1181186167336479891577, 1181186167336479892063, 1181186167336479892064, 1181474397712631603277,
    1181474397712631603278, 1181474397712631603279, 1181474397712631603280, 2317475805964582109347],
  [1136884185247170806683, 1136884185247170806684, 1136884185247170806685],
  [524314, 3670043, 3670044, 3670045, 16252958, 16252959, 16252960, 16252961, 16252962, 16252963, 16252964, 17179344942, 17179344943,
    17179344944, 549755289649, 549755289650, 549755289651, 549755289652, 549755289653, 549755289654, 549755289655, 549755289656, 549755289657,
    549755289658, 549755289659, 594546619068186684, 594546619068186685, 594546619068186686, 594546619068186687, 594546619068186688,
    594546619068186689, 594546619068186690, 594546619068186691, 594546619068186692, 594546619068186693, 594546619068186694, 594546619068186695,
    594546619068186696, 594546619068186697, 594546619068186698, 594546619068186699, 594546619068186700, 594546619068186701, 594546619068186702,
    594546619068186703, 594546619068186704, 594546619068186705, 594546619068186706, 594546619068186707, 594546619068186708, 594546619068186709,
    594546619068186710, 594546619068186711, 594546619068186712, 594546619068186713, 594546619068186719, 594546619068186720, 594546619068186726,
    594546619068186729, 594546619068186730, 594546619068186731, 594546619068186744, 594546619068186745, 1136852661136389047199,
    1136852661136389047200],
  [1142792907958280901538]]

/-- The items of each state, states 192 to 207. -/
def itemRows12 : List (List Nat) := [
  [2317475805964582110115],
  [4503599627894949, 4503599627894950, 1142792907958280901540],
  [2317457792652683387929],
  [2318520713632997581929],
  [324259173171200026, 324259173171200623, 324259173171200625, 324259173174345755, 324259173174345756, 324259173174345757, 324259173186928670,
    324259173186928671, 324259173186928672, 324259173186928673, 324259173186928674, 324259173186928675, 324259173186928676, 324259190350020654,
    324259190350020655, 324259190350020656, 324259722925965361, 324259722925965362, 324259722925965363, 324259722925965364, 324259722925965365,
    324259722925965366, 324259722925965367, 324259722925965368, 324259722925965369, 324259722925965370, 324259722925965371, 918805792238862396,
    918805792238862397, 918805792238862398, 918805792238862399, 918805792238862400, 918805792238862401, 918805792238862402, 918805792238862403,
    918805792238862404, 918805792238862405, 918805792238862406, 918805792238862407, 918805792238862408, 918805792238862409, 918805792238862410,
    918805792238862411, 918805792238862412, 918805792238862413, 918805792238862414, 918805792238862415, 918805792238862416, 918805792238862417,
    918805792238862418, 918805792238862419, 918805792238862420, 918805792238862421, 918805792238862422, 918805792238862423, 918805792238862424,
    918805792238862425, 918805792238862431, 918805792238862432, 918805792238862438, 918805792238862441, 918805792238862442, 918805792238862443,
    918805792238862456, 918805792238862457],
  [2318520713632997581930],
  [2318520713632997581931],
  [36028797019488364, 36028797019488365, 36028797019488370, 36028797019488374, 36028797019488375, 36028797019488884, 36028797019488885,
    324259173171200026, 324259173171200110, 324259173171200111, 324259173171200112, 324259173171200113, 324259173174345755, 324259173174345756,
    324259173174345757, 324259173186928670, 324259173186928671, 324259173186928672, 324259173186928673, 324259173186928674, 324259173186928675,
    324259173186928676, 324259190350020654, 324259190350020655, 324259190350020656, 324259722925965361, 324259722925965362, 324259722925965363,
    324259722925965364, 324259722925965365, 324259722925965366, 324259722925965367, 324259722925965368, 324259722925965369, 324259722925965370,
    324259722925965371, 918805792238862396, 918805792238862397, 918805792238862398, 918805792238862399, 918805792238862400, 918805792238862401,
    918805792238862402, 918805792238862403, 918805792238862404, 918805792238862405, 918805792238862406, 918805792238862407, 918805792238862408,
    918805792238862409, 918805792238862410, 918805792238862411, 918805792238862412, 918805792238862413, 918805792238862414, 918805792238862415,
    918805792238862416, 918805792238862417, 918805792238862418, 918805792238862419, 918805792238862420, 918805792238862421, 918805792238862422,
    918805792238862423, 918805792238862424, 918805792238862425, 918805792238862431, 918805792238862432, 918805792238862438, 918805792238862441,
    918805792238862442, 918805792238862443, 918805792238862456, 918805792238862457],
  [36028797019488282, 36028797019488882, 36028797022634011, 36028797022634012, 36028797022634013, 36028797035216926, 36028797035216927,
    36028797035216928, 36028797035216929, 36028797035216930, 36028797035216931, 36028797035216932, 36028814198308910, 36028814198308911,
    36028814198308912, 36029346774253617, 36029346774253618, 36029346774253619, 36029346774253620, 36029346774253621, 36029346774253622,
    36029346774253623, 36029346774253624, 36029346774253625, 36029346774253626, 36029346774253627, 630575416087150652, 630575416087150653,
    630575416087150654, 630575416087150655, 630575416087150656, 630575416087150657, 630575416087150658, 630575416087150659, 630575416087150660,
    630575416087150661, 630575416087150662, 630575416087150663, 630575416087150664, 630575416087150665, 630575416087150666, 630575416087150667,
    630575416087150668, 630575416087150669, 630575416087150670, 630575416087150671, 630575416087150672, 630575416087150673, 630575416087150674,
    630575416087150675, 630575416087150676, 630575416087150677, 630575416087150678, 630575416087150679, 630575416087150680, 630575416087150681,
    630575416087150687, 630575416087150688, 630575416087150694, 630575416087150697, 630575416087150698, 630575416087150699, 630575416087150712,
    630575416087150713],
  [324259173171200624],
  [2318520713632997581945],
  [4503599627894810, 4503599627894908, 4503599627895419, 4503599631040539, 4503599631040540, 4503599631040541, 4503599643623454,
    4503599643623455, 4503599643623456, 4503599643623457, 4503599643623458, 4503599643623459, 4503599643623460, 4503616806715438,
    4503616806715439, 4503616806715440, 4504149382660145, 4504149382660146, 4504149382660147, 4504149382660148, 4504149382660149,
    4504149382660150, 4504149382660151, 4504149382660152, 4504149382660153, 4504149382660154, 4504149382660155, 599050218695557180,
    599050218695557181, 599050218695557182, 599050218695557183, 599050218695557184, 599050218695557185, 599050218695557186, 599050218695557187,
    599050218695557188, 599050218695557189, 599050218695557190, 599050218695557191, 599050218695557192, 599050218695557193, 599050218695557194,
    599050218695557195, 599050218695557196, 599050218695557197, 599050218695557198, 599050218695557199, 599050218695557200, 599050218695557201,
    599050218695557202, 599050218695557203, 599050218695557204, 599050218695557205, 599050218695557206, 599050218695557207, 599050218695557208,
    599050218695557209, 599050218695557215, 599050218695557216, 599050218695557222, 599050218695557225, 599050218695557226, 599050218695557227,
    599050218695557240, 599050218695557241],
  [1180591620717411312765],
  [4503599627895423],
  [4503599627895422],
  [2318520713632997581912]]

/-- The items of each state, states 208 to 223. -/
def itemRows13 : List (List Nat) := [
  [1180627649514430267994, 1180627649514430267995, 1180627649514430792029],
  [103581704819572903, 103581704819572904, 103581704819572907, 1180627649514430792028, 1180695202422230876329, 1180695202422230876330],
  [2318520713632997581919],
  [1180735735905487159905, 1180735735905487159906, 1180735735905487683610, 1180735735905490829339, 1180735735905490829340,
    1180735735905490829341, 1180735735905503412254, 1180735735905503412255, 1180735735905503412256, 1180735735905503412257,
    1180735735905503412258, 1180735735905503412259, 1180735735905503412260, 1180735735922666504238, 1180735735922666504239,
    1180735735922666504240, 1180735736455242448945, 1180735736455242448946, 1180735736455242448947, 1180735736455242448948,
    1180735736455242448949, 1180735736455242448950, 1180735736455242448951, 1180735736455242448952, 1180735736455242448953,
    1180735736455242448954, 1180735736455242448955, 1181330282524555345980, 1181330282524555345981, 1181330282524555345982,
    1181330282524555345983, 1181330282524555345984, 1181330282524555345985, 1181330282524555345986, 1181330282524555345987,
    1181330282524555345988, 1181330282524555345989, 1181330282524555345990, 1181330282524555345991, 1181330282524555345992,
    1181330282524555345993, 1181330282524555345994, 1181330282524555345995, 1181330282524555345996, 1181330282524555345997,
    1181330282524555345998, 1181330282524555345999, 1181330282524555346000, 1181330282524555346001, 1181330282524555346002,
    1181330282524555346003, 1181330282524555346004, 1181330282524555346005, 1181330282524555346006, 1181330282524555346007,
    1181330282524555346008, 1181330282524555346009, 1181330282524555346015, 1181330282524555346016, 1181330282524555346022,
    1181330282524555346025, 1181330282524555346026, 1181330282524555346027, 1181330282524555346040, 1181330282524555346041],
  [1142792907958280901779],
  [1136884185247170805927, 1136884185247170805928, 1136884185247170805931, 1142792907958280901778, 2317475805964582109353,
    2317475805964582109354],
  [36028797053043585],
  [5764607523034235026, 5764607523034235027, 1136852661136389046431, 1136852661136389046432, 1136852661136389570841, 1136884185247170805915,
    1136884185247170805916, 1136884185247170805917, 1142792907958280900616, 1142792907958280900740, 1142792907958280900742,
    1142792907958280900744, 1142792907958280900746, 1142792907958280900748, 1142792907958280900750, 1142792907958280900752,
    1142792907958280900753, 1142792907958280900757, 1142792907958280900759, 1142792907958280900760, 1142792907958280900761,
    1142792907958280900762, 1142792907958280900766, 1142792907958280900769, 1142792907958280900770, 1142792907958280900772,
    1142792907958280901784, 2317475805964582109347],
  [1142792907958280901785],
  [1137028300435246661899],
  [1136852661136389046431, 1136852661136389046432, 1136884185247170805915, 1136884185247170805916, 1136884185247170805917,
    1137028300435246661634, 1137028300435246661636, 1137028300435246661638, 1137028300435246661762, 1137028300435246661763,
    1137028300435246661765, 1137028300435246661767, 1137028300435246661769, 1137028300435246661771, 1137028300435246661773,
    1137028300435246661775, 1137028300435246661777, 1137028300435246661784, 1137028300435246661785, 1137028300435246661786,
    1137028300435246661790, 1137028300435246661793, 1137028300435246661794, 1137028300435246661796, 1137028300435246661900,
    1142792907958280896658, 1142792907958280896659, 1142792907958280901526, 1142792907958280901527, 1180591620717411311625,
    1180591620717411311626, 1180591620717411311629, 1180591620717411311630, 1180591620717411311631, 1180591620717411311632,
    1180591620717411311633, 1180591620717411311634, 1180591620717411311635, 1180591620717411311636, 1180591620717411311637,
    1180591620717411311638, 1180591620717411311639, 1180591620717411311741, 1180591620717412229144, 1180591620717412229145,
    1180591620717412229146, 1180591620717415374875, 1180591620717415374876, 1180591620717415374877, 1180591620717427957790,
    1180591620717427957791, 1180591620717427957792, 1180591620717427957793, 1180591620717427957794, 1180591620717427957795,
    1180591620717427957796, 1180591620734591049774, 1180591620734591049775, 1180591620734591049776, 1180591621267166994481,
    1180591621267166994482, 1180591621267166994483, 1180591621267166994484, 1180591621267166994485, 1180591621267166994486,
    1180591621267166994487, 1180591621267166994488, 1180591621267166994489, 1180591621267166994490, 1180591621267166994491,
    1181186167336479891516, 1181186167336479891517, 1181186167336479891518, 1181186167336479891519, 1181186167336479891520,
    1181186167336479891521, 1181186167336479891522, 1181186167336479891523, 1181186167336479891524, 1181186167336479891525,
    1181186167336479891526, 1181186167336479891527, 1181186167336479891528, 1181186167336479891529, 1181186167336479891530,
    1181186167336479891531, 1181186167336479891532, 1181186167336479891533, 1181186167336479891534, 1181186167336479891535,
    1181186167336479891536, 1181186167336479891537, 1181186167336479891538, 1181186167336479891539, 1181186167336479891540,
    1181186167336479891541, 1181186167336479891542, 1181186167336479891543, 1181186167336479891544, 1181186167336479891545,
    1181186167336479891551, 1181186167336479891552, 1181186167336479891558, 1181186167336479891561, 1181186167336479891562,
    1181186167336479891563, 1181186167336479891576, 1181186167336479891577, 2317475805964582109347],
  [1180735735905487159649, 1180735735905487159650, 1181186167336479891782],
  [1136884185247170806939, 1136884185247170806940, 1136884185247170806941],
  [1136852661136389047455, 1136852661136389047456],
  [2317475805964582110371],
  [4503599627895206, 1142792907958280901796]]

/-- The items of each state, states 224 to 239. -/
def itemRows14 : List (List Nat) := [
  [4503599627895205],
  [324259173171200879],
  [36028797019488630, 324259173171200367, 324259173171200369],
  [36028797019489140, 36028797019489141],
  [36028797019488631],
  [36028797019489138],
  [4503599627895675],
  [4503599627895679],
  [4503599627894810, 4503599627895678, 4503599631040539, 4503599631040540, 4503599631040541, 4503599643623454, 4503599643623455,
    4503599643623456, 4503599643623457, 4503599643623458, 4503599643623459, 4503599643623460, 4503616806715438, 4503616806715439,
    4503616806715440, 4504149382660145, 4504149382660146, 4504149382660147, 4504149382660148, 4504149382660149, 4504149382660150,
    4504149382660151, 4504149382660152, 4504149382660153, 4504149382660154, 4504149382660155, 599050218695557180, 599050218695557181,
    599050218695557182, 599050218695557183, 599050218695557184, 599050218695557185, 599050218695557186, 599050218695557187, 599050218695557188,
    599050218695557189, 599050218695557190, 599050218695557191, 599050218695557192, 599050218695557193, 599050218695557194, 599050218695557195,
    599050218695557196, 599050218695557197, 599050218695557198, 599050218695557199, 599050218695557200, 599050218695557201, 599050218695557202,
    599050218695557203, 599050218695557204, 599050218695557205, 599050218695557206, 599050218695557207, 599050218695557208, 599050218695557209,
    599050218695557215, 599050218695557216, 599050218695557222, 599050218695557225, 599050218695557226, 599050218695557227, 599050218695557240,
    599050218695557241],
  [2318520713632997582168],
  [103581704819572903, 103581704819572904, 103581704819572907, 1180627649514430792285, 1180695202422230876329, 1180695202422230876330],
  [1180627649514430791706, 1180627649514430792284, 1180627649514433937435, 1180627649514433937436, 1180627649514433937437,
    1180627649514446520350, 1180627649514446520351, 1180627649514446520352, 1180627649514446520353, 1180627649514446520354,
    1180627649514446520355, 1180627649514446520356, 1180627649531609612334, 1180627649531609612335, 1180627649531609612336,
    1180627650064185557041, 1180627650064185557042, 1180627650064185557043, 1180627650064185557044, 1180627650064185557045,
    1180627650064185557046, 1180627650064185557047, 1180627650064185557048, 1180627650064185557049, 1180627650064185557050,
    1180627650064185557051, 1181222196133498454076, 1181222196133498454077, 1181222196133498454078, 1181222196133498454079,
    1181222196133498454080, 1181222196133498454081, 1181222196133498454082, 1181222196133498454083, 1181222196133498454084,
    1181222196133498454085, 1181222196133498454086, 1181222196133498454087, 1181222196133498454088, 1181222196133498454089,
    1181222196133498454090, 1181222196133498454091, 1181222196133498454092, 1181222196133498454093, 1181222196133498454094,
    1181222196133498454095, 1181222196133498454096, 1181222196133498454097, 1181222196133498454098, 1181222196133498454099,
    1181222196133498454100, 1181222196133498454101, 1181222196133498454102, 1181222196133498454103, 1181222196133498454104,
    1181222196133498454105, 1181222196133498454111, 1181222196133498454112, 1181222196133498454118, 1181222196133498454121,
    1181222196133498454122, 1181222196133498454123, 1181222196133498454136, 1181222196133498454137],
  [2318520713632997582175],
  [1180735735905487159397, 1180735735905487160161, 1180735735905487160162, 1180735735905487683683, 1180735735905487683684],
  [1136884185247170805927, 1136884185247170805928, 1136884185247170805931, 1142792907958280902035, 2317475805964582109353,
    2317475805964582109354],
  [5764607523034235026, 5764607523034235027, 1136852661136389046431, 1136852661136389046432, 1136884185247170805915, 1136884185247170805916,
    1136884185247170805917, 1142792907958280900611, 1142792907958280900613, 1142792907958280900615, 1142792907958280900740,
    1142792907958280900742, 1142792907958280900744, 1142792907958280900746, 1142792907958280900748, 1142792907958280900750,
    1142792907958280900752, 1142792907958280900753, 1142792907958280900756, 1142792907958280900758, 1142792907958280900760,
    1142792907958280900761, 1142792907958280900762, 1142792907958280900766, 1142792907958280900769, 1142792907958280900770,
    1142792907958280900772, 1142792907958280902034, 1180591620717411311625, 1180591620717411311626, 1180591620717411311629,
    1180591620717411311630, 1180591620717411311631, 1180591620717411311632, 1180591620717411311633, 1180591620717411311634,
    1180591620717411311635, 1180591620717411311636, 1180591620717411311637, 1180591620717411311638, 1180591620717411311639,
    1180591620717411311741, 1180591620717412229144, 1180591620717412229145, 1180591620717412229146, 1180591620717415374875,
    1180591620717415374876, 1180591620717415374877, 1180591620717427957790, 1180591620717427957791, 1180591620717427957792,
    1180591620717427957793, 1180591620717427957794, 1180591620717427957795, 1180591620717427957796, 1180591620734591049774,
    1180591620734591049775, 1180591620734591049776, 1180591621267166994481, 1180591621267166994482, 1180591621267166994483,
    1180591621267166994484, 1180591621267166994485, 1180591621267166994486, 1180591621267166994487, 1180591621267166994488,
    1180591621267166994489, 1180591621267166994490, 1180591621267166994491, 1181186167336479891516, 1181186167336479891517,
    1181186167336479891518, 1181186167336479891519, 1181186167336479891520, 1181186167336479891521, 1181186167336479891522,
    1181186167336479891523, 1181186167336479891524, 1181186167336479891525, 1181186167336479891526, 1181186167336479891527,
    1181186167336479891528, 1181186167336479891529, 1181186167336479891530, 1181186167336479891531, 1181186167336479891532,
    1181186167336479891533, 1181186167336479891534, 1181186167336479891535, 1181186167336479891536, 1181186167336479891537,
    1181186167336479891538, 1181186167336479891539, 1181186167336479891540, 1181186167336479891541, 1181186167336479891542,
    1181186167336479891543, 1181186167336479891544, 1181186167336479891545, 1181186167336479891551, 1181186167336479891552,
    1181186167336479891558, 1181186167336479891561, 1181186167336479891562, 1181186167336479891563, 1181186167336479891576,
    1181186167336479891577, 2317475805964582109347]]

/-- The items of each state, states 240 to 255. -/
def itemRows15 : List (List Nat) := [
  [1142792907958280902040],
  [1136852661136389570584, 1136852661136389570585, 1136852661136389570586, 1136852661136392716315, 1136852661136392716316,
    1136852661136392716317, 1136852661136405299230, 1136852661136405299231, 1136852661136405299232, 1136852661136405299233,
    1136852661136405299234, 1136852661136405299235, 1136852661136405299236, 1136852661153568391214, 1136852661153568391215,
    1136852661153568391216, 1136852661686144335921, 1136852661686144335922, 1136852661686144335923, 1136852661686144335924,
    1136852661686144335925, 1136852661686144335926, 1136852661686144335927, 1136852661686144335928, 1136852661686144335929,
    1136852661686144335930, 1136852661686144335931, 1137447207755457232956, 1137447207755457232957, 1137447207755457232958,
    1137447207755457232959, 1137447207755457232960, 1137447207755457232961, 1137447207755457232962, 1137447207755457232963,
    1137447207755457232964, 1137447207755457232965, 1137447207755457232966, 1137447207755457232967, 1137447207755457232968,
    1137447207755457232969, 1137447207755457232970, 1137447207755457232971, 1137447207755457232972, 1137447207755457232973,
    1137447207755457232974, 1137447207755457232975, 1137447207755457232976, 1137447207755457232977, 1137447207755457232978,
    1137447207755457232979, 1137447207755457232980, 1137447207755457232981, 1137447207755457232982, 1137447207755457232983,
    1137447207755457232984, 1137447207755457232985, 1137447207755457232991, 1137447207755457232992, 1137447207755457232998,
    1137447207755457233001, 1137447207755457233002, 1137447207755457233003, 1137447207755457233016, 1137447207755457233017,
    1142792907958280902041],
  [1137028300435246662156],
  [1142792907958280900775, 1142792907958280900776, 1142792907958280900779, 1142792907958280901782, 1142792907958280901783,
    2323384528675692204201, 2323384528675692204202],
  [1136884185247170807196, 1136884185247170807197],
  [1136852661136389047711, 1136852661136389047712, 1136852661136389570586, 1136852661136392716315, 1136852661136392716316,
    1136852661136392716317, 1136852661136405299230, 1136852661136405299231, 1136852661136405299232, 1136852661136405299233,
    1136852661136405299234, 1136852661136405299235, 1136852661136405299236, 1136852661153568391214, 1136852661153568391215,
    1136852661153568391216, 1136852661686144335921, 1136852661686144335922, 1136852661686144335923, 1136852661686144335924,
    1136852661686144335925, 1136852661686144335926, 1136852661686144335927, 1136852661686144335928, 1136852661686144335929,
    1136852661686144335930, 1136852661686144335931, 1137447207755457232956, 1137447207755457232957, 1137447207755457232958,
    1137447207755457232959, 1137447207755457232960, 1137447207755457232961, 1137447207755457232962, 1137447207755457232963,
    1137447207755457232964, 1137447207755457232965, 1137447207755457232966, 1137447207755457232967, 1137447207755457232968,
    1137447207755457232969, 1137447207755457232970, 1137447207755457232971, 1137447207755457232972, 1137447207755457232973,
    1137447207755457232974, 1137447207755457232975, 1137447207755457232976, 1137447207755457232977, 1137447207755457232978,
    1137447207755457232979, 1137447207755457232980, 1137447207755457232981, 1137447207755457232982, 1137447207755457232983,
    1137447207755457232984, 1137447207755457232985, 1137447207755457232991, 1137447207755457232992, 1137447207755457232998,
    1137447207755457233001, 1137447207755457233002, 1137447207755457233003, 1137447207755457233016, 1137447207755457233017],
  [5764607523034235026, 5764607523034235027, 1136852661136389046431, 1136852661136389046432, 1136884185247170805915, 1136884185247170805916,
    1136884185247170805917, 1142792907958280900611, 1142792907958280900613, 1142792907958280900615, 1142792907958280900740,
    1142792907958280900742, 1142792907958280900744, 1142792907958280900746, 1142792907958280900748, 1142792907958280900750,
    1142792907958280900752, 1142792907958280900753, 1142792907958280900756, 1142792907958280900758, 1142792907958280900760,
    1142792907958280900761, 1142792907958280900762, 1142792907958280900766, 1142792907958280900769, 1142792907958280900770,
    1142792907958280900772, 1142792907958280902052, 1180591620717411311625, 1180591620717411311626, 1180591620717411311629,
    1180591620717411311630, 1180591620717411311631, 1180591620717411311632, 1180591620717411311633, 1180591620717411311634,
    1180591620717411311635, 1180591620717411311636, 1180591620717411311637, 1180591620717411311638, 1180591620717411311639,
    1180591620717411311741, 1180591620717412229144, 1180591620717412229145, 1180591620717412229146, 1180591620717415374875,
    1180591620717415374876, 1180591620717415374877, 1180591620717427957790, 1180591620717427957791, 1180591620717427957792,
    1180591620717427957793, 1180591620717427957794, 1180591620717427957795, 1180591620717427957796, 1180591620734591049774,
    1180591620734591049775, 1180591620734591049776, 1180591621267166994481, 1180591621267166994482, 1180591621267166994483,
    1180591621267166994484, 1180591621267166994485, 1180591621267166994486, 1180591621267166994487, 1180591621267166994488,
    1180591621267166994489, 1180591621267166994490, 1180591621267166994491, 1181186167336479891516, 1181186167336479891517,
    1181186167336479891518, 1181186167336479891519, 1181186167336479891520, 1181186167336479891521, 1181186167336479891522,
    1181186167336479891523, 1181186167336479891524, 1181186167336479891525, 1181186167336479891526, 1181186167336479891527,
    1181186167336479891528, 1181186167336479891529, 1181186167336479891530, 1181186167336479891531, 1181186167336479891532,
    1181186167336479891533, 1181186167336479891534, 1181186167336479891535, 1181186167336479891536, 1181186167336479891537,
    1181186167336479891538, 1181186167336479891539, 1181186167336479891540, 1181186167336479891541, 1181186167336479891542,
    1181186167336479891543, 1181186167336479891544, 1181186167336479891545, 1181186167336479891551, 1181186167336479891552,
    1181186167336479891558, 1181186167336479891561, 1181186167336479891562, 1181186167336479891563, 1181186167336479891576,
    1181186167336479891577, 2317475805964582109347],
  [4503599627895462],
  [4503599627894872, 4503599627894873, 4503599627895461],
  [4503599627895935],
  [4503599627895934],
  [1180627649514430791706, 1180627649514430792541, 1180627649514433937435, 1180627649514433937436, 1180627649514433937437,
    1180627649514446520350, 1180627649514446520351, 1180627649514446520352, 1180627649514446520353, 1180627649514446520354,
    1180627649514446520355, 1180627649514446520356, 1180627649531609612334, 1180627649531609612335, 1180627649531609612336,
    1180627650064185557041, 1180627650064185557042, 1180627650064185557043, 1180627650064185557044, 1180627650064185557045,
    1180627650064185557046, 1180627650064185557047, 1180627650064185557048, 1180627650064185557049, 1180627650064185557050,
    1180627650064185557051, 1181222196133498454076, 1181222196133498454077, 1181222196133498454078, 1181222196133498454079,
    1181222196133498454080, 1181222196133498454081, 1181222196133498454082, 1181222196133498454083, 1181222196133498454084,
    1181222196133498454085, 1181222196133498454086, 1181222196133498454087, 1181222196133498454088, 1181222196133498454089,
    1181222196133498454090, 1181222196133498454091, 1181222196133498454092, 1181222196133498454093, 1181222196133498454094,
    1181222196133498454095, 1181222196133498454096, 1181222196133498454097, 1181222196133498454098, 1181222196133498454099,
    1181222196133498454100, 1181222196133498454101, 1181222196133498454102, 1181222196133498454103, 1181222196133498454104,
    1181222196133498454105, 1181222196133498454111, 1181222196133498454112, 1181222196133498454118, 1181222196133498454121,
    1181222196133498454122, 1181222196133498454123, 1181222196133498454136, 1181222196133498454137],
  [1180627649514430792540],
  [1180735735905487160417, 1180735735905487160418, 1180735735905487683940],
  [1970324836974759, 1970324836974760, 1970324836974763, 1180593591042248278185, 1180593591042248278186, 1180735735905487683939],
  [5764607523034235026, 5764607523034235027, 1136852661136389046431, 1136852661136389046432, 1136884185247170805915, 1136884185247170805916,
    1136884185247170805917, 1142792907958280900611, 1142792907958280900613, 1142792907958280900615, 1142792907958280900740,
    1142792907958280900742, 1142792907958280900744, 1142792907958280900746, 1142792907958280900748, 1142792907958280900750,
    1142792907958280900752, 1142792907958280900753, 1142792907958280900756, 1142792907958280900758, 1142792907958280900760,
    1142792907958280900761, 1142792907958280900762, 1142792907958280900766, 1142792907958280900769, 1142792907958280900770,
    1142792907958280900772, 1142792907958280902291, 1180591620717411311625, 1180591620717411311626, 1180591620717411311629,
    1180591620717411311630, 1180591620717411311631, 1180591620717411311632, 1180591620717411311633, 1180591620717411311634,
    1180591620717411311635, 1180591620717411311636, 1180591620717411311637, 1180591620717411311638, 1180591620717411311639,
    1180591620717411311741, 1180591620717412229144, 1180591620717412229145, 1180591620717412229146, 1180591620717415374875,
    1180591620717415374876, 1180591620717415374877, 1180591620717427957790, 1180591620717427957791, 1180591620717427957792,
    1180591620717427957793, 1180591620717427957794, 1180591620717427957795, 1180591620717427957796, 1180591620734591049774,
    1180591620734591049775, 1180591620734591049776, 1180591621267166994481, 1180591621267166994482, 1180591621267166994483,
    1180591621267166994484, 1180591621267166994485, 1180591621267166994486, 1180591621267166994487, 1180591621267166994488,
    1180591621267166994489, 1180591621267166994490, 1180591621267166994491, 1181186167336479891516, 1181186167336479891517,
    1181186167336479891518, 1181186167336479891519, 1181186167336479891520, 1181186167336479891521, 1181186167336479891522,
    1181186167336479891523, 1181186167336479891524, 1181186167336479891525, 1181186167336479891526, 1181186167336479891527,
    1181186167336479891528, 1181186167336479891529, 1181186167336479891530, 1181186167336479891531, 1181186167336479891532,
    1181186167336479891533, 1181186167336479891534, 1181186167336479891535, 1181186167336479891536, 1181186167336479891537,
    1181186167336479891538, 1181186167336479891539, 1181186167336479891540, 1181186167336479891541, 1181186167336479891542,
    1181186167336479891543, 1181186167336479891544, 1181186167336479891545, 1181186167336479891551, 1181186167336479891552,
    1181186167336479891558, 1181186167336479891561, 1181186167336479891562, 1181186167336479891563, 1181186167336479891576,
    1181186167336479891577, 2317475805964582109347]]

/-- The items of each state, states 256 to 271. -/
def itemRows16 : List (List Nat) := [
  [1142792907958280902290],
  [5764607523034235026, 5764607523034235027, 1136852661136389046431, 1136852661136389046432, 1136852661136389570841, 1136884185247170805915,
    1136884185247170805916, 1136884185247170805917, 1142792907958280900616, 1142792907958280900740, 1142792907958280900742,
    1142792907958280900744, 1142792907958280900746, 1142792907958280900748, 1142792907958280900750, 1142792907958280900752,
    1142792907958280900753, 1142792907958280900757, 1142792907958280900759, 1142792907958280900760, 1142792907958280900761,
    1142792907958280900762, 1142792907958280900766, 1142792907958280900769, 1142792907958280900770, 1142792907958280900772,
    1142792907958280902297, 2317475805964582109347],
  [1142792907958280902038, 1142792907958280902039],
  [1099511627816, 1099511627817, 1099511627818, 1099511627819, 1099511627820, 1099511627821, 1136884185247170807452, 1136884185247170807453],
  [1136852661136389047967, 1136852661136389047968],
  [1142792907958280902308],
  [4503599627895718],
  [4503599627895717],
  [4503599627894810, 4503599627896191, 4503599631040539, 4503599631040540, 4503599631040541, 4503599643623454, 4503599643623455,
    4503599643623456, 4503599643623457, 4503599643623458, 4503599643623459, 4503599643623460, 4503616806715438, 4503616806715439,
    4503616806715440, 4504149382660145, 4504149382660146, 4504149382660147, 4504149382660148, 4504149382660149, 4504149382660150,
    4504149382660151, 4504149382660152, 4504149382660153, 4504149382660154, 4504149382660155, 599050218695557180, 599050218695557181,
    599050218695557182, 599050218695557183, 599050218695557184, 599050218695557185, 599050218695557186, 599050218695557187, 599050218695557188,
    599050218695557189, 599050218695557190, 599050218695557191, 599050218695557192, 599050218695557193, 599050218695557194, 599050218695557195,
    599050218695557196, 599050218695557197, 599050218695557198, 599050218695557199, 599050218695557200, 599050218695557201, 599050218695557202,
    599050218695557203, 599050218695557204, 599050218695557205, 599050218695557206, 599050218695557207, 599050218695557208, 599050218695557209,
    599050218695557215, 599050218695557216, 599050218695557222, 599050218695557225, 599050218695557226, 599050218695557227, 599050218695557240,
    599050218695557241],
  [1180627649514430792797],
  [1970324836974759, 1970324836974760, 1970324836974763, 1180593591042248278185, 1180593591042248278186, 1180735735905487684196],
  [288230376151711821, 288230376151711822, 288230376151711823, 288230376151711824, 1180735735905487684195],
  [1142792907958280902547],
  [1142792907958280902553],
  [1136884185247170807709],
  [1136852661136389046298, 1136852661136389048224, 1136852661136392192027, 1136852661136392192028, 1136852661136392192029,
    1136852661136404774942, 1136852661136404774943, 1136852661136404774944, 1136852661136404774945, 1136852661136404774946,
    1136852661136404774947, 1136852661136404774948, 1136852661153567866926, 1136852661153567866927, 1136852661153567866928,
    1136852661686143811633, 1136852661686143811634, 1136852661686143811635, 1136852661686143811636, 1136852661686143811637,
    1136852661686143811638, 1136852661686143811639, 1136852661686143811640, 1136852661686143811641, 1136852661686143811642,
    1136852661686143811643, 1137447207755456708668, 1137447207755456708669, 1137447207755456708670, 1137447207755456708671,
    1137447207755456708672, 1137447207755456708673, 1137447207755456708674, 1137447207755456708675, 1137447207755456708676,
    1137447207755456708677, 1137447207755456708678, 1137447207755456708679, 1137447207755456708680, 1137447207755456708681,
    1137447207755456708682, 1137447207755456708683, 1137447207755456708684, 1137447207755456708685, 1137447207755456708686,
    1137447207755456708687, 1137447207755456708688, 1137447207755456708689, 1137447207755456708690, 1137447207755456708691,
    1137447207755456708692, 1137447207755456708693, 1137447207755456708694, 1137447207755456708695, 1137447207755456708696,
    1137447207755456708697, 1137447207755456708703, 1137447207755456708704, 1137447207755456708710, 1137447207755456708713,
    1137447207755456708714, 1137447207755456708715, 1137447207755456708728, 1137447207755456708729]]

/-- The items of each state, states 272 to 283. -/
def itemRows17 : List (List Nat) := [
  [4503599627894872, 4503599627894873, 4503599627895974],
  [4503599627896447],
  [288230376151711821, 288230376151711822, 288230376151711823, 288230376151711824, 1180735735905487684452],
  [1180735735905487684451],
  [1136884185247170807965],
  [1136852661136389048480],
  [4503599627896230],
  [1180735735905487684708],
  [1180735735905487683610, 1180735735905487684707, 1180735735905490829339, 1180735735905490829340, 1180735735905490829341,
    1180735735905503412254, 1180735735905503412255, 1180735735905503412256, 1180735735905503412257, 1180735735905503412258,
    1180735735905503412259, 1180735735905503412260, 1180735735922666504238, 1180735735922666504239, 1180735735922666504240,
    1180735736455242448945, 1180735736455242448946, 1180735736455242448947, 1180735736455242448948, 1180735736455242448949,
    1180735736455242448950, 1180735736455242448951, 1180735736455242448952, 1180735736455242448953, 1180735736455242448954,
    1180735736455242448955, 1181330282524555345980, 1181330282524555345981, 1181330282524555345982, 1181330282524555345983,
    1181330282524555345984, 1181330282524555345985, 1181330282524555345986, 1181330282524555345987, 1181330282524555345988,
    1181330282524555345989, 1181330282524555345990, 1181330282524555345991, 1181330282524555345992, 1181330282524555345993,
    1181330282524555345994, 1181330282524555345995, 1181330282524555345996, 1181330282524555345997, 1181330282524555345998,
    1181330282524555345999, 1181330282524555346000, 1181330282524555346001, 1181330282524555346002, 1181330282524555346003,
    1181330282524555346004, 1181330282524555346005, 1181330282524555346006, 1181330282524555346007, 1181330282524555346008,
    1181330282524555346009, 1181330282524555346015, 1181330282524555346016, 1181330282524555346022, 1181330282524555346025,
    1181330282524555346026, 1181330282524555346027, 1181330282524555346040, 1181330282524555346041],
  [1180735735905487683610, 1180735735905487684964, 1180735735905490829339, 1180735735905490829340, 1180735735905490829341,
    1180735735905503412254, 1180735735905503412255, 1180735735905503412256, 1180735735905503412257, 1180735735905503412258,
    1180735735905503412259, 1180735735905503412260, 1180735735922666504238, 1180735735922666504239, 1180735735922666504240,
    1180735736455242448945, 1180735736455242448946, 1180735736455242448947, 1180735736455242448948, 1180735736455242448949,
    1180735736455242448950, 1180735736455242448951, 1180735736455242448952, 1180735736455242448953, 1180735736455242448954,
    1180735736455242448955, 1181330282524555345980, 1181330282524555345981, 1181330282524555345982, 1181330282524555345983,
    1181330282524555345984, 1181330282524555345985, 1181330282524555345986, 1181330282524555345987, 1181330282524555345988,
    1181330282524555345989, 1181330282524555345990, 1181330282524555345991, 1181330282524555345992, 1181330282524555345993,
    1181330282524555345994, 1181330282524555345995, 1181330282524555345996, 1181330282524555345997, 1181330282524555345998,
    1181330282524555345999, 1181330282524555346000, 1181330282524555346001, 1181330282524555346002, 1181330282524555346003,
    1181330282524555346004, 1181330282524555346005, 1181330282524555346006, 1181330282524555346007, 1181330282524555346008,
    1181330282524555346009, 1181330282524555346015, 1181330282524555346016, 1181330282524555346022, 1181330282524555346025,
    1181330282524555346026, 1181330282524555346027, 1181330282524555346040, 1181330282524555346041],
  [1180735735905487684963],
  [1180735735905487685220]]

/-- The items of each state. -/
def itemRows : List (List (List Nat)) := [itemRows0, itemRows1, itemRows2, itemRows3, itemRows4, itemRows5, itemRows6, itemRows7, itemRows8, itemRows9, itemRows10, itemRows11, itemRows12, itemRows13, itemRows14, itemRows15, itemRows16, itemRows17]

/-- Numbers that go down with each reduction, states 0 to 15. -/
def potRows0 : List (List Nat) := [
  [2178, 2179, 2180, 2188, 2196, 2197, 2204, 2205, 2206, 2207, 2208, 2209, 2210, 2211, 2212, 2213, 2214, 2215, 2217, 2218, 2220, 2225, 2227,
    2228, 2230, 2231, 2232, 2233],
  [],
  [],
  [64, 66, 67, 68, 76, 84, 85, 92, 93, 94, 95, 96, 97, 98, 99, 100, 101, 102, 103, 105, 106, 107, 108, 109, 112, 113, 114, 115, 116, 118, 119,
    120, 121],
  [64, 66, 67, 68, 76, 84, 85, 92, 93, 94, 95, 96, 97, 98, 99, 100, 101, 102, 103, 105, 106, 107, 108, 109, 112, 113, 114, 115, 116, 118, 119,
    120, 121],
  [122, 128, 130, 131, 132, 140, 148, 149, 156, 157, 158, 159, 160, 161, 162, 163, 164, 165, 166, 167, 169, 170, 171, 172, 173, 176, 177, 178,
    179, 180, 182, 183, 184, 185],
  [],
  [],
  [128, 130, 131, 132, 140, 148, 149, 156, 157, 158, 159, 160, 161, 162, 163, 164, 165, 166, 167, 169, 170, 172, 173, 176, 177, 178, 179, 180,
    182, 183, 184, 185],
  [65, 122],
  [129, 186],
  [129, 186],
  [129, 186],
  [129, 186],
  [193, 250],
  [193, 250]]

/-- Numbers that go down with each reduction, states 16 to 31. -/
def potRows1 : List (List Nat) := [
  [],
  [193, 250],
  [193, 250],
  [66, 67, 68, 69, 70, 71, 76, 84, 85, 92, 93, 94, 95, 96, 97, 98, 99, 100, 101, 102, 103, 104, 105, 106, 108, 113, 115, 116, 118, 119, 120,
    121, 257, 314],
  [110, 130, 131, 132, 133, 134, 140, 148, 149, 156, 157, 158, 159, 160, 161, 162, 163, 164, 165, 166, 167, 169, 170, 172, 177, 179, 180, 182,
    183, 184, 185, 199, 232, 321, 2221, 2234, 2411],
  [72, 73, 174, 194, 195, 196, 197, 198, 204, 212, 213, 220, 221, 222, 223, 224, 225, 226, 227, 228, 229, 230, 231, 233, 234, 236, 241, 243,
    244, 246, 247, 248, 249, 263, 296, 385, 2285, 2298, 2475],
  [74, 75, 136, 137, 238, 258, 259, 260, 261, 262, 268, 276, 277, 284, 285, 286, 287, 288, 289, 290, 291, 292, 293, 294, 295, 297, 298, 300,
    305, 307, 308, 310, 311, 312, 313, 327, 360, 449, 2349, 2362, 2539],
  [138, 139, 200, 201, 302, 322, 323, 324, 325, 326, 332, 340, 341, 348, 349, 350, 351, 352, 353, 354, 355, 356, 357, 358, 359, 361, 362, 364,
    369, 371, 372, 374, 375, 376, 377, 391, 424, 513, 2413, 2426, 2603],
  [],
  [202, 203, 264, 265, 366, 386, 387, 388, 389, 390, 412, 413, 414, 415, 416, 417, 418, 419, 420, 421, 422, 423, 425, 426, 428, 433, 435, 436,
    438, 439, 440, 441, 455, 488, 577, 2477, 2490, 2667],
  [76, 77, 78, 79, 80, 81, 82, 83, 84, 85, 266, 267, 328, 329, 430, 450, 451, 452, 453, 454, 476, 477, 478, 479, 480, 481, 482, 483, 484, 485,
    486, 487, 489, 490, 492, 497, 499, 500, 502, 503, 504, 505, 519, 552, 641, 2541, 2554, 2731],
  [86, 87, 88, 89, 90, 140, 141, 142, 143, 144, 145, 146, 147, 148, 149, 330, 331, 392, 393, 494, 514, 515, 516, 517, 518, 540, 541, 542, 543,
    544, 545, 546, 547, 548, 549, 550, 551, 553, 554, 556, 561, 563, 564, 566, 567, 568, 569, 583, 616, 705, 2605, 2618, 2795],
  [150, 151, 152, 153, 154, 204, 205, 206, 207, 208, 209, 210, 211, 212, 213, 394, 395, 456, 457, 558, 578, 579, 580, 581, 582, 604, 605, 606,
    607, 608, 609, 610, 611, 612, 613, 614, 615, 617, 618, 620, 625, 627, 628, 630, 631, 632, 633, 647, 680, 769, 2669, 2682, 2859],
  [],
  [],
  [214, 215, 216, 217, 218, 268, 269, 270, 271, 272, 273, 274, 275, 276, 277, 458, 459, 520, 521, 622, 642, 643, 644, 645, 646, 668, 669, 670,
    671, 672, 673, 675, 676, 677, 678, 679, 681, 684, 689, 691, 692, 694, 695, 696, 697, 711, 744, 833, 2733, 2746, 2923]]

/-- Numbers that go down with each reduction, states 32 to 47. -/
def potRows2 : List (List Nat) := [
  [91, 98, 106, 111, 278, 279, 280, 281, 282, 332, 333, 334, 335, 336, 337, 338, 339, 340, 341, 522, 523, 584, 585, 686, 706, 707, 708, 709,
    710, 732, 733, 734, 735, 736, 737, 739, 740, 741, 742, 743, 745, 748, 753, 755, 756, 758, 759, 760, 761, 775, 808, 897, 2797, 2810, 2987],
  [91, 98, 106, 111, 278, 279, 280, 281, 282, 332, 333, 334, 335, 336, 337, 338, 339, 340, 341, 522, 523, 584, 585, 686, 706, 707, 708, 709,
    710, 732, 733, 734, 735, 736, 737, 739, 740, 741, 742, 743, 745, 748, 753, 755, 756, 758, 759, 760, 761, 775, 808, 897, 2797, 2810, 2987],
  [91, 98, 106, 111, 278, 279, 280, 281, 282, 332, 333, 334, 335, 336, 337, 338, 339, 340, 341, 522, 523, 584, 585, 686, 706, 707, 708, 709,
    710, 732, 733, 734, 735, 736, 737, 739, 740, 741, 742, 743, 745, 748, 753, 755, 756, 758, 759, 760, 761, 775, 808, 897, 2797, 2810, 2987],
  [91, 98, 106, 111, 278, 279, 280, 281, 282, 332, 333, 334, 335, 336, 337, 338, 339, 340, 341, 522, 523, 584, 585, 686, 706, 707, 708, 709,
    710, 732, 733, 734, 735, 736, 737, 739, 740, 741, 742, 743, 745, 748, 753, 755, 756, 758, 759, 760, 761, 775, 808, 897, 2797, 2810, 2987],
  [91, 98, 106, 111, 278, 279, 280, 281, 282, 332, 333, 334, 335, 336, 337, 338, 339, 340, 341, 522, 523, 584, 585, 686, 706, 707, 708, 709,
    710, 732, 733, 734, 735, 736, 737, 739, 740, 741, 742, 743, 745, 748, 753, 755, 756, 758, 759, 760, 761, 775, 808, 897, 2797, 2810, 2987],
  [155, 162, 170, 175, 342, 343, 344, 345, 346, 396, 397, 398, 399, 400, 401, 402, 403, 404, 405, 586, 587, 648, 649, 773, 774, 839, 961,
    2874],
  [155, 162, 170, 175, 342, 343, 344, 345, 346, 396, 397, 398, 399, 400, 401, 402, 403, 404, 405, 586, 587, 648, 649, 750, 770, 771, 772, 773,
    774, 796, 797, 798, 799, 800, 801, 803, 804, 805, 806, 807, 809, 812, 817, 819, 820, 822, 823, 824, 825, 839, 872, 961, 2861, 2874, 3051],
  [155, 162, 170, 175, 342, 343, 344, 345, 346, 396, 397, 398, 399, 400, 401, 402, 403, 404, 405, 586, 587, 648, 649, 750, 770, 771, 772, 773,
    774, 796, 797, 798, 799, 800, 801, 803, 804, 805, 806, 807, 809, 812, 817, 819, 820, 822, 823, 824, 825, 839, 872, 961, 2861, 2874, 3051],
  [155, 162, 170, 175, 342, 343, 344, 345, 346, 396, 397, 398, 399, 400, 401, 402, 403, 404, 405, 586, 587, 648, 649, 750, 770, 771, 772, 773,
    774, 796, 797, 798, 799, 800, 801, 803, 804, 805, 806, 807, 809, 812, 817, 819, 820, 822, 823, 824, 825, 839, 872, 961, 2861, 2874, 3051],
  [219, 226, 234, 239, 406, 407, 408, 409, 410, 460, 461, 462, 463, 464, 465, 466, 467, 468, 469, 650, 651, 712, 713, 814, 834, 835, 836, 837,
    838, 860, 861, 862, 863, 864, 865, 867, 868, 869, 870, 871, 873, 876, 881, 883, 884, 886, 887, 888, 889, 903, 936, 1025, 2925, 2938, 3115],
  [219, 226, 234, 239, 406, 407, 408, 409, 410, 460, 461, 462, 463, 464, 465, 466, 467, 468, 469, 650, 651, 712, 713, 814, 834, 835, 836, 837,
    838, 860, 861, 862, 863, 864, 865, 867, 868, 869, 870, 871, 873, 876, 881, 883, 884, 886, 887, 888, 889, 903, 936, 1025, 2925, 2938, 3115],
  [219, 226, 234, 239, 406, 407, 408, 409, 410, 460, 461, 462, 463, 464, 465, 466, 467, 468, 469, 650, 651, 712, 713, 814, 834, 835, 836, 837,
    838, 860, 861, 862, 863, 864, 865, 867, 868, 869, 870, 871, 873, 876, 881, 883, 884, 886, 887, 888, 889, 903, 936, 1025, 2925, 2938, 3115],
  [219, 226, 234, 239, 406, 407, 408, 409, 410, 460, 461, 462, 463, 464, 465, 466, 467, 468, 469, 650, 651, 712, 713, 814, 834, 835, 836, 837,
    838, 860, 861, 862, 863, 864, 865, 867, 868, 869, 870, 871, 873, 876, 881, 883, 884, 886, 887, 888, 889, 903, 936, 1025, 2925, 2938, 3115],
  [219, 226, 234, 239, 406, 407, 408, 409, 410, 460, 461, 462, 463, 464, 465, 466, 467, 468, 469, 650, 651, 712, 713, 814, 834, 835, 836, 837,
    838, 860, 861, 862, 863, 864, 865, 867, 868, 869, 870, 871, 873, 876, 881, 883, 884, 886, 887, 888, 889, 903, 936, 1025, 2925, 2938, 3115],
  [219, 226, 234, 239, 406, 407, 408, 409, 410, 460, 461, 462, 463, 464, 465, 466, 467, 468, 469, 650, 651, 712, 713, 814, 834, 835, 836, 837,
    838, 860, 861, 862, 863, 864, 865, 867, 868, 869, 870, 871, 873, 876, 881, 883, 884, 886, 887, 888, 889, 903, 936, 1025, 2925, 2938, 3115],
  [219, 226, 234, 239, 406, 407, 408, 409, 410, 460, 461, 462, 463, 464, 465, 466, 467, 468, 469, 650, 651, 712, 713, 814, 834, 835, 836, 837,
    838, 860, 861, 862, 863, 864, 865, 867, 868, 869, 870, 871, 873, 876, 881, 883, 884, 886, 887, 888, 889, 903, 936, 1025, 2925, 2938, 3115]]

/-- Numbers that go down with each reduction, states 48 to 63. -/
def potRows3 : List (List Nat) := [
  [219, 226, 234, 239, 406, 407, 408, 409, 410, 460, 461, 462, 463, 464, 465, 466, 467, 468, 469, 650, 651, 712, 713, 814, 834, 835, 836, 837,
    838, 860, 861, 862, 863, 864, 865, 867, 868, 869, 870, 871, 873, 876, 881, 883, 884, 886, 887, 888, 889, 903, 936, 1025, 2925, 2938, 3115],
  [],
  [283, 290, 298, 303, 470, 471, 472, 473, 474, 524, 525, 526, 527, 528, 529, 530, 531, 532, 533, 714, 715, 776, 777, 878, 898, 899, 900, 901,
    902, 924, 925, 926, 927, 928, 929, 931, 932, 933, 934, 935, 937, 940, 945, 947, 948, 950, 951, 952, 953, 967, 1000, 1089, 2989, 3002, 3179],
  [283, 290, 298, 303, 470, 471, 472, 473, 474, 524, 525, 526, 527, 528, 529, 530, 531, 532, 533, 714, 715, 776, 777, 878, 898, 899, 900, 901,
    902, 924, 925, 926, 927, 928, 929, 931, 932, 933, 934, 935, 937, 940, 945, 947, 948, 950, 951, 952, 953, 967, 1000, 1089, 2989, 3002, 3179],
  [219, 226, 234, 239, 406, 407, 408, 409, 410, 460, 461, 462, 463, 464, 465, 466, 467, 468, 469, 650, 651, 712, 713, 814, 834, 835, 836, 837,
    838, 860, 861, 862, 863, 864, 865, 867, 868, 869, 870, 871, 873, 876, 881, 883, 884, 886, 887, 888, 889, 903, 936, 1025, 2925, 2938, 3115],
  [219, 226, 234, 239, 406, 407, 408, 409, 410, 460, 461, 462, 463, 464, 465, 466, 467, 468, 469, 650, 651, 712, 713, 814, 834, 835, 836, 837,
    838, 860, 861, 862, 863, 864, 865, 867, 868, 869, 870, 871, 873, 876, 881, 883, 884, 886, 887, 888, 889, 903, 936, 1025, 2925, 2938, 3115],
  [219, 226, 234, 239, 406, 407, 408, 409, 410, 460, 461, 462, 463, 464, 465, 466, 467, 468, 469, 650, 651, 712, 713, 814, 834, 835, 836, 837,
    838, 860, 861, 862, 863, 864, 865, 867, 868, 869, 870, 871, 873, 876, 881, 883, 884, 886, 887, 888, 889, 903, 936, 1025, 2925, 2938, 3115],
  [219, 226, 234, 239, 406, 407, 408, 409, 410, 460, 461, 462, 463, 464, 465, 466, 467, 468, 469, 650, 651, 712, 713, 814, 834, 835, 836, 837,
    838, 860, 861, 862, 863, 864, 865, 867, 868, 869, 870, 871, 873, 876, 881, 883, 884, 886, 887, 888, 889, 903, 936, 1025, 2925, 2938, 3115],
  [],
  [],
  [2188, 2196, 2197, 2204, 2205, 2206, 2207, 2208, 2209, 2210, 2211, 2212, 2213, 2214, 2215, 2217, 2218, 2219, 2220],
  [2212, 2213, 2214, 2221],
  [192, 194, 195, 196, 204, 212, 213, 220, 221, 222, 223, 224, 225, 226, 227, 228, 229, 230, 231, 233, 234, 236, 237, 241, 243, 244, 246, 247,
    248, 249],
  [192, 194, 195, 196, 204, 212, 213, 220, 221, 222, 223, 224, 225, 226, 227, 228, 229, 230, 231, 233, 234, 236, 237, 240, 241, 242, 243, 244,
    246, 247, 248, 249],
  [192, 194, 195, 196, 204, 212, 213, 220, 221, 222, 223, 224, 225, 226, 227, 228, 229, 230, 231, 233, 234, 236, 237, 240, 241, 242, 243, 244,
    246, 247, 248, 249],
  [192, 194, 195, 196, 204, 212, 213, 220, 221, 222, 223, 224, 225, 226, 227, 228, 229, 230, 231, 233, 234, 236, 237, 240, 241, 242, 243, 244,
    246, 247, 248, 249]]

/-- Numbers that go down with each reduction, states 64 to 79. -/
def potRows4 : List (List Nat) := [
  [192, 194, 195, 196, 204, 212, 213, 220, 221, 222, 223, 224, 225, 226, 227, 228, 229, 230, 231, 233, 234, 236, 237, 240, 241, 242, 243, 244,
    246, 247, 248, 249],
  [192, 194, 195, 196, 204, 212, 213, 220, 221, 222, 223, 224, 225, 226, 227, 228, 229, 230, 231, 233, 234, 236, 237, 240, 241, 242, 243, 244,
    246, 247, 248, 249],
  [192, 194, 195, 196, 204, 212, 213, 220, 221, 222, 223, 224, 225, 226, 227, 228, 229, 230, 231, 233, 234, 236, 237, 240, 241, 242, 243, 244,
    246, 247, 248, 249],
  [192, 194, 195, 196, 204, 212, 213, 220, 221, 222, 223, 224, 225, 226, 227, 228, 229, 230, 231, 233, 234, 236, 237, 240, 241, 242, 243, 244,
    246, 247, 248, 249],
  [],
  [],
  [],
  [],
  [],
  [],
  [],
  [2178, 2179, 2180, 2188, 2196, 2197, 2204, 2205, 2206, 2207, 2208, 2209, 2210, 2211, 2212, 2213, 2214, 2215, 2217, 2218, 2220, 2225, 2227,
    2228, 2230, 2231, 2232, 2233],
  [],
  [],
  [],
  []]

/-- Numbers that go down with each reduction, states 80 to 95. -/
def potRows5 : List (List Nat) := [
  [],
  [],
  [],
  [155, 162, 170, 175, 342, 343, 344, 345, 346, 396, 397, 398, 399, 400, 401, 402, 403, 404, 405, 586, 587, 648, 649, 750, 770, 771, 772, 773,
    774, 796, 797, 798, 799, 800, 801, 803, 804, 805, 806, 809, 812, 817, 819, 820, 822, 823, 824, 825, 839, 872, 961, 2861, 2874, 3051],
  [],
  [],
  [2188, 2196, 2197, 2204, 2205, 2206, 2207, 2208, 2209, 2210, 2211, 2212, 2213, 2214, 2215, 2217, 2218, 2220],
  [],
  [],
  [],
  [],
  [365, 378, 555],
  [],
  [84, 85, 92, 93, 94, 95, 96, 97, 98, 99, 100, 101, 102, 103, 105, 106, 108],
  [84, 85, 92, 93, 94, 95, 96, 97, 98, 99, 100, 101, 102, 103, 105, 106, 108],
  []]

/-- Numbers that go down with each reduction, states 96 to 111. -/
def potRows6 : List (List Nat) := [
  [148, 149, 156, 157, 158, 159, 160, 161, 162, 163, 164, 165, 166, 167, 169, 170, 172],
  [148, 149, 156, 157, 158, 159, 160, 161, 162, 163, 164, 165, 166, 167, 169, 170, 172],
  [148, 149, 156, 157, 158, 159, 160, 161, 162, 163, 164, 165, 166, 167, 169, 170, 172],
  [148, 149, 156, 157, 158, 159, 160, 161, 162, 163, 164, 165, 166, 167, 169, 170, 172],
  [148, 149, 156, 157, 158, 159, 160, 161, 162, 163, 164, 165, 166, 167, 169, 170, 172],
  [148, 149, 156, 157, 158, 159, 160, 161, 162, 163, 164, 165, 166, 167, 169, 170, 172],
  [],
  [],
  [],
  [],
  [],
  [],
  [],
  [621, 634, 811],
  [621, 634, 811],
  []]

/-- Numbers that go down with each reduction, states 112 to 127. -/
def potRows7 : List (List Nat) := [
  [813, 826, 1003],
  [],
  [65, 66, 67, 68, 69, 70, 71, 72, 73, 74, 75, 76, 77, 78, 79, 80, 81, 82, 83, 84, 85, 86, 87, 88, 89, 90, 91, 92, 93, 94, 95, 96, 97, 98, 99,
    100, 101, 102, 103, 104, 105, 106, 108, 110, 111, 113, 115, 116, 118, 119, 120, 121, 877, 890, 1067],
  [],
  [],
  [941, 954, 1131],
  [941, 954, 1131],
  [],
  [941, 954, 1131],
  [],
  [],
  [],
  [],
  [],
  [],
  [71, 77, 107]]

/-- Numbers that go down with each reduction, states 128 to 143. -/
def potRows8 : List (List Nat) := [
  [],
  [],
  [2178, 2179, 2180, 2188, 2196, 2197, 2204, 2205, 2206, 2207, 2208, 2209, 2210, 2211, 2212, 2213, 2214, 2215, 2217, 2218, 2220, 2221, 2225,
    2227, 2228, 2230, 2231, 2232, 2233],
  [64, 66, 67, 68, 76, 84, 85, 92, 93, 94, 95, 96, 97, 98, 99, 100, 101, 102, 103, 105, 106, 108, 109, 112, 113, 114, 115, 116, 118, 119, 120,
    121],
  [],
  [],
  [],
  [],
  [],
  [],
  [],
  [],
  [],
  [],
  [],
  []]

/-- Numbers that go down with each reduction, states 144 to 159. -/
def potRows9 : List (List Nat) := [
  [],
  [],
  [],
  [],
  [],
  [],
  [],
  [],
  [],
  [],
  [],
  [],
  [],
  [],
  [],
  []]

/-- Numbers that go down with each reduction, states 160 to 175. -/
def potRows10 : List (List Nat) := [
  [],
  [135],
  [135],
  [],
  [199, 235],
  [199, 235],
  [110, 263, 299],
  [71, 107],
  [],
  [],
  [71, 104],
  [135, 168],
  [],
  [],
  [],
  []]

/-- Numbers that go down with each reduction, states 176 to 191. -/
def potRows11 : List (List Nat) := [
  [2219],
  [],
  [2170, 2347],
  [2221],
  [],
  [],
  [],
  [],
  [],
  [],
  [],
  [],
  [],
  [],
  [],
  []]

/-- Numbers that go down with each reduction, states 192 to 207. -/
def potRows12 : List (List Nat) := [
  [],
  [],
  [],
  [],
  [],
  [],
  [],
  [],
  [],
  [],
  [],
  [],
  [],
  [],
  [],
  []]

/-- Numbers that go down with each reduction, states 208 to 223. -/
def potRows13 : List (List Nat) := [
  [235],
  [2188, 2196, 2197, 2204, 2205, 2206, 2207, 2208, 2209, 2210, 2211, 2212, 2213, 2214, 2215, 2217, 2218, 2220],
  [],
  [],
  [],
  [2178, 2179, 2180, 2188, 2196, 2197, 2204, 2205, 2206, 2207, 2208, 2209, 2210, 2211, 2212, 2213, 2214, 2215, 2217, 2218, 2220, 2225, 2227,
    2228, 2230, 2231, 2232, 2233],
  [],
  [],
  [],
  [66, 67, 68, 76, 84, 85, 92, 93, 94, 95, 96, 97, 98, 99, 100, 101, 102, 103, 105, 106, 108, 109, 113, 115, 116, 118, 119, 120, 121],
  [],
  [219, 226, 234, 239, 406, 407, 408, 409, 410, 460, 461, 462, 463, 464, 465, 466, 467, 468, 469, 650, 651, 712, 713, 837, 838, 903, 1025,
    2938],
  [],
  [],
  [],
  []]

/-- Numbers that go down with each reduction, states 224 to 239. -/
def potRows14 : List (List Nat) := [
  [],
  [],
  [135, 171],
  [],
  [135, 171],
  [],
  [],
  [],
  [],
  [],
  [2188, 2196, 2197, 2204, 2205, 2206, 2207, 2208, 2209, 2210, 2211, 2212, 2213, 2214, 2215, 2217, 2218, 2220],
  [],
  [],
  [2157, 2170],
  [2178, 2179, 2180, 2188, 2196, 2197, 2204, 2205, 2206, 2207, 2208, 2209, 2210, 2211, 2212, 2213, 2214, 2215, 2217, 2218, 2220, 2225, 2227,
    2228, 2230, 2231, 2232, 2233],
  []]

/-- Numbers that go down with each reduction, states 240 to 255. -/
def potRows15 : List (List Nat) := [
  [],
  [],
  [],
  [2176, 2178, 2179, 2180, 2188, 2196, 2197, 2204, 2205, 2206, 2207, 2208, 2209, 2210, 2211, 2212, 2213, 2214, 2215, 2217, 2218, 2220, 2221,
    2224, 2225, 2226, 2227, 2228, 2230, 2231, 2232, 2233],
  [],
  [],
  [],
  [],
  [],
  [],
  [],
  [],
  [],
  [],
  [2212, 2213, 2214],
  []]

/-- Numbers that go down with each reduction, states 256 to 271. -/
def potRows16 : List (List Nat) := [
  [],
  [],
  [],
  [],
  [],
  [],
  [],
  [],
  [],
  [],
  [2212, 2213, 2214],
  [],
  [],
  [],
  [],
  []]

/-- Numbers that go down with each reduction, states 272 to 283. -/
def potRows17 : List (List Nat) := [
  [],
  [],
  [],
  [],
  [],
  [],
  [],
  [],
  [],
  [],
  [],
  []]

/-- Numbers that go down with each reduction. -/
def potRows : List (List (List Nat)) := [potRows0, potRows1, potRows2, potRows3, potRows4, potRows5, potRows6, potRows7, potRows8, potRows9, potRows10, potRows11, potRows12, potRows13, potRows14, potRows15, potRows16, potRows17]

/-- Bounds for the states that follow a nonterminal. -/
def potBounds : List (List Nat) := [
  [],
  [],
  [64, 66, 67, 68, 76, 84, 85, 92, 93, 94, 95, 96, 97, 98, 99, 100, 101, 102, 103, 105, 106, 108, 109, 112, 113, 114, 115, 116, 118, 119, 120,
    121],
  [],
  [],
  [65, 122],
  [129, 186],
  [129, 186],
  [129, 186],
  [129, 186],
  [193, 250],
  [66, 67, 68, 69, 70, 76, 84, 85, 92, 93, 94, 95, 96, 97, 98, 99, 100, 101, 102, 103, 105, 106, 108, 113, 115, 116, 118, 119, 120, 121, 135,
    168, 257, 2157, 2170, 2347],
  [110, 130, 131, 132, 133, 134, 140, 148, 149, 156, 157, 158, 159, 160, 161, 162, 163, 164, 165, 166, 167, 169, 170, 172, 177, 179, 180, 182,
    183, 184, 185, 199, 232, 321, 2221, 2234, 2411],
  [72, 73, 174, 194, 195, 196, 197, 198, 204, 212, 213, 220, 221, 222, 223, 224, 225, 226, 227, 228, 229, 230, 231, 233, 234, 236, 241, 243,
    244, 246, 247, 248, 249, 263, 296, 385, 2285, 2298, 2475],
  [74, 75, 136, 137, 238, 258, 259, 260, 261, 262, 268, 276, 277, 284, 285, 286, 287, 288, 289, 290, 291, 292, 293, 294, 295, 297, 298, 300,
    305, 307, 308, 310, 311, 312, 313, 327, 360, 449, 2349, 2362, 2539],
  [138, 139, 200, 201, 302, 322, 323, 324, 325, 326, 332, 340, 341, 348, 349, 350, 351, 352, 353, 354, 355, 356, 357, 358, 359, 361, 362, 364,
    369, 371, 372, 374, 375, 376, 377, 391, 424, 513, 2413, 2426, 2603],
  [],
  [84, 85, 92, 93, 94, 95, 96, 97, 98, 99, 100, 101, 102, 103, 105, 106, 108],
  [202, 203, 264, 265, 366, 386, 387, 388, 389, 390, 412, 413, 414, 415, 416, 417, 418, 419, 420, 421, 422, 423, 425, 426, 428, 433, 435, 436,
    438, 439, 440, 441, 455, 488, 577, 2477, 2490, 2667],
  [76, 77, 78, 79, 80, 81, 82, 83, 84, 85, 266, 267, 328, 329, 430, 450, 451, 452, 453, 454, 476, 477, 478, 479, 480, 481, 482, 483, 484, 485,
    486, 487, 489, 490, 492, 497, 499, 500, 502, 503, 504, 505, 519, 552, 641, 2541, 2554, 2731],
  [86, 87, 88, 89, 90, 140, 141, 142, 143, 144, 145, 146, 147, 148, 149, 330, 331, 392, 393, 494, 514, 515, 516, 517, 518, 540, 541, 542, 543,
    544, 545, 546, 547, 548, 549, 550, 551, 553, 554, 556, 561, 563, 564, 566, 567, 568, 569, 583, 616, 705, 2605, 2618, 2795],
  [150, 151, 152, 153, 154, 204, 205, 206, 207, 208, 209, 210, 211, 212, 213, 394, 395, 456, 457, 558, 578, 579, 580, 581, 582, 604, 605, 606,
    607, 608, 609, 610, 611, 612, 613, 614, 615, 617, 618, 620, 625, 627, 628, 630, 631, 632, 633, 647, 680, 769, 2669, 2682, 2859],
  [214, 215, 216, 217, 218, 268, 269, 270, 271, 272, 273, 274, 275, 276, 277, 458, 459, 520, 521, 622, 642, 643, 644, 645, 646, 668, 669, 670,
    671, 672, 673, 675, 676, 677, 678, 679, 681, 684, 689, 691, 692, 694, 695, 696, 697, 711, 744, 833, 2733, 2746, 2923],
  [91, 98, 106, 111, 278, 279, 280, 281, 282, 332, 333, 334, 335, 336, 337, 338, 339, 340, 341, 522, 523, 584, 585, 686, 706, 707, 708, 709,
    710, 732, 733, 734, 735, 736, 737, 739, 740, 741, 742, 743, 745, 748, 753, 755, 756, 758, 759, 760, 761, 775, 808, 897, 2797, 2810, 2987],
  [155, 162, 170, 175, 342, 343, 344, 345, 346, 396, 397, 398, 399, 400, 401, 402, 403, 404, 405, 586, 587, 648, 649, 750, 770, 771, 772, 773,
    774, 796, 797, 798, 799, 800, 801, 803, 804, 805, 806, 807, 809, 812, 817, 819, 820, 822, 823, 824, 825, 839, 872, 961, 2861, 2874, 3051],
  [155, 162, 170, 175, 342, 343, 344, 345, 346, 396, 397, 398, 399, 400, 401, 402, 403, 404, 405, 586, 587, 648, 649, 750, 770, 771, 772, 773,
    774, 796, 797, 798, 799, 800, 801, 803, 804, 805, 806, 807, 809, 812, 817, 819, 820, 822, 823, 824, 825, 839, 872, 961, 2861, 2874, 3051],
  [219, 226, 234, 239, 406, 407, 408, 409, 410, 460, 461, 462, 463, 464, 465, 466, 467, 468, 469, 650, 651, 712, 713, 814, 834, 835, 836, 837,
    838, 860, 861, 862, 863, 864, 865, 867, 868, 869, 870, 871, 873, 876, 881, 883, 884, 886, 887, 888, 889, 903, 936, 1025, 2925, 2938, 3115],
  [155, 162, 170, 175, 342, 343, 344, 345, 346, 396, 397, 398, 399, 400, 401, 402, 403, 404, 405, 586, 587, 648, 649, 750, 770, 771, 772, 773,
    774, 796, 797, 798, 799, 800, 801, 803, 804, 805, 806, 807, 809, 812, 817, 819, 820, 822, 823, 824, 825, 839, 872, 961, 2861, 2874, 3051],
  [219, 226, 234, 239, 406, 407, 408, 409, 410, 460, 461, 462, 463, 464, 465, 466, 467, 468, 469, 650, 651, 712, 713, 814, 834, 835, 836, 837,
    838, 860, 861, 862, 863, 864, 865, 867, 868, 869, 870, 871, 873, 876, 881, 883, 884, 886, 887, 888, 889, 903, 936, 1025, 2925, 2938, 3115],
  [219, 226, 234, 239, 406, 407, 408, 409, 410, 460, 461, 462, 463, 464, 465, 466, 467, 468, 469, 650, 651, 712, 713, 814, 834, 835, 836, 837,
    838, 860, 861, 862, 863, 864, 865, 867, 868, 869, 870, 871, 873, 876, 881, 883, 884, 886, 887, 888, 889, 903, 936, 1025, 2925, 2938, 3115],
  [219, 226, 234, 239, 406, 407, 408, 409, 410, 460, 461, 462, 463, 464, 465, 466, 467, 468, 469, 650, 651, 712, 713, 814, 834, 835, 836, 837,
    838, 860, 861, 862, 863, 864, 865, 867, 868, 869, 870, 871, 873, 876, 881, 883, 884, 886, 887, 888, 889, 903, 936, 1025, 2925, 2938, 3115],
  [2219],
  [235],
  [219, 226, 234, 239, 406, 407, 408, 409, 410, 460, 461, 462, 463, 464, 465, 466, 467, 468, 469, 650, 651, 712, 713, 814, 834, 835, 836, 837,
    838, 860, 861, 862, 863, 864, 865, 867, 868, 869, 870, 871, 873, 876, 881, 883, 884, 886, 887, 888, 889, 903, 936, 1025, 2925, 2938, 3115],
  [2221],
  [],
  [91, 98, 106, 111, 278, 279, 280, 281, 282, 332, 333, 334, 335, 336, 337, 338, 339, 340, 341, 522, 523, 584, 585, 686, 706, 707, 708, 709,
    710, 732, 733, 734, 735, 736, 737, 739, 740, 741, 742, 743, 745, 748, 753, 755, 756, 758, 759, 760, 761, 775, 808, 897, 2797, 2810, 2987],
  [813, 826, 1003],
  [91, 98, 106, 111, 278, 279, 280, 281, 282, 332, 333, 334, 335, 336, 337, 338, 339, 340, 341, 522, 523, 584, 585, 686, 706, 707, 708, 709,
    710, 732, 733, 734, 735, 736, 737, 739, 740, 741, 742, 743, 745, 748, 753, 755, 756, 758, 759, 760, 761, 775, 808, 897, 2797, 2810, 2987],
  [91, 98, 106, 111, 278, 279, 280, 281, 282, 332, 333, 334, 335, 336, 337, 338, 339, 340, 341, 522, 523, 584, 585, 686, 706, 707, 708, 709,
    710, 732, 733, 734, 735, 736, 737, 739, 740, 741, 742, 743, 745, 748, 753, 755, 756, 758, 759, 760, 761, 775, 808, 897, 2797, 2810, 2987],
  [135, 171],
  [199, 235],
  [199, 235],
  [],
  [71, 107],
  [91, 98, 106, 111, 278, 279, 280, 281, 282, 332, 333, 334, 335, 336, 337, 338, 339, 340, 341, 522, 523, 584, 585, 686, 706, 707, 708, 709,
    710, 732, 733, 734, 735, 736, 737, 739, 740, 741, 742, 743, 745, 748, 753, 755, 756, 758, 759, 760, 761, 775, 808, 897, 2797, 2810, 2987],
  [],
  [71, 104],
  [193, 250],
  [],
  [],
  [],
  [128, 130, 131, 132, 140, 148, 149, 156, 157, 158, 159, 160, 161, 162, 163, 164, 165, 166, 167, 169, 170, 172, 173, 176, 177, 178, 179, 180,
    182, 183, 184, 185],
  [192, 194, 195, 196, 204, 212, 213, 220, 221, 222, 223, 224, 225, 226, 227, 228, 229, 230, 231, 233, 234, 236, 237, 240, 241, 242, 243, 244,
    246, 247, 248, 249],
  [192, 194, 195, 196, 204, 212, 213, 220, 221, 222, 223, 224, 225, 226, 227, 228, 229, 230, 231, 233, 234, 236, 237, 241, 243, 244, 246, 247,
    248, 249],
  [],
  [192, 194, 195, 196, 204, 212, 213, 220, 221, 222, 223, 224, 225, 226, 227, 228, 229, 230, 231, 233, 234, 236, 237, 240, 241, 242, 243, 244,
    246, 247, 248, 249],
  [192, 194, 195, 196, 204, 212, 213, 220, 221, 222, 223, 224, 225, 226, 227, 228, 229, 230, 231, 233, 234, 236, 237, 240, 241, 242, 243, 244,
    246, 247, 248, 249],
  [],
  [192, 194, 195, 196, 204, 212, 213, 220, 221, 222, 223, 224, 225, 226, 227, 228, 229, 230, 231, 233, 234, 236, 237, 240, 241, 242, 243, 244,
    246, 247, 248, 249],
  [],
  [192, 194, 195, 196, 204, 212, 213, 220, 221, 222, 223, 224, 225, 226, 227, 228, 229, 230, 231, 233, 234, 236, 237, 240, 241, 242, 243, 244,
    246, 247, 248, 249],
  [192, 194, 195, 196, 204, 212, 213, 220, 221, 222, 223, 224, 225, 226, 227, 228, 229, 230, 231, 233, 234, 236, 237, 240, 241, 242, 243, 244,
    246, 247, 248, 249],
  [2178, 2179, 2180, 2188, 2196, 2197, 2204, 2205, 2206, 2207, 2208, 2209, 2210, 2211, 2212, 2213, 2214, 2215, 2217, 2218, 2220, 2225, 2227,
    2228, 2230, 2231, 2232, 2233],
  [192, 194, 195, 196, 204, 212, 213, 220, 221, 222, 223, 224, 225, 226, 227, 228, 229, 230, 231, 233, 234, 236, 237, 240, 241, 242, 243, 244,
    246, 247, 248, 249],
  [],
  [],
  [64, 66, 67, 68, 76, 84, 85, 92, 93, 94, 95, 96, 97, 98, 99, 100, 101, 102, 103, 105, 106, 107, 108, 109, 112, 113, 114, 115, 116, 118, 119,
    120, 121],
  [64, 66, 67, 68, 76, 84, 85, 92, 93, 94, 95, 96, 97, 98, 99, 100, 101, 102, 103, 105, 106, 107, 108, 109, 112, 113, 114, 115, 116, 118, 119,
    120, 121]]

/-- The state that accepts. -/
def accState : Nat := 1

end Drel
end Verif
