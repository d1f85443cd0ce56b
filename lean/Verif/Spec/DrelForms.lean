import Verif.Spec.DrelProgram
/-! # Specification: all the ways to write a program

`put` (Spec.DrelExpr, Spec.DrelProgram) gives one list of tokens for a tree. Here are the others: ends of lines after commas and in brackets, prefixed strings and backquotes
anywhere, types of arguments, bodies without braces, ends of lines around braces and before bodies. -/
namespace Verif
namespace Drel
open LR DrelPy

/-- Ends of lines. -/
def ends (us : List Val) : List (Tok Val) := us.map fun u => (K.newline, u)

/-- An expression in a list: the ends of lines before it, its tokens and its tree. -/
structure Part where
  /-- Ends of lines between the comma and the expression. -/
  before : List Val
  /-- The tokens. -/
  toks : List (Tok Val)
  /-- The tree. -/
  expr : Expr

/-- Further expressions, each after a comma and perhaps ends of lines. -/
def further : List Part → List (Tok Val)
  | [] => []
  | p :: r => tk K.comma "," :: (ends p.before ++ (p.toks ++ further r))

/-- There are no ends of lines after the commas. -/
def Tight (r : List Part) : Prop := ∀ p ∈ r, p.before = []

/-- Strings, with or without a prefix. -/
inductive StringText : List (Tok Val) → Str → Prop
  | short (s : Str) : StringText [(K.shortString, .str s)] s
  | long (s : Str) : StringText [(K.longString, .str s)] s
  | prefixShort (p s : Str) : StringText [(K.strPrefix, .str p), (K.shortString, .str s)] (p ++ s)
  | prefixLong (p s : Str) : StringText [(K.strPrefix, .str p), (K.longString, .str s)] (p ++ s)

/-- An entry of a table: its key, the tokens of the key and its value. -/
structure Entry where
  /-- The key. -/
  key : Str
  /-- The tokens of the key. -/
  keyToks : List (Tok Val)
  /-- The value. -/
  part : Part

/-- Further entries of a table. -/
def furtherEntries : List Entry → List (Tok Val)
  | [] => []
  | p :: r => tk K.comma "," :: (ends p.part.before ++ (p.keyToks ++ tk K.colon ":" :: (p.part.toks ++ furtherEntries r)))

/-- The tokens are the expression, and it may stand where level `n` is needed. -/
inductive Form : Nat → List (Tok Val) → Expr → Prop
  | weaker {n m : Nat} {w : List (Tok Val)} {e : Expr} (hn : n ≤ m) (h : Form m w e) : Form n w e
  | name (s : Str) : Form 9 [(K.id, .str s)] (.name s)
  | tag (s : Str) : Form 9 [(K.itemTag, .str s)] (.tag s)
  | lit (k : Nat) (hk : k ∈ literalKinds) (s : Str) : Form 9 [(k, .str s)] (.lit s)
  | string {w : List (Tok Val)} {s : Str} (h : StringText w s) : Form 9 w (.lit s)
  | quoted (p : Part) (r : List Part) (h : ∀ q ∈ p :: r, Form 0 q.toks q.expr) :
      Form 9 (tk K.tick "`" :: ((p.toks ++ further r) ++ [tk K.tick "`"])) (.call "str".toList ((p :: r).map (·.expr)))
  | group0 : Form 9 [tk K.openParen "(", tk K.closeParen ")"] (.group [])
  | group (p : Part) (r : List Part) (h : ∀ q ∈ p :: r, Form 0 q.toks q.expr) :
      Form 9 (tk K.openParen "(" :: ((p.toks ++ further r) ++ [tk K.closeParen ")"])) (.group ((p :: r).map (·.expr)))
  | list0 (us : List Val) : Form 9 (tk K.openSq "[" :: (ends us ++ [tk K.closeSq "]"])) (.list [])
  | list (us us' : List Val) (p : Part) (r : List Part) (h : ∀ q ∈ p :: r, Form 0 q.toks q.expr) :
      Form 9 (tk K.openSq "[" :: (ends us ++ ((p.toks ++ further r) ++ (ends us' ++ [tk K.closeSq "]"])))) (.list ((p :: r).map (·.expr)))
  | table0 (us : List Val) : Form 9 (tk K.openBrace "{" :: (ends us ++ [tk K.closeBrace "}"])) (.table [] [])
  | table (us us' : List Val) (p : Entry) (r : List Entry) (hk : ∀ q ∈ p :: r, StringText q.keyToks q.key) (h : ∀ q ∈ p :: r, Form 0 q.part.toks q.part.expr) :
      Form 9 (tk K.openBrace "{" :: (ends us ++ ((p.keyToks ++ tk K.colon ":" :: (p.part.toks ++ furtherEntries r)) ++ (ends us' ++ [tk K.closeBrace "}"]))))
        (.table ((p :: r).map (·.key)) ((p :: r).map (·.part.expr)))
  | attr {w : List (Tok Val)} {p : Expr} (h : Form 9 w p) (a : Str) : Form 9 (w ++ [tk K.dot ".", (K.id, .str a)]) (.attr p a)
  | sub {w w' : List (Tok Val)} {p i : Expr} (h : Form 9 w p) (hi : Form 0 w' i) :
      Form 9 (w ++ tk K.openSq "[" :: (w' ++ [tk K.closeSq "]"])) (.sub p i)
  | items {w : List (Tok Val)} {p : Expr} (h : Form 9 w p) (x y : Part) (r : List Part) (hr : ∀ q ∈ x :: y :: r, Form 0 q.toks q.expr) (ht : Tight (y :: r)) :
      Form 9 (w ++ tk K.openSq "[" :: ((x.toks ++ further (y :: r)) ++ [tk K.closeSq "]"])) (.items p ((x :: y :: r).map (·.expr)))
  | slice0 {w : List (Tok Val)} {p : Expr} (h : Form 9 w p) : Form 9 (w ++ tk K.openSq "[" :: ([tk K.colon ":"] ++ [tk K.closeSq "]"])) (.slice p [])
  | slice1 {w wa : List (Tok Val)} {p a : Expr} (h : Form 9 w p) (ha : Form 0 wa a) :
      Form 9 (w ++ tk K.openSq "[" :: ((wa ++ [tk K.colon ":"]) ++ [tk K.closeSq "]"])) (.slice p [a])
  | slice2 {w wa wb : List (Tok Val)} {p a b : Expr} (h : Form 9 w p) (ha : Form 0 wa a) (hb : Form 0 wb b) :
      Form 9 (w ++ tk K.openSq "[" :: ((wa ++ tk K.colon ":" :: wb) ++ [tk K.closeSq "]"])) (.slice p [a, b])
  | slice2' {w wb : List (Tok Val)} {p b : Expr} (h : Form 9 w p) (hb : Form 0 wb b) :
      Form 9 (w ++ tk K.openSq "[" :: ((tk K.colon ":" :: wb) ++ [tk K.closeSq "]"])) (.slice p [.int0, b])
  | slice3 {w wa wb wc : List (Tok Val)} {p a b c : Expr} (h : Form 9 w p) (ha : Form 0 wa a) (hb : Form 0 wb b) (hc : Form 0 wc c) :
      Form 9 (w ++ tk K.openSq "[" :: ((wa ++ tk K.colon ":" :: (wb ++ tk K.colon ":" :: wc)) ++ [tk K.closeSq "]"])) (.slice p [a, b, c])
  | slice3' {w wb wc : List (Tok Val)} {p b c : Expr} (h : Form 9 w p) (hb : Form 0 wb b) (hc : Form 0 wc c) :
      Form 9 (w ++ tk K.openSq "[" :: ((tk K.colon ":" :: (wb ++ tk K.colon ":" :: wc)) ++ [tk K.closeSq "]"])) (.slice p [.int0, b, c])
  | call0 (f : Str) : Form 9 [(K.id, .str f), tk K.openParen "(", tk K.closeParen ")"] (.call f [])
  | call (f : Str) (p : Part) (r : List Part) (h : ∀ q ∈ p :: r, Form 0 q.toks q.expr) (ht : Tight r) :
      Form 9 ((K.id, .str f) :: tk K.openParen "(" :: ((p.toks ++ further r) ++ [tk K.closeParen ")"])) (.call f ((p :: r).map (·.expr)))
  | op (o : Op) {w w' : List (Tok Val)} {a b : Expr} (ha : Form (leftNeed o) w a) (hb : Form (rightNeed o) w' b) :
      Form (opLevel o) (w ++ (opToks o ++ w')) (.op o a b)
  | minus {w : List (Tok Val)} {a : Expr} (ha : Form 7 w a) : Form 7 (tk K.minus "-" :: w) (.sign true a)
  | plus {w : List (Tok Val)} {a : Expr} (ha : Form 7 w a) : Form 7 (tk K.plus "+" :: w) (.sign false a)
  | not {w : List (Tok Val)} {a : Expr} (ha : Form 3 w a) : Form 3 (tk K.not_ "not" :: w) (.not a)

/-- Expressions separated by commas, at least one; there may be ends of lines after the commas. -/
inductive Listed : List (Tok Val) → List Expr → Prop
  | mk (p : Part) (r : List Part) (h : ∀ q ∈ p :: r, Form 0 q.toks q.expr) : Listed (p.toks ++ further r) ((p :: r).map (·.expr))

/-- Lists in square brackets: the types of arguments. -/
inductive Bracketed : List (Tok Val) → Prop
  | none (us : List Val) : Bracketed (tk K.openSq "[" :: (ends us ++ [tk K.closeSq "]"]))
  | some (us us' : List Val) {w : List (Tok Val)} {es : List Expr} (h : Listed w es) : Bracketed (tk K.openSq "[" :: (ends us ++ (w ++ (ends us' ++ [tk K.closeSq "]"]))))

/-- An assignment to an object of a category. -/
structure Field where
  /-- The object. -/
  key : Str
  /-- The tokens of the expression. -/
  toks : List (Tok Val)
  /-- Its tree. -/
  expr : Expr

/-- Further assignments to objects of a category. -/
def furtherFields : List Field → List (Tok Val)
  | [] => []
  | p :: r => tk K.comma "," :: tk K.dot "." :: (K.id, .str p.key) :: tk K.assign "=" :: (p.toks ++ furtherFields r)

/-- Simple statements. -/
inductive Small : List (Tok Val) → Stmt → Prop
  | exprs {w : List (Tok Val)} {es : List Expr} (h : Listed w es) : Small w (.exprs es)
  | assign {w w' : List (Tok Val)} {l r : List Expr} (hl : Listed w l) (hr : Listed w' r) (k : Nat) (hk : k = K.assign ∨ k = K.augop) (op : Str) :
      Small (w ++ (k, .str op) :: w') (.assign l op r)
  | fancy (cat : Str) (p : Field) (r : List Field) (h : ∀ q ∈ p :: r, Form 0 q.toks q.expr) :
      Small ((K.id, .str cat) :: tk K.openParen "(" :: ((tk K.dot "." :: (K.id, .str p.key) :: tk K.assign "=" :: (p.toks ++ furtherFields r)) ++ [tk K.closeParen ")"]))
        (.fancy cat ((p :: r).map (·.key)) ((p :: r).map (·.expr)))
  | print {w : List (Tok Val)} {e : Expr} (h : Form 0 w e) : Small (tk K.print "print" :: w) (.print e)
  | brk : Small [tk K.brk "break"] .brk
  | next : Small [tk K.next "next"] .next

/-- Simple statements separated by semicolons. -/
inductive Smalls : List (Tok Val) → List Stmt → Prop
  | one {w : List (Tok Val)} {s : Stmt} (h : Small w s) : Smalls w [s]
  | more {w w' : List (Tok Val)} {l : List Stmt} {s : Stmt} (hl : Smalls w l) (h : Small w' s) : Smalls (w ++ tk K.semi ";" :: w') (l ++ [s])

/-- Arguments of a function after the first, with the tokens of their types. -/
def furtherArgs : List (Str × List (Tok Val)) → List (Tok Val)
  | [] => []
  | x :: r => tk K.comma "," :: (K.id, .str x.1) :: tk K.colon ":" :: (x.2 ++ furtherArgs r)

/-- The kinds of parts of a program. -/
inductive Kind where
  /-- simple statements up to the end of the line -/
  | simple
  /-- an `if` without `else` -/
  | alone
  /-- any other compound statement -/
  | closed
  /-- any of these -/
  | line
  /-- lines in braces -/
  | lines
  /-- the body of a compound statement other than `for` and `do` -/
  | body
  /-- the body of `for` or `do` -/
  | loopBody
  /-- a program -/
  | text

/-- The tokens are a part of a program of the given kind with the given tree. -/
inductive Wrote : Kind → List (Tok Val) → Stmt → Prop
  | simple {w : List (Tok Val)} {l : List Stmt} (h : Smalls w l) (semi : Bool) (us : List Val) (hu : us ≠ []) :
      Wrote .simple (w ++ ((if semi then [tk K.semi ";"] else []) ++ ends us)) (.seq l)
  | if_ {w w' : List (Tok Val)} {c : Expr} {b : Stmt} (hc : Form 0 w c) (us : List Val) (hb : Wrote .body w' b) :
      Wrote .alone (tk K.if_ "if" :: tk K.openParen "(" :: (w ++ tk K.closeParen ")" :: (ends us ++ w'))) (.ite c b [] [])
  | elseif {w₀ w w' : List (Tok Val)} {c e : Expr} {b x : Stmt} {cs : List Expr} {bs : List Stmt} (h : Wrote .alone w₀ (.ite c b cs bs)) (he : Form 0 w e)
      (us : List Val) (hx : Wrote .body w' x) :
      Wrote .alone (w₀ ++ tk K.elseif "else if" :: tk K.openParen "(" :: (w ++ tk K.closeParen ")" :: (ends us ++ w'))) (.ite c b (cs ++ [e]) (bs ++ [x]))
  | else_ {w w' : List (Tok Val)} {c : Expr} {b x : Stmt} {cs : List Expr} {bs : List Stmt} (h : Wrote .alone w (.ite c b cs bs)) (hx : Wrote .body w' x) :
      Wrote .closed (w ++ tk K.else_ "else" :: w') (.ite c b cs (bs ++ [x]))
  | for_ (i : Str) (ids : List Str) {w w' : List (Tok Val)} {over : List Expr} {b : Stmt} (ho : Listed w over) (hb : Wrote .loopBody w' b) :
      Wrote .closed (tk K.for_ "for" :: (((K.id, .str i) :: putIds ids) ++ tk K.in_ "in" :: (w ++ w'))) (.for_ (i :: ids) over b)
  | forList (i : Str) (ids : List Str) {w w' : List (Tok Val)} {over : List Expr} {b : Stmt} (ho : Listed w over) (hb : Wrote .loopBody w' b) :
      Wrote .closed (tk K.for_ "for" :: tk K.openSq "[" :: (((K.id, .str i) :: putIds ids) ++ tk K.closeSq "]" :: tk K.in_ "in" :: (w ++ w'))) (.for_ (i :: ids) over b)
  | do_ (i : Str) {wa wz w' : List (Tok Val)} {a z : Expr} {b : Stmt} (ha : Form 0 wa a) (hz : Form 0 wz z) (hb : Wrote .loopBody w' b) :
      Wrote .closed ((tk K.do_ "do" :: (K.id, .str i) :: tk K.assign "=" :: (wa ++ tk K.comma "," :: wz)) ++ w') (.do_ i a z (.lit "1".toList) b)
  | doStep (i : Str) {wa wz ws w' : List (Tok Val)} {a z s : Expr} {b : Stmt} (ha : Form 0 wa a) (hz : Form 0 wz z) (hs : Form 0 ws s) (hb : Wrote .loopBody w' b) :
      Wrote .closed ((tk K.do_ "do" :: (K.id, .str i) :: tk K.assign "=" :: (wa ++ tk K.comma "," :: (wz ++ tk K.comma "," :: ws))) ++ w') (.do_ i a z s b)
  | rep {w : List (Tok Val)} {b : Stmt} (hb : Wrote .body w b) : Wrote .closed (tk K.repeat_ "repeat" :: w) (.rep b)
  | with_ (a c : Str) (us : List Val) {w : List (Tok Val)} {b : Stmt} (hb : Wrote .body w b) :
      Wrote .closed ([tk K.with_ "with", (K.id, .str a), tk K.as_ "as", (K.id, .str c)] ++ (ends us ++ w)) (.with_ a c b)
  | loop (a c : Str) {w : List (Tok Val)} {b : Stmt} (hb : Wrote .body w b) :
      Wrote .closed ([tk K.loop "loop", (K.id, .str a), tk K.as_ "as", (K.id, .str c)] ++ w) (.loop a c [] [] [] b)
  | loopIndex (a c i : Str) {w : List (Tok Val)} {b : Stmt} (hb : Wrote .body w b) :
      Wrote .closed ([tk K.loop "loop", (K.id, .str a), tk K.as_ "as", (K.id, .str c), tk K.colon ":", (K.id, .str i)] ++ w) (.loop a c i [] [] b)
  | loopTest (a c i : Str) (o : Op) (l : Str) (ho : opLevel o = 4 ∧ o ≠ .isIn ∧ o ≠ .notIn) {w : List (Tok Val)} {b : Stmt} (hb : Wrote .body w b) :
      Wrote .closed ((tk K.loop "loop" :: (K.id, .str a) :: tk K.as_ "as" :: (K.id, .str c) :: tk K.colon ":" :: (K.id, .str i) :: (opToks o ++ [(K.id, .str l)])) ++ w)
        (.loop a c i (cmpText o) l b)
  | func (f : Str) (x : Str × List (Tok Val)) (xs : List (Str × List (Tok Val))) (hx : ∀ y ∈ x :: xs, Bracketed y.2) {w : List (Tok Val)} {b : Stmt}
      (hb : Wrote .body w b) :
      Wrote .closed (tk K.function "function" :: (K.id, .str f) :: tk K.openParen "(" ::
        (((K.id, .str x.1) :: tk K.colon ":" :: (x.2 ++ furtherArgs xs)) ++ tk K.closeParen ")" :: w)) (.func f ((x :: xs).map (·.1)) b)
  | lineSimple {w : List (Tok Val)} {s : Stmt} (h : Wrote .simple w s) : Wrote .line w s
  | lineAlone {w : List (Tok Val)} {s : Stmt} (h : Wrote .alone w s) : Wrote .line w (.seq [s])
  | lineClosed {w : List (Tok Val)} {s : Stmt} (h : Wrote .closed w s) : Wrote .line w (.seq [s])
  | linesOne {w : List (Tok Val)} {s : Stmt} (h : Wrote .line w s) : Wrote .lines w s
  | linesMore {w w' : List (Tok Val)} {l : List Stmt} {s : Stmt} (h : Wrote .lines w (.seq l)) (hs : Wrote .line w' s) : Wrote .lines (w ++ w') (.seq (l ++ [s]))
  | bodySimple {w : List (Tok Val)} {s : Stmt} (h : Wrote .simple w s) : Wrote .body w s
  | bodyClosed {w : List (Tok Val)} {s : Stmt} (h : Wrote .closed w s) : Wrote .body w (.seq [s])
  | bodyLines (us us' : List Val) {w : List (Tok Val)} {s : Stmt} (h : Wrote .lines w s) :
      Wrote .body (tk K.openBrace "{" :: (ends us ++ (w ++ tk K.closeBrace "}" :: ends us'))) s
  | loopClosed {w : List (Tok Val)} {s : Stmt} (h : Wrote .closed w s) : Wrote .loopBody w (.seq [s])
  | loopLines (us us' : List Val) {w : List (Tok Val)} {s : Stmt} (h : Wrote .lines w s) :
      Wrote .loopBody (tk K.openBrace "{" :: (ends us ++ (w ++ tk K.closeBrace "}" :: ends us'))) s
  | textOne (us : List Val) {w : List (Tok Val)} {s : Stmt} (h : Wrote .line w s) : Wrote .text (ends us ++ w) s
  | textMore {w w' : List (Tok Val)} {l m : List Stmt} (h : Wrote .text w (.seq l)) (hs : Wrote .line w' (.seq m)) : Wrote .text (w ++ w') (.seq (l ++ m))

end Drel
end Verif
