import Verif.Lemmas.DrelForms
import Verif.Props.DrelLayout
/-! # All the ways to write a dREL program

Expressions and programs are read back from every form of Spec.DrelForms (C106, C107, C110). -/
namespace Verif
namespace Drel
open LR DrelPy

/-- **C106.** An expression is read back as its tree however it is written: with ends of lines in lists and tables and after the commas of lists, with prefixed strings
and backquotes in any place, with any of the kinds of literals.
Missing: slices with a step and no finish (`C106_step_fails`) and numbers after names (`C106_number_fails`), which are read as something else; several slices in one pair of brackets,
of which the trees of the model keep only that they are there. -/
theorem C106_forms_partial (w : List (Tok Val)) (e : Expr) (h : Form 0 w e) (us : List Val) (hu : us ≠ []) :
    Parses grammar table (w ++ ends us) (.st (.seq [.exprs [e]])) := by
  apply C105_complete_partial
  have h1 := fine_exprStmt1 (phrase_one (fine_testlistStarExpr1 (phrase_one (form_expr h))))
  have h2 := fine_statement1 (phrase_cons (fine_simpleStmt1 (phrase_one (fine_smallStmt1 (phrase_one h1)))) (phrase_one (lineEnds_phrase hu)))
  exact fine_input1 (phrase_cons phrase_empty (phrase_one h2))

/-- **C106.** Tokens are a form of one expression only. -/
theorem C106_forms_unique (w : List (Tok Val)) (e e' : Expr) (h : Form 0 w e) (h' : Form 0 w e') : e = e' := by
  have := C105_unique _ _ _ (C106_forms_partial w e h [.none] (by simp)) (C106_forms_partial w e' h' [.none] (by simp))
  simpa using this

/-- **C107.** A program is read back as its tree however it is written: bodies of one line with or without braces, ends of lines before and after braces, before bodies and at
the start, semicolons at the ends of lines, names of a `for` in brackets, `do` with and without a step, arguments with any types.
Missing: a plain `if` as a body without braces, a simple statement as the body of a `for` or `do` without braces (these are not all accepted, `C105_complete_fails`), and bodies
in braces on one line (never accepted, `C107_line_fails`). -/
theorem C107_forms_partial (w : List (Tok Val)) (s : Stmt) (h : Wrote .text w s) : Parses grammar table w (.st s) :=
  C105_complete_partial _ _ (wrote_good h)

/-- **C107.** Tokens are a form of one program only: for instance an `else` has only one `if` that it can belong to. -/
theorem C107_forms_unique (w : List (Tok Val)) (s s' : Stmt) (h : Wrote .text w s) (h' : Wrote .text w s') : s = s' := by
  have := C105_unique _ _ _ (C107_forms_partial w s h) (C107_forms_partial w s' h')
  simpa using this

/-- **C107.** Braces around a body of a single line make no difference. -/
theorem C107_braces (wc w : List (Tok Val)) (c : Expr) (b : Stmt) (hc : Form 0 wc c) (hb : Wrote .simple w b) (us us' us'' : List Val) :
    Parses grammar table (tk K.if_ "if" :: tk K.openParen "(" :: (wc ++ tk K.closeParen ")" :: (ends us ++ w))) (.st (.seq [.ite c b [] []])) ∧
    Parses grammar table (tk K.if_ "if" :: tk K.openParen "(" :: (wc ++ tk K.closeParen ")" :: (ends us ++ tk K.openBrace "{" :: (ends us' ++ (w ++ tk K.closeBrace "}" :: ends us'')))))
      (.st (.seq [.ite c b [] []])) := by
  constructor
  · exact C107_forms_partial _ _ (.textOne [] (.lineAlone (.if_ hc us (.bodySimple hb))))
  · exact C107_forms_partial _ _ (.textOne [] (.lineAlone (.if_ hc us (.bodyLines us' us'' (.linesOne (.lineSimple hb))))))

/-- **C107.** An `else` after an `if` without braces belongs to that `if`: here `if (c) if (d) … else …` is an `if` whose body is the `if` with the `else`. -/
theorem C107_dangling (wc wd w w' : List (Tok Val)) (c d : Expr) (b b' : Stmt) (hc : Form 0 wc c) (hd : Form 0 wd d) (hb : Wrote .body w b) (hb' : Wrote .body w' b') :
    Parses grammar table (tk K.if_ "if" :: tk K.openParen "(" :: (wc ++ tk K.closeParen ")" ::
      (tk K.if_ "if" :: tk K.openParen "(" :: (wd ++ tk K.closeParen ")" :: w)) ++ tk K.else_ "else" :: w'))
      (.st (.seq [.ite c (.seq [.ite d b [] [b']]) [] []])) := by
  have h1 : Wrote .closed _ (.ite d b [] ([] ++ [b'])) := .else_ (.if_ hd [] hb) hb'
  have h2 := C107_forms_partial _ _ (.textOne [] (.lineAlone (.if_ hc [] (.bodyClosed h1))))
  simpa [ends] using h2

/-- **C110.** A program is read back from its text, however it is written and laid out. -/
theorem C110_forms (w : List (Tok Val)) (st : Stmt) (h : Wrote .text w st) (toks : List (Tok Val)) (hr : Respelled w toks) (s : Str) (hl : Laid 0 toks s) :
    Reads s (.st st) :=
  ⟨_, C110_tokens _ _ hl, by simpa using C110_spelling w toks (.st st) (wrote_good h) hr []⟩

/-! ## Examples -/

/-- A name as a part of a list. -/
def namePart (us : List Val) (s : String) : Part := ⟨us, [nm s], .name s.toList⟩

theorem name_form (s : String) : Form 0 [nm s] (.name s.toList) := .weaker (Nat.zero_le 9) (.name _)

/-- An end of a line. -/
def eol : Val := .str "\n".toList

/-- ``[ <newline> a, <newline> r"b" <newline> ] + `c` `` -/
theorem sample_form : Form 0
    ((tk K.openSq "[" :: (ends [eol] ++ (([nm "a"] ++ further [⟨[eol], [(K.strPrefix, .str "r".toList), (K.shortString, .str "\"b\"".toList)], .lit ("r".toList ++ "\"b\"".toList)⟩]) ++
      (ends [eol] ++ [tk K.closeSq "]"])))) ++ (opToks .add ++ (tk K.tick "`" :: (([nm "c"] ++ further []) ++ [tk K.tick "`"]))))
    (.op .add (.list [.name "a".toList, .lit ("r".toList ++ "\"b\"".toList)]) (.call "str".toList [.name "c".toList])) := by
  refine .weaker (Nat.zero_le 5) (.op .add (.weaker (by decide) (.list [eol] [eol] (namePart [] "a") [⟨[eol], _, _⟩] ?_)) (.weaker (by decide) (.quoted (namePart [] "c") [] ?_)))
  · intro q hq
    rcases List.mem_cons.mp hq with rfl | hq
    · exact name_form "a"
    · rcases List.mem_singleton.mp hq with rfl
      exact .weaker (Nat.zero_le 9) (.string (.prefixShort _ _))
  · intro q hq
    rcases List.mem_singleton.mp hq with rfl
    exact name_form "c"

example : ∃ w, w.length = 14 ∧ Parses grammar table w
    (.st (.seq [.exprs [.op .add (.list [.name "a".toList, .lit ("r".toList ++ "\"b\"".toList)]) (.call "str".toList [.name "c".toList])]])) :=
  ⟨_, by decide +kernel, C106_forms_partial _ _ sample_form [eol] (by simp)⟩

/-- `x = y <newline>` -/
theorem sample_simple : Wrote .simple [nm "x", tk K.assign "=", nm "y", (K.newline, eol)] (.seq [.assign [.name "x".toList] "=".toList [.name "y".toList]]) := by
  have h : ∀ s : String, Listed [nm s] [.name s.toList] := by
    intro s
    have := Listed.mk (namePart [] s) [] (by intro q hq; rcases List.mem_singleton.mp hq with rfl; exact name_form s)
    simpa [further, namePart] using this
  exact .simple (.one (.assign (h "x") (h "y") K.assign (.inl rfl) "=".toList)) false [eol] (by simp)

/-- `if (a) x = y` with and without braces. -/
example : Parses grammar table [tk K.if_ "if", tk K.openParen "(", nm "a", tk K.closeParen ")", nm "x", tk K.assign "=", nm "y", (K.newline, eol)]
    (.st (.seq [.ite (.name "a".toList) (.seq [.assign [.name "x".toList] "=".toList [.name "y".toList]]) [] []])) :=
  (C107_braces [nm "a"] _ _ _ (name_form "a") sample_simple [] [eol] [eol]).1

/-- `if (a) if (b) x = y else x = y` -/
example : Parses grammar table
    [tk K.if_ "if", tk K.openParen "(", nm "a", tk K.closeParen ")", tk K.if_ "if", tk K.openParen "(", nm "b", tk K.closeParen ")", nm "x", tk K.assign "=", nm "y", (K.newline, eol),
      tk K.else_ "else", nm "x", tk K.assign "=", nm "y", (K.newline, eol)]
    (.st (.seq [.ite (.name "a".toList) (.seq [.ite (.name "b".toList) (.seq [.assign [.name "x".toList] "=".toList [.name "y".toList]]) []
      [.seq [.assign [.name "x".toList] "=".toList [.name "y".toList]]]]) [] []])) :=
  C107_dangling [nm "a"] [nm "b"] _ _ _ _ _ _ (name_form "a") (name_form "b") (.bodySimple sample_simple) (.bodySimple sample_simple)

/-- `if (a)`, the end of the line, and an assignment as its body. -/
theorem bareText_laid : Laid 0 ([tk K.if_ "if", tk K.openParen "(", nm "a", tk K.closeParen ")"] ++ ends [.str "\n ".toList] ++
    [nm "x", tk K.assign "=", nm "y", (K.newline, eol)]) "if (a)\n x = y\n".toList := by
  refine .token K.if_ "if".toList (by decide) (written_sign (by decide)) ' ' (by decide) (by decide) (.blank ' ' (by decide) (.opens ?_))
  refine .token K.id ['a'] (by decide) (name_written (letter_name (by simp [Letter]))) ')' (by decide) (by decide) (.closes ?_)
  refine .ends " ".toList (by decide) (by decide) ?_
  refine .token K.id ['x'] (by decide) (name_written (letter_name (by simp [Letter]))) ' ' (by decide) (by decide) (.blank ' ' (by decide) ?_)
  refine .token K.assign ['='] (by decide) (written_sign (w := "=") (by decide)) ' ' (by decide) (by decide) (.blank ' ' (by decide) ?_)
  refine .token K.id ['y'] (by decide) (name_written (letter_name (by simp [Letter]))) '\n' (by decide) (by decide) ?_
  exact .ends [] (by decide) (by decide) (.stop 0)

theorem respelled_refl : ∀ w : List (Tok Val), Respelled w w
  | [] => .nil
  | t :: r => .same t (respelled_refl r)

example : Reads "if (a)\n x = y\n".toList (.st (.seq [.ite (.name "a".toList) (.seq [.assign [.name "x".toList] "=".toList [.name "y".toList]]) [] []])) :=
  C110_forms _ _ (.textOne [] (.lineAlone (.if_ (name_form "a") [.str "\n ".toList] (.bodySimple sample_simple)))) _ (respelled_refl _) _ bareText_laid

end Drel
end Verif
