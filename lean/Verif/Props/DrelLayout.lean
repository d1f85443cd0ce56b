import Verif.Lemmas.DrelLayout
import Verif.Props.DrelParser
import Verif.Props.DrelLex
/-! # The layout of dREL programs

Blanks, comments, empty lines and the two spellings of `and` and `or` make no difference to what is read (C110). -/
namespace Verif
namespace Drel
open LR DrelPy

/-- **C110.** With `&&` for `and`, `||` for `or`, several ends of lines for one, or ends of lines at the start, the tree is the same. -/
theorem C110_spelling (toks toks' : List (Tok Val)) (v : Val) (h : Phrase fineGrammar N.input toks v) (hr : Respelled toks toks') (us : List Val) :
    Parses grammar table (us.map (fun u => (K.newline, u)) ++ toks') v := by
  apply C105_complete_partial
  have h1 := respelled_phrase h hr
  cases us with
  | nil => exact h1
  | cons u us => exact leading (by simp) h1 N.input (by decide) rfl

/-- **C110.** A text has the tokens it is laid out from, and no others: what is between them is passed over. -/
theorem C110_tokens (toks : List (Tok Val)) (s : Str) (h : Laid 0 toks s) : Lex.lex s = some toks :=
  Lex.laid_tokens h _ (Nat.lt_succ_self _)

/-- **C110.** A program is read back from its text in any layout and spelling. -/
theorem C110_program (kind : Str → Nat) (hkind : ∀ s, kind s ∈ literalKinds) (l : Line) (ls : Lines) (h : (Lines.cons l ls).Fits) (us : List Val) (toks : List (Tok Val))
    (hr : Respelled ((Lines.cons l ls).put kind) toks) (s : Str) (hl : Laid 0 (us.map (fun u => (K.newline, u)) ++ toks) s) :
    Reads s (.st (.seq (Lines.cons l ls).stmts)) := by
  have h2 : Phrase fineGrammar N.input ((Lines.cons l ls).put kind) (.st (.seq (Lines.cons l ls).stmts)) := by
    simp only [Lines.Fits] at h
    have h1 : Phrase fineGrammar N.input _ (.st (.seq l.stmts)) := fine_input1 (phrase_cons phrase_empty (phrase_one (line_phrase hkind l h.1)))
    exact program_phrase hkind ls h.2 _ _ h1
  exact ⟨_, C110_tokens _ _ hl, C110_spelling _ _ _ h2 hr us⟩

/-- **C110.** So two texts of a program that differ in layout and spelling only are read as the same tree. -/
theorem C110_same (kind : Str → Nat) (hkind : ∀ s, kind s ∈ literalKinds) (l : Line) (ls : Lines) (h : (Lines.cons l ls).Fits) (us us' : List Val) (toks toks' : List (Tok Val))
    (hr : Respelled ((Lines.cons l ls).put kind) toks) (hr' : Respelled ((Lines.cons l ls).put kind) toks') (s s' : Str)
    (hl : Laid 0 (us.map (fun u => (K.newline, u)) ++ toks) s) (hl' : Laid 0 (us'.map (fun u => (K.newline, u)) ++ toks') s') (v v' : Val) (hv : Reads s v)
    (hv' : Reads s' v') : v = v' := by
  rw [C109_unique _ _ _ hv (C110_program kind hkind l ls h us toks hr s hl), C109_unique _ _ _ hv' (C110_program kind hkind l ls h us' toks' hr' s' hl')]

/-! ## Other forms -/

/-- **C106.** Expressions in backquotes are a call of `str`. -/
theorem C106_conversion (kind : Str → Nat) (hkind : ∀ s, kind s ∈ literalKinds) (e : Expr) (es : List Expr) (h : FitsAll (e :: es)) (nl : Str) :
    Parses grammar table ((tk K.tick "`" :: (putList kind (e :: es) ++ [tk K.tick "`"])) ++ [(K.newline, .str nl)]) (.st (.seq [.exprs [.call "str".toList (e :: es)]])) := by
  have h1 := testlist_phrase (put_all hkind _ h)
  have h2 : Phrase fineGrammar N.stringConversion (tk K.tick "`" :: (putList kind (e :: es) ++ [tk K.tick "`"])) (.e (.call "str".toList (e :: es))) :=
    fine_stringConversion1 (tok_cons K.tick (.str "`".toList) (phrase_cons h1 (tok_cons K.tick (.str "`".toList) .nil)))
  exact parses_primary (phrase_enclosed (fine_enclosure2 (phrase_one h2))) nl

/-- **C106.** The prefix of a string is kept before it. -/
theorem C106_prefix (p s nl : Str) (k : Nat) (hk : k = K.shortString ∨ k = K.longString) :
    Parses grammar table ([(K.strPrefix, .str p), (k, .str s)] ++ [(K.newline, .str nl)]) (.st (.seq [.exprs [.lit (p ++ s)]])) := by
  have h1 : Phrase fineGrammar N.stringliteral [(K.strPrefix, .str p), (k, .str s)] (.str (p ++ s)) := by
    rcases hk with rfl | rfl
    · exact fine_stringliteral1 (tok_cons K.strPrefix (.str p) (tok_cons K.shortString (.str s) .nil))
    · exact fine_stringliteral2 (tok_cons K.strPrefix (.str p) (tok_cons K.longString (.str s) .nil))
  exact parses_primary (phrase_atom (fine_atom3 (phrase_one (fine_literal1 (phrase_one h1))))) nl

/-- **C107.** The step of a `do` that has none is 1. -/
theorem C107_do (kind : Str → Nat) (hkind : ∀ s, kind s ∈ literalKinds) (i : Str) (a z : Expr) (ha : Fits a) (hz : Fits z) (b : Body) (hb : b.Fits) :
    Parses grammar table (tk K.do_ "do" :: (K.id, .str i) :: tk K.assign "=" :: (put kind a ++ tk K.comma "," :: (put kind z ++ b.put kind)))
      (.st (.seq [.do_ i a z (.lit "1".toList) b.tree])) := by
  apply C105_complete_partial
  have h1 := fine_doStmtHead1 (tok_cons K.do_ (.str "do".toList) (tok_cons K.id (.str i) (tok_cons K.assign (.str "=".toList) (phrase_cons (expr_phrase hkind ha)
    (tok_cons K.comma (.str ",".toList) (phrase_one (expr_phrase hkind hz)))))))
  have h2 : Phrase fineGrammar N.statement _ (.st (.seq [.do_ i a z (.lit "1".toList) b.tree])) :=
    fine_statement3 (phrase_one (fine_compoundStmt4 (phrase_one (fine_doStmt1 (phrase_cons h1 (phrase_one (body_phrase hkind b hb).2))))))
  have h3 : Phrase fineGrammar N.input _ (.st (.seq [.do_ i a z (.lit "1".toList) b.tree])) := fine_input1 (phrase_cons phrase_empty (phrase_one h2))
  simpa [tk] using h3

/-! ## Examples -/

/-- `x[i] = a and b` -/
def laidProgram : Line := .small (.assign [.sub (.name "x".toList) (.name "i".toList)] "=".toList [.op .and (.name "a".toList) (.name "b".toList)]) []

/-- Its tokens, with `&&` and two lines at the end. -/
def laidTokens : List (Tok Val) :=
  [nm "x", tk K.openSq "[", nm "i", tk K.closeSq "]", tk K.assign "=", nm "a", tk K.badAnd "&&", nm "b", tk K.newline "\n \n", tk K.newline "\n"]

/-- A text with comments, a tab and empty lines. -/
def laidText : String := "# start\n\n x[i]= a &&\tb# end\n \n#\n"

theorem laidTokens_respelled : Respelled ((Lines.cons laidProgram .nil).put sampleKind) laidTokens := by
  have e : (Lines.cons laidProgram .nil).put sampleKind =
      [nm "x", tk K.openSq "[", nm "i", tk K.closeSq "]", tk K.assign "=", nm "a", tk K.and_ "and", nm "b", tk K.newline "\n"] := rfl
  rw [e]
  exact .same _ (.same _ (.same _ (.same _ (.same _ (.same _ (.conj (.same _ (.lines _ [.str "\n \n".toList, .str "\n".toList] (by simp) .nil))))))))

theorem name_written {s : Str} (h : IsName s) : Written K.id s := .inr (.inr (.inr (.inr (.inr (.inl ⟨rfl, h⟩)))))

theorem letter_name {c : Char} (h : Letter c) : IsName [c] := by
  refine ⟨h, by simp, ?_, rfl⟩
  intro w hw e
  have h1 : reservedWords.all (fun w => decide (1 < w.toList.length)) = true := by decide +kernel
  have := List.all_eq_true.mp h1 w hw
  rw [e] at this
  simp at this

theorem laidText_laid : Laid 0 ([Val.str "\n\n ".toList].map (fun u => (K.newline, u)) ++ laidTokens) laidText.toList := by
  refine .comment " start".toList (by decide) (.ends "\n ".toList (by decide) (by decide) ?_)
  refine .token K.id ['x'] (by decide) (name_written (letter_name (by simp [Letter]))) '[' (by decide) (by decide) ?_
  refine .solo K.openSq '[' (by decide) ?_
  refine .token K.id ['i'] (by decide) (name_written (letter_name (by simp [Letter]))) ']' (by decide) (by decide) ?_
  refine .solo K.closeSq ']' (by decide) ?_
  refine .token K.assign ['='] (by decide) (written_sign (w := "=") (by decide)) ' ' (by decide) (by decide) (.blank ' ' (by decide) ?_)
  refine .token K.id ['a'] (by decide) (name_written (letter_name (by simp [Letter]))) ' ' (by decide) (by decide) (.blank ' ' (by decide) ?_)
  refine .token K.badAnd "&&".toList (by decide) (written_sign (by decide)) '\t' (by decide) (by decide) (.blank '\t' (by decide) ?_)
  refine .token K.id ['b'] (by decide) (name_written (letter_name (by simp [Letter]))) '#' (by decide) (by decide) ?_
  refine .comment " end".toList (by decide) (.ends " \n".toList (by decide) (by decide) ?_)
  exact .comment [] (by decide) (.ends [] (by decide) (by decide) (.stop 0))

theorem laidProgram_fits : (Lines.cons laidProgram .nil).Fits := by
  simp [laidProgram, Lines.Fits, Line.Fits, FitsSmall, FitsAll, Fits, level, leftNeed, rightNeed]

example : Reads laidText.toList (.st (.seq laidProgram.stmts)) := by
  have := C110_program sampleKind sampleKind_ok laidProgram .nil laidProgram_fits [Val.str "\n\n ".toList] laidTokens laidTokens_respelled laidText.toList laidText_laid
  simpa [Lines.stmts] using this

end Drel
end Verif
