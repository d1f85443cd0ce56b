import Verif.Lemmas.DrelParser
import Verif.Lemmas.DrelProgram
/-! # Parsing dREL

What the parser of drel_ast_yacc.py makes of a list of tokens: a tree comes from a derivation of the grammar (C105), and expressions are grouped as
their operators say (C106). -/
namespace Verif
namespace Drel
open LR DrelPy

theorem states_all : ∀ s < 16 * cert.items.length, cert.checkState table s = true := by
  have hl : 16 * cert.items.length ≤ 288 := by decide +kernel
  intro s hs
  have h : ∀ j : Nat, (List.range 32).all (fun s => cert.checkState table (s + j)) = true → j ≤ s → s < j + 32 → cert.checkState table s = true := by
    intro j h h1 h2
    have := List.all_eq_true.mp h (s - j) (List.mem_range.mpr (by omega))
    rwa [Nat.sub_add_cancel h1] at this
  by_cases h0 : s < 32
  · exact h 0 states_ok0 (by omega) (by omega)
  by_cases h1 : s < 64
  · exact h 32 states_ok1 (by omega) (by omega)
  by_cases h2 : s < 96
  · exact h 64 states_ok2 (by omega) (by omega)
  by_cases h3 : s < 128
  · exact h 96 states_ok3 (by omega) (by omega)
  by_cases h4 : s < 160
  · exact h 128 states_ok4 (by omega) (by omega)
  by_cases h5 : s < 192
  · exact h 160 states_ok5 (by omega) (by omega)
  by_cases h6 : s < 224
  · exact h 192 states_ok6 (by omega) (by omega)
  by_cases h7 : s < 256
  · exact h 224 states_ok7 (by omega) (by omega)
  · exact h 256 states_ok8 (by omega) (by omega)

/-- **C105.** What the parser returns for some tokens is the value of a derivation of exactly these tokens in the grammar of the code: no token is
left out, added or moved. (0 is the kind that marks the end of the text, which no token has.) -/
theorem C105_sound (toks : List (Tok Val)) (v : Val) (hk : ∀ t ∈ toks, t.1 ≠ 0) (h : Parses grammar table toks v) :
    Phrase grammar N.input toks v := by
  obtain ⟨n, hn⟩ := h
  exact run_sound sound_ok n ⟨[], toks⟩ [] [] v .nil hk hn

/-- **C105.** The parser ends for every list of tokens, with a tree or with a syntax error. -/
theorem C105_halts (toks : List (Tok Val)) : ∃ n, run grammar table n ⟨[], toks⟩ ≠ none :=
  run_halts sound_ok halt_ok toks.length _ ⟨[], toks⟩ [] [] .nil (Nat.le_refl _) (Nat.le_refl _)

/-- **C105.** There is at most one tree. -/
theorem C105_unique (toks : List (Tok Val)) (v v' : Val) (h : Parses grammar table toks v) (h' : Parses grammar table toks v') : v = v' :=
  parses_unique h h'

/-- **C105.** Every text of the grammar without its ambiguities is accepted, with the value of its derivation.
Missing: texts whose only derivations have a plain `if` as the body of an `if`, a loop or a function without braces, or an expression as the body of a `for` or a
`do` without braces; these are not all accepted (`C105_complete_fails`). -/
theorem C105_complete_partial (toks : List (Tok Val)) (v : Val) (h : Phrase fineGrammar N.input toks v) : Parses grammar table toks v :=
  parses_complete (C := cert) rules_ok states_all ends_ok h

/-- **C105.** The grammar without ambiguities has one value at most for each text. -/
theorem C105_unambiguous (toks : List (Tok Val)) (v v' : Val) (h : Phrase fineGrammar N.input toks v) (h' : Phrase fineGrammar N.input toks v') :
    v = v' :=
  C105_unique toks v v' (C105_complete_partial toks v h) (C105_complete_partial toks v' h')

/-- **C105.** It is a part of the grammar of the code, with the same values. -/
theorem C105_fine (xs : List Sym) (toks : List (Tok Val)) (vs : List Val) (h : Derives fineGrammar xs toks vs) :
    Derives grammar (xs.map cert.sym) toks vs := by
  induction h with
  | nil => exact .nil
  | tok k v _ ih => exact .tok k v ih
  | rule hm _ _ ih₁ ih₂ =>
    obtain ⟨p, f, hf, rfl⟩ := mem_grammar (C := cert) (G := grammar) hm
    obtain ⟨-, -, -, -, r, hr, hrhs, hlhs⟩ := rules_parts rules_ok hf
    have hmem : r ∈ grammar := List.mem_of_getElem? hr
    have hact : (f.rule grammar).act = r.act := by simp only [Fine.rule, hr]
    have ih₁ : Derives grammar (f.rhs.map cert.sym) _ _ := ih₁
    rw [← hrhs] at ih₁
    have := Derives.rule hmem ih₁ ih₂
    rw [hact]
    rw [hlhs] at this
    exact this

/-- **C106.** An expression in which each operand has the level that its place needs is read back from its tokens as that very tree: `or` binds least, then `and`,
`not`, comparisons, `+` and `-`, `*`, `/`, `^`, `&` and `|`, signs and powers; operators group to the left; comparisons do not chain; the exponent may be signed
and the base may not.
Missing: other ways to write the same tree, with newlines in lists and tables, prefixed strings and backquotes, are in `C106_forms_partial`, `&&` and `||` in `C110_spelling`. Slices with
a step and no finish are read wrongly (`C106_step_fails`). -/
theorem C106_expression_partial (kind : Str → Nat) (hkind : ∀ s, kind s ∈ literalKinds) (e : Expr) (h : Fits e) (nl : Str) :
    Parses grammar table (put kind e ++ [(K.newline, .str nl)]) (.st (.seq [.exprs [e]])) := by
  apply C105_complete_partial
  have h1 := at_le (level_le e) (Nat.zero_le _) (put_phrase hkind e h)
  have h2 := fine_exprStmt1 (phrase_one (fine_testlistStarExpr1 (phrase_one h1)))
  have h3 := fine_statement1 (phrase_cons (fine_simpleStmt1 (phrase_one (fine_smallStmt1 (phrase_one h2)))) (phrase_one (fine_newlines1 (tok_cons K.newline (.str nl) .nil))))
  exact fine_input1 (phrase_cons phrase_empty (phrase_one h3))

/-- **C106.** So two expressions that are written with the same tokens are the same. -/
theorem C106_injective (kind : Str → Nat) (hkind : ∀ s, kind s ∈ literalKinds) (e e' : Expr) (h : Fits e) (h' : Fits e') (heq : put kind e = put kind e') :
    e = e' := by
  have h1 := C106_expression_partial kind hkind e h []
  have h2 := C106_expression_partial kind hkind e' h' []
  rw [heq] at h1
  have := C105_unique _ _ _ h1 h2
  simpa using this

/-- **C106.** Assignments, plain and augmented, keep both sides, the order of the expressions on each side and the operator. -/
theorem C106_assignment (kind : Str → Nat) (hkind : ∀ s, kind s ∈ literalKinds) (l r : Expr) (ls rs : List Expr) (hl : FitsAll (l :: ls)) (hr : FitsAll (r :: rs))
    (k : Nat) (hk : k = K.assign ∨ k = K.augop) (op nl : Str) :
    Parses grammar table (putList kind (l :: ls) ++ (k, .str op) :: (putList kind (r :: rs) ++ [(K.newline, .str nl)]))
      (.st (.seq [.assign (l :: ls) op (r :: rs)])) := by
  apply C105_complete_partial
  have h1 := testlist_phrase (put_all hkind _ hl)
  have h2 := testlist_phrase (put_all hkind _ hr)
  have h3 : Phrase fineGrammar N.exprStmt (putList kind (l :: ls) ++ (k, .str op) :: putList kind (r :: rs)) (.st (.assign (l :: ls) op (r :: rs))) := by
    rcases hk with rfl | rfl
    · exact fine_exprStmt3 (phrase_cons h1 (tok_cons _ _ (phrase_one h2)))
    · exact fine_exprStmt2 (phrase_cons h1 (tok_cons _ _ (phrase_one h2)))
  have h4 := fine_statement1 (phrase_cons (fine_simpleStmt1 (phrase_one (fine_smallStmt1 (phrase_one h3)))) (phrase_one (fine_newlines1 (tok_cons K.newline (.str nl) .nil))))
  have h5 : Phrase fineGrammar N.input _ (.st (.seq [.assign (l :: ls) op (r :: rs)])) := fine_input1 (phrase_cons phrase_empty (phrase_one h4))
  simpa using h5

/-- **C107.** A program whose bodies are in braces is read back from its tokens: all the statements in order; every body under the statement it was written in; an `else`
with the `if` whose body it follows; conditions with their bodies; names, limits and steps of loops in their places. In a body the statements of the first line are
followed by one block for each further line; at the top all are in one list.
Missing: bodies without braces and newlines after braces are in `C107_forms_partial`; bodies in braces on one line are not accepted (`C107_line_fails`). -/
theorem C107_program_partial (kind : Str → Nat) (hkind : ∀ s, kind s ∈ literalKinds) (l : Line) (ls : Lines) (h : (Lines.cons l ls).Fits) :
    Parses grammar table ((Lines.cons l ls).put kind) (.st (.seq (Lines.cons l ls).stmts)) := by
  apply C105_complete_partial
  simp only [Lines.Fits] at h
  have h1 : Phrase fineGrammar N.input _ (.st (.seq l.stmts)) := fine_input1 (phrase_cons phrase_empty (phrase_one (line_phrase hkind l h.1)))
  exact program_phrase hkind ls h.2 _ _ h1

/-- **C107.** Programs that are written with the same tokens have the same statements. -/
theorem C107_injective (kind : Str → Nat) (hkind : ∀ s, kind s ∈ literalKinds) (l l' : Line) (ls ls' : Lines) (h : (Lines.cons l ls).Fits)
    (h' : (Lines.cons l' ls').Fits) (heq : (Lines.cons l ls).put kind = (Lines.cons l' ls').put kind) : (Lines.cons l ls).stmts = (Lines.cons l' ls').stmts := by
  have h1 := C107_program_partial kind hkind l ls h
  have h2 := C107_program_partial kind hkind l' ls' h'
  rw [heq] at h1
  have := C105_unique _ _ _ h1 h2
  simpa using this

/-! ## Where the code departs from this -/

/-- The parser ends with a syntax error after at most `n` steps. -/
def rejectsIn (n : Nat) (toks : List (Tok Val)) : Bool := match run grammar table n ⟨[], toks⟩ with | some none => true | _ => false

theorem rejects_of {n : Nat} {toks : List (Tok Val)} (h : rejectsIn n toks = true) (v : Val) : ¬ Parses grammar table toks v := by
  rintro ⟨m, hm⟩
  unfold rejectsIn at h
  split at h
  · rename_i hn
    have h1 := run_more n m _ hn
    have h2 := run_more m n _ hm
    rw [Nat.add_comm, h1] at h2
    cases h2
  · cases h

/-- A name as a token. -/
def nm (s : String) : Tok Val := (K.id, .str s.toList)

/-- `for a in b [c] = d`: the body of the loop is the assignment to the list `[c]`. -/
def forText : List (Tok Val) :=
  [tk K.for_ "for", nm "a", tk K.in_ "in", nm "b", tk K.openSq "[", nm "c", tk K.closeSq "]", tk K.assign "=", nm "d", tk K.newline "\n"]

/-- **C105.** Not every text of the grammar is accepted: where a loop has no braces, its list goes on as far as it can. -/
theorem C105_complete_fails : (∃ v, Phrase grammar N.input forText v) ∧ ∀ v, ¬ Parses grammar table forText v := by
  refine ⟨?_, rejects_of (n := 100) (by decide +kernel)⟩
  have kindOk : ∀ s : Str, (fun _ => K.integer) s ∈ literalKinds := fun _ => show K.integer ∈ literalKinds by decide
  have hb := C105_fine _ _ _ (testlist_phrase (kind := fun _ => K.integer) (put_all kindOk [.name "b".toList] (by simp [FitsAll, Fits])))
  have hs := C105_fine _ _ _ (line_phrase (kind := fun _ => K.integer) kindOk
    (.small (.assign [.list [.name "c".toList]] "=".toList [.name "d".toList]) []) (by simp [Line.Fits, FitsSmall, FitsAll, Fits]))
  have hi := C105_fine _ _ _ (ids_phrase "a".toList [])
  have h0 := C105_fine _ _ _ phrase_empty
  have rule : ∀ (i : Nat) (r : Rule Val), grammar[i]? = some r → ∀ {w : List (Tok Val)} {us : List Val}, Derives grammar r.rhs w us →
      Phrase grammar r.lhs w (r.act us) := by
    intro i r hr w us hd
    have := Derives.rule (List.mem_of_getElem? hr) hd .nil
    rwa [List.append_nil] at this
  have h1 : Phrase grammar N.suite _ _ := rule 137 _ rfl (phrase_one hs)
  have h2 : Phrase grammar N.forStmt _ _ := rule 139 _ rfl (tok_cons K.for_ (.str "for".toList) (phrase_cons hi (tok_cons K.in_ (.str "in".toList) (phrase_cons hb (phrase_one h1)))))
  have h3 : Phrase grammar N.compoundStmt _ _ := rule 128 _ rfl (phrase_one h2)
  have h4 : Phrase grammar N.statement _ _ := rule 5 _ rfl (phrase_one h3)
  exact ⟨_, rule 1 _ rfl (phrase_cons h0 (phrase_one h4))⟩

/-- **C107.** A body in braces on a single line is a syntax error: `if (a) { b = c }`. -/
theorem C107_line_fails (v : Val) : ¬ Parses grammar table
    [tk K.if_ "if", tk K.openParen "(", nm "a", tk K.closeParen ")", tk K.openBrace "{", nm "b", tk K.assign "=", nm "c", tk K.closeBrace "}", tk K.newline "\n"] v :=
  rejects_of (n := 100) (by decide +kernel) v

/-- The tokens of a line with one expression. -/
theorem parses_primary {w : List (Tok Val)} {e : Expr} (h : At 9 w e) (nl : Str) : Parses grammar table (w ++ [(K.newline, .str nl)]) (.st (.seq [.exprs [e]])) := by
  apply C105_complete_partial
  have h1 : Phrase fineGrammar N.expression w (.e e) := at_le (Nat.le_refl 9) (Nat.zero_le _) h
  have h2 := fine_exprStmt1 (phrase_one (fine_testlistStarExpr1 (phrase_one h1)))
  have h3 := fine_statement1 (phrase_cons (fine_simpleStmt1 (phrase_one (fine_smallStmt1 (phrase_one h2)))) (phrase_one (fine_newlines1 (tok_cons K.newline (.str nl) .nil))))
  exact fine_input1 (phrase_cons phrase_empty (phrase_one h3))

/-- **C106.** A slice with a step and no finish gives the tree of a slice with the step for its finish: `p[a::t]` is read as `p[a:t]`. -/
theorem C106_step_fails (kind : Str → Nat) (hkind : ∀ s, kind s ∈ literalKinds) (p a t : Expr) (hl : level p = 9) (hp : Fits p) (ha : Fits a) (ht : Fits t) (nl : Str) :
    Parses grammar table ((put kind p ++ tk K.openSq "[" :: ((put kind a ++ tk K.colon ":" :: tk K.colon ":" :: put kind t) ++ [tk K.closeSq "]"])) ++ [(K.newline, .str nl)])
      (.st (.seq [.exprs [.slice p [a, t]]])) ∧
    Parses grammar table ((put kind p ++ tk K.openSq "[" :: ((put kind a ++ tk K.colon ":" :: put kind t) ++ [tk K.closeSq "]"])) ++ [(K.newline, .str nl)])
      (.st (.seq [.exprs [.slice p [a, t]]])) := by
  have hp' := put_phrase hkind p hp
  rw [hl] at hp'
  have ha' := expr_phrase hkind ha
  have ht' := expr_phrase hkind ht
  have h1 : Phrase fineGrammar N.properSlice (put kind a ++ tk K.colon ":" :: tk K.colon ":" :: put kind t) (.parts [a, t]) := by
    have h : Phrase fineGrammar N.properSlice _ (.parts [a, t]) := fine_properSlice2 (phrase_one (fine_longSlice1 (phrase_cons
      (fine_shortSlice4 (phrase_cons ha' (tok_cons K.colon (.str ":".toList) .nil))) (tok_cons K.colon (.str ":".toList) (phrase_one ht')))))
    simpa [tk] using h
  have h2 : Phrase fineGrammar N.properSlice (put kind a ++ tk K.colon ":" :: put kind t) (.parts [a, t]) :=
    fine_properSlice1 (phrase_one (fine_shortSlice2 (phrase_cons ha' (tok_cons K.colon (.str ":".toList) (phrase_one ht')))))
  exact ⟨parses_primary (slice_phrase hp' h1) nl, parses_primary (slice_phrase hp' h2) nl⟩

/-- **C106.** A number written after a name is taken for an attribute, without the first character of the number: `x 1.5` is read as the attribute `.5` of `x`. -/
theorem C106_number_fails (x n nl : Str) :
    Parses grammar table [(K.id, .str x), (K.real, .str n), (K.newline, .str nl)] (.st (.seq [.exprs [.attr (.name x) n.tail]])) := by
  have h1 : At 9 [(K.id, .str x)] (.name x) := phrase_atom (fine_atom1 (tok_cons K.id (.str x) .nil))
  have h2 : At 9 [(K.id, .str x), (K.real, .str n)] (.attr (.name x) n.tail) :=
    fine_primary2 (phrase_one (fine_attributeref1 (phrase_cons h1 (phrase_one (fine_attributeTag2 (tok_cons K.real (.str n) .nil))))))
  exact parses_primary h2 nl

/-! ## Examples -/

/-- The kind of a text in the examples: a string if it begins with a quote, otherwise an integer. -/
def sampleKind (s : Str) : Nat := if s.head? = some '\'' then K.shortString else K.integer

theorem sampleKind_ok (s : Str) : sampleKind s ∈ literalKinds := by
  unfold sampleKind
  split <;> decide

/-- `not a.b + -2 ** -c * (d or 'e', f[1:2]) in g(h, [])` -/
def sampleExpr : Expr :=
  .not (.op .isIn
    (.op .add (.attr (.name "a".toList) "b".toList)
      (.op .mul (.sign true (.op .pow (.lit "2".toList) (.sign true (.name "c".toList))))
        (.group [.op .or (.name "d".toList) (.lit "'e'".toList), .slice (.name "f".toList) [.lit "1".toList, .lit "2".toList]])))
    (.call "g".toList [.tag "_h".toList, .list []]))

theorem sampleExpr_fits : Fits sampleExpr := by
  simp [sampleExpr, Fits, FitsAll, FitsSlice, level, opLevel, leftNeed, rightNeed]

example : (put sampleKind sampleExpr).length = 31 := by decide +kernel

example : Parses grammar table (put sampleKind sampleExpr ++ [(K.newline, .str "\n".toList)]) (.st (.seq [.exprs [sampleExpr]])) :=
  C106_expression_partial sampleKind sampleKind_ok sampleExpr sampleExpr_fits _

example : Phrase grammar N.input (put sampleKind sampleExpr ++ [(K.newline, .str "\n".toList)]) (.st (.seq [.exprs [sampleExpr]])) :=
  C105_sound _ _ (by decide +kernel) (C106_expression_partial sampleKind sampleKind_ok sampleExpr sampleExpr_fits _)

/-- Written with other groups, the tokens are others: `a - b - c` is `(a - b) - c`. -/
example : Fits (.op .sub (.op .sub (.name "a".toList) (.name "b".toList)) (.name "c".toList)) ∧
    ¬ Fits (.op .sub (.name "a".toList) (.op .sub (.name "b".toList) (.name "c".toList))) := by
  simp [Fits, level, opLevel, leftNeed, rightNeed]

/-- `loop a as atom : i < n { x += a.z; next` and so on, with nested alternatives. -/
def sampleProgram : Lines :=
  .cons (.small (.assign [.name "x".toList] "=".toList [.lit "0".toList]) []) (.cons
    (.loopTest "a".toList "atom".toList "i".toList .lt "n".toList (.mk
      (.ite (.op .gt (.name "i".toList) (.lit "3".toList))
        (.mk (.small (.assign [.name "x".toList] "+=".toList [.attr (.name "a".toList) "z".toList]) [.next]) .nil)
        (.elseif (.name "y".toList) (.mk (.small .brk []) .nil) (.else_ (.mk (.small (.print sampleExpr) []) .nil))))
      (.cons (.small (.exprs [.call "f".toList []]) []) .nil))) .nil)

theorem sampleProgram_fits : sampleProgram.Fits := by
  simp [sampleProgram, Lines.Fits, Line.Fits, Body.Fits, Elses.Fits, FitsSmall, FitsAll, Fits, level, opLevel, leftNeed, rightNeed, sampleExpr_fits]

example : Parses grammar table (sampleProgram.put sampleKind) (.st (.seq sampleProgram.stmts)) :=
  C107_program_partial sampleKind sampleKind_ok _ _ sampleProgram_fits

end Drel
end Verif
