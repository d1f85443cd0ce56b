import Verif.Lemmas.DrelExpr
import Verif.Spec.DrelProgram
/-! # Derivations of written programs -/
namespace Verif
namespace Drel
open LR DrelPy

theorem ids_more : ∀ (ids : List Str) (w : List (Tok Val)) (l : List Str), Phrase fineGrammar N.idList w (.ids l) →
    Phrase fineGrammar N.idList (w ++ putIds ids) (.ids (l ++ ids))
  | [], w, l, h => by simpa [putIds] using h
  | s :: r, w, l, h => by
    have h1 := fine_idList2 (phrase_cons h (tok_cons K.comma (.str ",".toList) (tok_cons K.id (.str s) .nil)))
    have h2 := ids_more r _ (l ++ [s]) h1
    simpa [putIds, tk] using h2

theorem ids_phrase (i : Str) (ids : List Str) : Phrase fineGrammar N.idList ((K.id, .str i) :: putIds ids) (.ids (i :: ids)) := by
  have := ids_more ids _ [i] (fine_idList1 (tok_cons K.id (.str i) .nil))
  simpa using this

theorem type_phrase : Phrase fineGrammar N.listDisplay [tk K.openSq "[", tk K.closeSq "]"] (.e (.list [])) :=
  fine_listDisplay2 (tok_cons K.openSq (.str "[".toList) (phrase_cons phrase_empty (tok_cons K.closeSq (.str "]".toList) .nil)))

theorem args_more : ∀ (xs : List Str) (w : List (Tok Val)) (l : List Str), Phrase fineGrammar N.arglist w (.ids l) →
    Phrase fineGrammar N.arglist (w ++ putArgs xs) (.ids (l ++ xs))
  | [], w, l, h => by simpa [putArgs] using h
  | s :: r, w, l, h => by
    have h1 := fine_arglist2 (phrase_cons h (tok_cons K.comma (.str ",".toList) (tok_cons K.id (.str s) (tok_cons K.colon (.str ":".toList) (phrase_one type_phrase)))))
    have h2 := args_more r _ (l ++ [s]) h1
    simpa [putArgs, tk] using h2

theorem args_phrase (x : Str) (xs : List Str) :
    Phrase fineGrammar N.arglist ((K.id, .str x) :: tk K.colon ":" :: tk K.openSq "[" :: tk K.closeSq "]" :: putArgs xs) (.ids (x :: xs)) := by
  have := args_more xs _ [x] (fine_arglist1 (tok_cons K.id (.str x) (tok_cons K.colon (.str ":".toList) (phrase_one type_phrase))))
  simpa [tk] using this

section
variable {kind : Str → Nat}

theorem dots_more : ∀ (ks : List Str) (es : List Expr) (w : List (Tok Val)) (lk : List Str) (l : List Expr), ks.length = es.length → AllAt kind es →
    Phrase fineGrammar N.dotlist w (.tab lk l) → Phrase fineGrammar N.dotlist (w ++ putDots kind ks es) (.tab (lk ++ ks) (l ++ es))
  | [], [], w, lk, l, _, _, h => by simpa [putDots] using h
  | [], _ :: _, _, _, _, h, _, _ => nomatch h
  | _ :: _, [], _, _, _, h, _, _ => nomatch h
  | k :: ks, e :: es, w, lk, l, hl, ha, h => by
    have h1 := fine_dotlist2 (phrase_cons h (tok_cons K.comma (.str ",".toList) (tok_cons K.dot (.str ".".toList) (tok_cons K.id (.str k)
      (tok_cons K.assign (.str "=".toList) (phrase_one (ha e List.mem_cons_self)))))))
    have h2 := dots_more ks es _ (lk ++ [k]) (l ++ [e]) (by simpa using hl) (fun x hx => ha x (List.mem_cons_of_mem _ hx)) h1
    simpa [putDots, tk] using h2

variable (hkind : ∀ s, kind s ∈ literalKinds)

include hkind

theorem expr_phrase {e : Expr} (h : Fits e) : Phrase fineGrammar N.expression (put kind e) (.e e) :=
  at_le (level_le e) (Nat.zero_le _) (put_phrase hkind e h)

theorem small_phrase {s : Stmt} (h : FitsSmall s) : Phrase fineGrammar N.smallStmt (putSmall kind s) (.st s) := by
  cases s with
  | exprs es =>
    cases es with
    | nil => exact absurd rfl h.1
    | cons e es => exact fine_smallStmt1 (phrase_one (fine_exprStmt1 (phrase_one (testlist_phrase (put_all hkind _ h.2)))))
  | assign l op r =>
    cases l with
    | nil => exact absurd rfl h.1
    | cons l ls =>
      cases r with
      | nil => exact absurd rfl h.2.2.1
      | cons r rs =>
        have h1 := testlist_phrase (put_all hkind _ h.2.1)
        have h2 := testlist_phrase (put_all hkind _ h.2.2.2)
        simp only [putSmall]
        split
        · exact fine_smallStmt1 (phrase_one (fine_exprStmt3 (phrase_cons h1 (tok_cons _ _ (phrase_one h2)))))
        · exact fine_smallStmt1 (phrase_one (fine_exprStmt2 (phrase_cons h1 (tok_cons _ _ (phrase_one h2)))))
  | fancy cat ks vs =>
    cases ks with
    | nil => exact absurd rfl h.1
    | cons k ks =>
      cases vs with
      | nil => cases h.2.1
      | cons e es =>
        have ha := put_all hkind _ h.2.2
        have h1 := fine_dotlist1 (tok_cons K.dot (.str ".".toList) (tok_cons K.id (.str k) (tok_cons K.assign (.str "=".toList) (phrase_one (ha e List.mem_cons_self)))))
        have h2 := dots_more ks es _ [k] [e] (by simpa using h.2.1) (fun x hx => ha x (List.mem_cons_of_mem _ hx)) h1
        have h3 : Phrase fineGrammar N.smallStmt _ (.st (.fancy cat (k :: ks) (e :: es))) := fine_smallStmt1 (phrase_one (fine_exprStmt4 (phrase_one
          (fine_fancyDrelAssignmentStmt1 (tok_cons K.id (.str cat) (tok_cons K.openParen (.str "(".toList) (phrase_cons h2 (tok_cons K.closeParen (.str ")".toList) .nil))))))))
        simpa [putSmall, tk] using h3
  | print e => exact fine_smallStmt2 (phrase_one (fine_printStmt1 (tok_cons _ _ (phrase_one (expr_phrase hkind h)))))
  | brk => exact fine_smallStmt3 (phrase_one (fine_breakStmt1 (tok_cons _ _ .nil)))
  | next => exact fine_smallStmt4 (phrase_one (fine_nextStmt1 (tok_cons _ _ .nil)))
  | _ => exact False.elim h

theorem smalls_more : ∀ (ss : List Stmt) (w : List (Tok Val)) (l : List Stmt), (∀ t ∈ ss, FitsSmall t) → Phrase fineGrammar N.simpleStmt w (.st (.seq l)) →
    Phrase fineGrammar N.simpleStmt (w ++ putSmalls kind ss) (.st (.seq (l ++ ss)))
  | [], w, l, _, h => by simpa [putSmalls] using h
  | s :: r, w, l, hs, h => by
    have h1 := fine_simpleStmt2 (phrase_cons h (tok_cons K.semi (.str ";".toList) (phrase_one (small_phrase hkind (hs s List.mem_cons_self)))))
    have h2 := smalls_more r _ (l ++ [s]) (fun t ht => hs t (List.mem_cons_of_mem _ ht)) h1
    simpa [putSmalls, tk] using h2

/-- The values of a line as a statement, of a body, of further lines and of the alternatives. -/
def LineAt (kind : Str → Nat) (l : Line) : Prop := Phrase fineGrammar N.statement (l.put kind) (.st (.seq l.stmts))

omit hkind in
theorem compound_if {w : List (Tok Val)} {s : Stmt} (h : Phrase fineGrammar N.ifStmt w (.st s)) : Phrase fineGrammar N.statement w (.st (.seq [s])) :=
  fine_statement3 (phrase_one (fine_compoundStmt1 (phrase_one h)))

set_option linter.unusedSectionVars false
mutual
theorem line_phrase : ∀ l : Line, l.Fits → Phrase fineGrammar N.statement (l.put kind) (.st (.seq l.stmts))
  | .small s more, h => by
    simp only [Line.Fits] at h
    have h1 := smalls_more hkind more _ [s] h.2 (fine_simpleStmt1 (phrase_one (small_phrase hkind h.1)))
    have h2 : Phrase fineGrammar N.statement _ (.st (.seq (s :: more))) :=
      fine_statement1 (phrase_cons h1 (phrase_one (fine_newlines1 (tok_cons K.newline (.str "\n".toList) .nil))))
    simp only [List.append_assoc] at h2
    simpa [Line.put, tk, Line.stmts] using h2
  | .ite c b els, h => by
    simp only [Line.Fits] at h
    have h1 : Phrase fineGrammar N.ifStmt _ (.st (.ite c b.tree [] [])) := fine_ifStmt1 (tok_cons K.if_ (.str "if".toList) (tok_cons K.openParen (.str "(".toList)
      (phrase_cons (expr_phrase hkind h.1) (tok_cons K.closeParen (.str ")".toList) (phrase_cons phrase_empty (phrase_one (body_phrase b h.2.1).1))))))
    have h2 := elses_phrase els h.2.2 _ c b.tree [] [] h1
    simpa [Line.put, tk, Line.stmts] using h2
  | .do_ i a z st b, h => by
    simp only [Line.Fits] at h
    have h1 := fine_doStmtHead2 (tok_cons K.do_ (.str "do".toList) (tok_cons K.id (.str i) (tok_cons K.assign (.str "=".toList) (phrase_cons (expr_phrase hkind h.1)
      (tok_cons K.comma (.str ",".toList) (phrase_cons (expr_phrase hkind h.2.1) (tok_cons K.comma (.str ",".toList) (phrase_one (expr_phrase hkind h.2.2.1)))))))))
    have h2 : Phrase fineGrammar N.statement _ (.st (.seq [.do_ i a z st b.tree])) :=
      fine_statement3 (phrase_one (fine_compoundStmt4 (phrase_one (fine_doStmt1 (phrase_cons h1 (phrase_one (body_phrase b h.2.2.2).2))))))
    simpa [Line.put, tk, Line.stmts] using h2
  | .for_ i ids x over b, h => by
    simp only [Line.Fits] at h
    have h1 : Phrase fineGrammar N.statement _ (.st (.seq [.for_ (i :: ids) (x :: over) b.tree])) :=
      fine_statement3 (phrase_one (fine_compoundStmt3 (phrase_one (fine_forStmt1 (tok_cons K.for_ (.str "for".toList) (phrase_cons (ids_phrase i ids)
        (tok_cons K.in_ (.str "in".toList) (phrase_cons (testlist_phrase (put_all hkind _ h.1)) (phrase_one (body_phrase b h.2).2)))))))))
    simpa [Line.put, tk, Line.stmts] using h1
  | .rep b, h => by
    simp only [Line.Fits] at h
    have h1 : Phrase fineGrammar N.statement _ (.st (.seq [.rep b.tree])) :=
      fine_statement3 (phrase_one (fine_compoundStmt7 (phrase_one (fine_repeatStmt1 (tok_cons K.repeat_ (.str "repeat".toList) (phrase_one (body_phrase b h).1))))))
    simpa [Line.put, tk, Line.stmts] using h1
  | .with_ a c b, h => by
    simp only [Line.Fits] at h
    have h1 := fine_withHead1 (tok_cons K.with_ (.str "with".toList) (tok_cons K.id (.str a) (tok_cons K.as_ (.str "as".toList) (tok_cons K.id (.str c) .nil))))
    have h2 : Phrase fineGrammar N.statement _ (.st (.seq [.with_ a c b.tree])) :=
      fine_statement3 (phrase_one (fine_compoundStmt6 (phrase_one (fine_withStmt1 (phrase_cons h1 (phrase_cons phrase_empty (phrase_one (body_phrase b h).1)))))))
    simpa [Line.put, tk, Line.stmts] using h2
  | .loop a c b, h => by
    simp only [Line.Fits] at h
    have h1 := fine_loopHead1 (tok_cons K.loop (.str "loop".toList) (tok_cons K.id (.str a) (tok_cons K.as_ (.str "as".toList) (tok_cons K.id (.str c) .nil))))
    have h2 : Phrase fineGrammar N.statement _ (.st (.seq [.loop a c [] [] [] b.tree])) :=
      fine_statement3 (phrase_one (fine_compoundStmt5 (phrase_one (fine_loopStmt1 (phrase_cons h1 (phrase_one (body_phrase b h).1))))))
    simpa [Line.put, tk, Line.stmts] using h2
  | .loopIndex a c i b, h => by
    simp only [Line.Fits] at h
    have h1 := fine_loopHead2 (tok_cons K.loop (.str "loop".toList) (tok_cons K.id (.str a) (tok_cons K.as_ (.str "as".toList) (tok_cons K.id (.str c)
      (tok_cons K.colon (.str ":".toList) (tok_cons K.id (.str i) .nil))))))
    have h2 : Phrase fineGrammar N.statement _ (.st (.seq [.loop a c i [] [] b.tree])) :=
      fine_statement3 (phrase_one (fine_compoundStmt5 (phrase_one (fine_loopStmt1 (phrase_cons h1 (phrase_one (body_phrase b h).1))))))
    simpa [Line.put, tk, Line.stmts] using h2
  | .loopTest a c i o l b, h => by
    simp only [Line.Fits] at h
    have ho : Phrase fineGrammar N.restrictedCompOperator (opToks o) (.str (cmpText o)) := by
      obtain ⟨⟨h1, h2, h3⟩, -⟩ := h
      cases o with
      | lt => exact fine_restrictedCompOperator1 (tok_cons _ _ .nil)
      | gt => exact fine_restrictedCompOperator2 (tok_cons _ _ .nil)
      | ge => exact fine_restrictedCompOperator3 (tok_cons _ _ .nil)
      | le => exact fine_restrictedCompOperator4 (tok_cons _ _ .nil)
      | ne => exact fine_restrictedCompOperator5 (tok_cons _ _ .nil)
      | eq => exact fine_restrictedCompOperator6 (tok_cons _ _ .nil)
      | isIn => exact absurd rfl h2
      | notIn => exact absurd rfl h3
      | _ => simp [opLevel] at h1
    have h1 := fine_loopHead3 (tok_cons K.loop (.str "loop".toList) (tok_cons K.id (.str a) (tok_cons K.as_ (.str "as".toList) (tok_cons K.id (.str c)
      (tok_cons K.colon (.str ":".toList) (tok_cons K.id (.str i) (phrase_cons ho (tok_cons K.id (.str l) .nil))))))))
    have h2 : Phrase fineGrammar N.statement _ (.st (.seq [.loop a c i (cmpText o) l b.tree])) :=
      fine_statement3 (phrase_one (fine_compoundStmt5 (phrase_one (fine_loopStmt1 (phrase_cons h1 (phrase_one (body_phrase b h.2).1))))))
    simpa [Line.put, tk, Line.stmts] using h2
  | .func f x xs b, h => by
    simp only [Line.Fits] at h
    have h2 : Phrase fineGrammar N.statement _ (.st (.seq [.func f (x :: xs) b.tree])) :=
      fine_statement3 (phrase_one (fine_compoundStmt8 (phrase_one (fine_funcdef1 (tok_cons K.function (.str "function".toList) (tok_cons K.id (.str f)
        (tok_cons K.openParen (.str "(".toList) (phrase_cons (args_phrase x xs) (tok_cons K.closeParen (.str ")".toList) (phrase_one (body_phrase b h).1))))))))))
    simpa [Line.put, tk, Line.stmts] using h2
theorem body_phrase : ∀ b : Body, b.Fits → Phrase fineGrammar M.suiteN (b.put kind) (.st b.tree) ∧ Phrase fineGrammar M.suiteK (b.put kind) (.st b.tree)
  | .mk l r, h => by
    simp only [Body.Fits] at h
    have h1 := lines_phrase r h.2 _ l.stmts (fine_statements1 (phrase_one (line_phrase l h.1)))
    have h2 := tok_cons K.openBrace (.str "{".toList) (phrase_cons phrase_empty (phrase_cons h1 (tok_cons K.closeBrace (.str "}".toList) (phrase_one phrase_empty))))
    have h3 : Phrase fineGrammar M.suiteN _ (.st (.seq (l.stmts ++ r.trees))) := fine_suiteN2 h2
    have h4 : Phrase fineGrammar M.suiteK _ (.st (.seq (l.stmts ++ r.trees))) := fine_suiteK2 h2
    simp only [List.nil_append, List.append_assoc] at h3 h4
    exact ⟨h3, h4⟩
theorem lines_phrase : ∀ ls : Lines, ls.Fits → ∀ (w : List (Tok Val)) (l : List Stmt), Phrase fineGrammar N.statements w (.st (.seq l)) →
    Phrase fineGrammar N.statements (w ++ ls.put kind) (.st (.seq (l ++ ls.trees)))
  | .nil, _, w, l, hw => by simpa [Lines.put, Lines.trees] using hw
  | .cons x r, h, w, l, hw => by
    simp only [Lines.Fits] at h
    have h1 := fine_statements2 (phrase_cons hw (phrase_one (line_phrase x h.1)))
    have h2 := lines_phrase r h.2 _ (l ++ [.seq x.stmts]) h1
    simpa [Lines.put, Lines.trees] using h2
theorem elses_phrase : ∀ els : Elses, els.Fits → ∀ (w : List (Tok Val)) (c : Expr) (b : Stmt) (cs : List Expr) (bs : List Stmt),
    Phrase fineGrammar N.ifStmt w (.st (.ite c b cs bs)) →
    Phrase fineGrammar N.statement (w ++ els.put kind) (.st (.seq [.ite c b (cs ++ els.conds) (bs ++ els.bodies)]))
  | .nil, _, w, c, b, cs, bs, hw => by
    have := compound_if hw
    simpa [Elses.put, Elses.conds, Elses.bodies] using this
  | .else_ x, h, w, c, b, cs, bs, hw => by
    simp only [Elses.Fits] at h
    have h1 : Phrase fineGrammar N.ifElseStmt _ (.st (.ite c b cs (bs ++ [x.tree]))) :=
      fine_ifElseStmt1 (phrase_cons hw (tok_cons K.else_ (.str "else".toList) (phrase_one (body_phrase x h).1)))
    have h2 : Phrase fineGrammar N.statement _ (.st (.seq [.ite c b cs (bs ++ [x.tree])])) := fine_statement3 (phrase_one (fine_compoundStmt2 (phrase_one h1)))
    simpa [Elses.put, Elses.conds, Elses.bodies, tk] using h2
  | .elseif e x r, h, w, c, b, cs, bs, hw => by
    simp only [Elses.Fits] at h
    have h1 : Phrase fineGrammar N.ifStmt _ (.st (.ite c b (cs ++ [e]) (bs ++ [x.tree]))) :=
      fine_ifStmt2 (phrase_cons hw (tok_cons K.elseif (.str "else if".toList) (tok_cons K.openParen (.str "(".toList)
        (phrase_cons (expr_phrase hkind h.1) (tok_cons K.closeParen (.str ")".toList) (phrase_cons phrase_empty (phrase_one (body_phrase x h.2.1).1)))))))
    have h2 := elses_phrase r h.2.2 _ c b _ _ h1
    simpa [Elses.put, Elses.conds, Elses.bodies, tk] using h2
end

theorem program_phrase : ∀ (ls : Lines), ls.Fits → ∀ (w : List (Tok Val)) (l : List Stmt), Phrase fineGrammar N.input w (.st (.seq l)) →
    Phrase fineGrammar N.input (w ++ ls.put kind) (.st (.seq (l ++ ls.stmts)))
  | .nil, _, w, l, hw => by simpa [Lines.put, Lines.stmts] using hw
  | .cons x r, h, w, l, hw => by
    simp only [Lines.Fits] at h
    have h1 : Phrase fineGrammar N.input _ (.st (.seq (l ++ x.stmts))) := fine_input2 (phrase_cons hw (phrase_one (line_phrase hkind x h.1)))
    have h2 := program_phrase r h.2 _ _ h1
    simpa [Lines.put, Lines.stmts] using h2

end
end Drel
end Verif
