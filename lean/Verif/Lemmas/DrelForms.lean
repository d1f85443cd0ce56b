import Verif.Spec.DrelForms
import Verif.Lemmas.DrelProgram
import Verif.Lemmas.DrelLayout
/-! # Derivations of all the ways to write a program -/
namespace Verif
namespace Drel
open LR DrelPy

theorem ends_phrase : ∀ us : List Val, Phrase fineGrammar N.maybeNline (ends us) .none
  | [] => phrase_empty
  | u :: us => fine_maybeNline1 (phrase_one (newlines_phrase (us := u :: us) (by simp)))

theorem lineEnds_phrase {us : List Val} (h : us ≠ []) : Phrase fineGrammar N.newlines (ends us) .none := newlines_phrase h

theorem string_phrase {w : List (Tok Val)} {s : Str} (h : StringText w s) : Phrase fineGrammar N.stringliteral w (.str s) := by
  cases h with
  | short s => exact fine_stringliteral3 (tok_cons K.shortString (.str s) .nil)
  | long s => exact fine_stringliteral4 (tok_cons K.longString (.str s) .nil)
  | prefixShort p s => exact fine_stringliteral1 (tok_cons K.strPrefix (.str p) (tok_cons K.shortString (.str s) .nil))
  | prefixLong p s => exact fine_stringliteral2 (tok_cons K.strPrefix (.str p) (tok_cons K.longString (.str s) .nil))

/-- Each part has a derivation. -/
def PartsAt (r : List Part) : Prop := ∀ q ∈ r, At 0 q.toks q.expr

theorem testlist_parts_more : ∀ (r : List Part) (w : List (Tok Val)) (l : List Expr), PartsAt r → Phrase fineGrammar N.testlistStarExpr w (.es l) →
    Phrase fineGrammar N.testlistStarExpr (w ++ further r) (.es (l ++ r.map (·.expr)))
  | [], w, l, _, h => by simpa [further] using h
  | p :: r, w, l, ha, h => by
    have h1 := fine_testlistStarExpr2 (phrase_cons h (tok_cons K.comma (.str ",".toList) (phrase_cons (ends_phrase p.before) (phrase_one (ha p List.mem_cons_self)))))
    have h2 := testlist_parts_more r _ (l ++ [p.expr]) (fun x hx => ha x (List.mem_cons_of_mem _ hx)) h1
    simpa [further, tk] using h2

theorem testlist_parts {p : Part} {r : List Part} (ha : PartsAt (p :: r)) :
    Phrase fineGrammar N.testlistStarExpr (p.toks ++ further r) (.es ((p :: r).map (·.expr))) := by
  have := testlist_parts_more r p.toks [p.expr] (fun x hx => ha x (List.mem_cons_of_mem _ hx)) (fine_testlistStarExpr1 (phrase_one (ha p List.mem_cons_self)))
  simpa using this

theorem arguments_parts_more : ∀ (r : List Part) (w : List (Tok Val)) (l : List Expr), PartsAt r → Tight r → Phrase fineGrammar N.argumentList w (.es l) →
    Phrase fineGrammar N.argumentList (w ++ further r) (.es (l ++ r.map (·.expr)))
  | [], w, l, _, _, h => by simpa [further] using h
  | p :: r, w, l, ha, ht, h => by
    have h1 := fine_argumentList2 (phrase_cons h (tok_cons K.comma (.str ",".toList) (phrase_one (fine_funcArg1 (phrase_one (ha p List.mem_cons_self))))))
    have h2 := arguments_parts_more r _ (l ++ [p.expr]) (fun x hx => ha x (List.mem_cons_of_mem _ hx)) (fun x hx => ht x (List.mem_cons_of_mem _ hx)) h1
    have h3 : p.before = [] := ht p List.mem_cons_self
    simpa [further, tk, ends, h3] using h2

theorem arguments_parts {p : Part} {r : List Part} (ha : PartsAt (p :: r)) (ht : Tight r) :
    Phrase fineGrammar N.argumentList (p.toks ++ further r) (.es ((p :: r).map (·.expr))) := by
  have := arguments_parts_more r p.toks [p.expr] (fun x hx => ha x (List.mem_cons_of_mem _ hx)) ht
    (fine_argumentList1 (phrase_one (fine_funcArg1 (phrase_one (ha p List.mem_cons_self)))))
  simpa using this

theorem listmaker_parts_more : ∀ (r : List Part) (w : List (Tok Val)) (l : List Expr), PartsAt r → Phrase fineGrammar N.listmaker2 w (.es l) →
    Phrase fineGrammar N.listmaker2 (w ++ further r) (.es (l ++ r.map (·.expr)))
  | [], w, l, _, h => by simpa [further] using h
  | p :: r, w, l, ha, h => by
    have h1 := fine_listmaker22 (phrase_cons h (tok_cons K.comma (.str ",".toList) (phrase_cons (ends_phrase p.before) (phrase_one (ha p List.mem_cons_self)))))
    have h2 := listmaker_parts_more r _ (l ++ [p.expr]) (fun x hx => ha x (List.mem_cons_of_mem _ hx)) h1
    simpa [further, tk] using h2

theorem listmaker_parts {p : Part} {r : List Part} (ha : PartsAt (p :: r)) :
    Phrase fineGrammar N.listmaker (p.toks ++ further r) (.es ((p :: r).map (·.expr))) := by
  have he := ha p List.mem_cons_self
  cases r with
  | nil =>
    have : Phrase fineGrammar N.listmaker _ (.es [p.expr]) := fine_listmaker1 (phrase_cons he (phrase_one (fine_listmaker2e1 .nil)))
    simpa [further] using this
  | cons x xs =>
    have h1 := fine_listmaker21 (tok_cons K.comma (.str ",".toList) (phrase_cons (ends_phrase x.before) (phrase_one (ha x (by simp)))))
    have h2 := listmaker_parts_more xs _ [x.expr] (fun y hy => ha y (by simp [hy])) h1
    have h3 : Phrase fineGrammar N.listmaker _ (.es (p.expr :: x.expr :: xs.map (·.expr))) := fine_listmaker2 (phrase_cons he (phrase_one h2))
    simpa [further, tk] using h3

theorem slots_parts_more : ∀ (r : List Part) (w : List (Tok Val)) (l : List (Option Expr)), PartsAt r → Tight r → Phrase fineGrammar N.sliceList w (.slots l) →
    Phrase fineGrammar N.sliceList (w ++ further r) (.slots (l ++ r.map (fun q => some q.expr)))
  | [], w, l, _, _, h => by simpa [further] using h
  | p :: r, w, l, ha, ht, h => by
    have h1 := fine_sliceList2 (phrase_cons h (tok_cons K.comma (.str ",".toList) (phrase_one (fine_sliceItem1 (phrase_one (ha p List.mem_cons_self))))))
    have h2 := slots_parts_more r _ (l ++ [some p.expr]) (fun x hx => ha x (List.mem_cons_of_mem _ hx)) (fun x hx => ht x (List.mem_cons_of_mem _ hx)) h1
    have h3 : p.before = [] := ht p List.mem_cons_self
    simpa [further, tk, ends, h3] using h2

theorem slots_parts {x y : Part} {r : List Part} (ha : PartsAt (x :: y :: r)) (ht : Tight (y :: r)) :
    Phrase fineGrammar N.sliceList (x.toks ++ further (y :: r)) (.slots (((x :: y :: r).map (·.expr)).map some)) := by
  have h1 := fine_sliceList1 (phrase_cons (fine_sliceList11 (phrase_one (fine_sliceItem1 (phrase_one (ha x (by simp))))))
    (tok_cons K.comma (.str ",".toList) (phrase_one (fine_sliceItem1 (phrase_one (ha y (by simp)))))))
  have h2 := slots_parts_more r _ [some x.expr, some y.expr] (fun q hq => ha q (by simp [hq])) (fun q hq => ht q (by simp [hq])) h1
  have h3 : y.before = [] := ht y (by simp)
  simpa [further, tk, ends, h3, Function.comp_def] using h2

/-- Each value has a derivation, and so has each key. -/
def EntriesAt (r : List Entry) : Prop := ∀ q ∈ r, StringText q.keyToks q.key ∧ At 0 q.part.toks q.part.expr

theorem entries_parts_more : ∀ (r : List Entry) (w : List (Tok Val)) (lk : List Str) (l : List Expr), EntriesAt r → Phrase fineGrammar N.tablemaker2 w (.tab lk l) →
    Phrase fineGrammar N.tablemaker2 (w ++ furtherEntries r) (.tab (lk ++ r.map (·.key)) (l ++ r.map (·.part.expr)))
  | [], w, lk, l, _, h => by simpa [furtherEntries] using h
  | p :: r, w, lk, l, ha, h => by
    have h0 := ha p List.mem_cons_self
    have h1 := fine_tablemaker22 (phrase_cons h (tok_cons K.comma (.str ",".toList) (phrase_cons (ends_phrase p.part.before)
      (phrase_cons (string_phrase h0.1) (tok_cons K.colon (.str ":".toList) (phrase_one h0.2))))))
    have h2 := entries_parts_more r _ (lk ++ [p.key]) (l ++ [p.part.expr]) (fun x hx => ha x (List.mem_cons_of_mem _ hx)) h1
    simpa [furtherEntries, tk] using h2

theorem table_parts {p : Entry} {r : List Entry} (ha : EntriesAt (p :: r)) :
    Phrase fineGrammar N.tablemaker (p.keyToks ++ tk K.colon ":" :: (p.part.toks ++ furtherEntries r)) (.tab ((p :: r).map (·.key)) ((p :: r).map (·.part.expr))) := by
  have h0 := ha p List.mem_cons_self
  cases r with
  | nil =>
    have : Phrase fineGrammar N.tablemaker _ (.tab [p.key] [p.part.expr]) :=
      fine_tablemaker1 (phrase_cons (string_phrase h0.1) (tok_cons K.colon (.str ":".toList) (phrase_cons h0.2 (phrase_one (fine_tablemaker2e1 .nil)))))
    simpa [furtherEntries, tk] using this
  | cons x xs =>
    have hx := ha x (by simp)
    have h1 := fine_tablemaker21 (tok_cons K.comma (.str ",".toList) (phrase_cons (ends_phrase x.part.before)
      (phrase_cons (string_phrase hx.1) (tok_cons K.colon (.str ":".toList) (phrase_one hx.2)))))
    have h2 := entries_parts_more xs _ [x.key] [x.part.expr] (fun y hy => ha y (by simp [hy])) h1
    have h3 : Phrase fineGrammar N.tablemaker _ (.tab (p.key :: x.key :: xs.map (·.key)) (p.part.expr :: x.part.expr :: xs.map (·.part.expr))) :=
      fine_tablemaker2 (phrase_cons (string_phrase h0.1) (tok_cons K.colon (.str ":".toList) (phrase_cons h0.2 (phrase_one h2))))
    simpa [furtherEntries, tk] using h3

theorem list_parts (us us' : List Val) {p : Part} {r : List Part} (ha : PartsAt (p :: r)) :
    Phrase fineGrammar N.listDisplay (tk K.openSq "[" :: (ends us ++ ((p.toks ++ further r) ++ (ends us' ++ [tk K.closeSq "]"])))) (.e (.list ((p :: r).map (·.expr)))) :=
  fine_listDisplay1 (tok_cons K.openSq (.str "[".toList) (phrase_cons (ends_phrase us) (phrase_cons (listmaker_parts ha)
    (phrase_cons (ends_phrase us') (tok_cons K.closeSq (.str "]".toList) .nil)))))

theorem list_none (us : List Val) : Phrase fineGrammar N.listDisplay (tk K.openSq "[" :: (ends us ++ [tk K.closeSq "]"])) (.e (.list [])) :=
  fine_listDisplay2 (tok_cons K.openSq (.str "[".toList) (phrase_cons (ends_phrase us) (tok_cons K.closeSq (.str "]".toList) .nil)))

theorem opLevel_le (o : Op) : opLevel o ≤ 9 := by cases o <;> simp [opLevel]

theorem form_at {n : Nat} {w : List (Tok Val)} {e : Expr} (h : Form n w e) : n ≤ 9 ∧ At n w e := by
  induction h with
  | weaker hn _ ih => exact ⟨Nat.le_trans hn ih.1, at_le ih.1 hn ih.2⟩
  | name s => exact ⟨Nat.le_refl _, phrase_atom (fine_atom1 (tok_cons K.id (.str s) .nil))⟩
  | tag s => exact ⟨Nat.le_refl _, phrase_atom (fine_atom2 (phrase_one (fine_itemTag1 (tok_cons K.itemTag (.str s) .nil))))⟩
  | lit k hk s => exact ⟨Nat.le_refl _, literal_phrase hk s⟩
  | string h => exact ⟨Nat.le_refl _, phrase_atom (fine_atom3 (phrase_one (fine_literal1 (phrase_one (string_phrase h)))))⟩
  | quoted p r _ ih =>
    exact ⟨Nat.le_refl _, phrase_enclosed (fine_enclosure2 (phrase_one (fine_stringConversion1 (tok_cons K.tick (.str "`".toList)
      (phrase_cons (testlist_parts fun q hq => (ih q hq).2) (tok_cons K.tick (.str "`".toList) .nil))))))⟩
  | group0 => exact ⟨Nat.le_refl _, phrase_enclosed (fine_enclosure1 (phrase_one (fine_parenthForm2 (tok_cons _ _ (tok_cons _ _ .nil)))))⟩
  | group p r _ ih =>
    exact ⟨Nat.le_refl _, phrase_enclosed (fine_enclosure1 (phrase_one (fine_parenthForm1 (tok_cons _ _ (phrase_cons (testlist_parts fun q hq => (ih q hq).2)
      (tok_cons _ _ .nil))))))⟩
  | list0 us => exact ⟨Nat.le_refl _, phrase_enclosed (fine_enclosure3 (phrase_one (list_none us)))⟩
  | list us us' p r _ ih => exact ⟨Nat.le_refl _, phrase_enclosed (fine_enclosure3 (phrase_one (list_parts us us' fun q hq => (ih q hq).2)))⟩
  | table0 us =>
    exact ⟨Nat.le_refl _, phrase_enclosed (fine_enclosure4 (phrase_one (fine_tableDisplay2 (tok_cons _ _ (phrase_cons (ends_phrase us) (tok_cons _ _ .nil))))))⟩
  | table us us' p r hk _ ih =>
    have h1 := fine_tableDisplay1 (tok_cons K.openBrace (.str "{".toList) (phrase_cons (ends_phrase us) (phrase_cons (table_parts fun q hq => ⟨hk q hq, (ih q hq).2⟩)
      (phrase_cons (ends_phrase us') (tok_cons K.closeBrace (.str "}".toList) .nil)))))
    exact ⟨Nat.le_refl _, phrase_enclosed (fine_enclosure4 (phrase_one h1))⟩
  | attr _ a ih =>
    exact ⟨Nat.le_refl _, fine_primary2 (phrase_one (fine_attributeref1 (phrase_cons ih.2 (phrase_one (fine_attributeTag1 (tok_cons K.dot (.str ".".toList)
      (tok_cons K.id (.str a) .nil)))))))⟩
  | sub _ _ ih ihi =>
    exact ⟨Nat.le_refl _, fine_primary3 (phrase_one (fine_subscription1 (phrase_cons ih.2 (tok_cons K.openSq (.str "[".toList) (phrase_cons ihi.2
      (tok_cons K.closeSq (.str "]".toList) .nil))))))⟩
  | @items w p _ x y r _ ht ih ihr =>
    have h1 := fine_slicing2 (phrase_cons ih.2 (tok_cons K.openSq (.str "[".toList) (phrase_cons (slots_parts (fun q hq => (ihr q hq).2) ht)
      (tok_cons K.closeSq (.str "]".toList) .nil))))
    have hv : ∀ es : List Expr, Act.slices [.e p, .str "[".toList, .slots (es.map some), .str "]".toList] = .e (.items p es) := by
      intro es
      have h1 : (es.map some).all Option.isSome = true := by simp
      have h2 : (es.map some).filterMap id = es := by
        rw [List.filterMap_map]
        exact List.filterMap_some
      simp only [Act.slices, Act.O, Act.X, Act.at_, List.getD_cons_succ, List.getD_cons_zero, Nat.reduceSub]
      rw [if_pos h1, h2]
    rw [hv] at h1
    exact ⟨Nat.le_refl _, fine_primary4 (phrase_one h1)⟩
  | slice0 _ ih => exact ⟨Nat.le_refl _, slice_phrase ih.2 (fine_properSlice1 (phrase_one (fine_shortSlice1 (tok_cons _ _ .nil))))⟩
  | slice1 _ _ ih iha => exact ⟨Nat.le_refl _, slice_phrase ih.2 (fine_properSlice1 (phrase_one (fine_shortSlice4 (phrase_cons iha.2 (tok_cons _ _ .nil)))))⟩
  | slice2 _ _ _ ih iha ihb =>
    exact ⟨Nat.le_refl _, slice_phrase ih.2 (fine_properSlice1 (phrase_one (fine_shortSlice2 (phrase_cons iha.2 (tok_cons _ _ (phrase_one ihb.2))))))⟩
  | slice2' _ _ ih ihb => exact ⟨Nat.le_refl _, slice_phrase ih.2 (fine_properSlice1 (phrase_one (fine_shortSlice3 (tok_cons _ _ (phrase_one ihb.2)))))⟩
  | @slice3 w wa wb wc p a b c _ _ _ _ ih iha ihb ihc =>
    have h2 := fine_longSlice1 (phrase_cons (fine_shortSlice2 (phrase_cons iha.2 (tok_cons K.colon (.str ":".toList) (phrase_one ihb.2))))
      (tok_cons K.colon (.str ":".toList) (phrase_one ihc.2)))
    have h3 : At 9 _ (.slice p [a, b, c]) := slice_phrase ih.2 (fine_properSlice2 (phrase_one h2))
    simp only [List.append_assoc, List.cons_append] at h3
    refine ⟨Nat.le_refl _, ?_⟩
    simpa [tk] using h3
  | slice3' _ _ _ ih ihb ihc =>
    have h2 := fine_longSlice1 (phrase_cons (fine_shortSlice3 (tok_cons K.colon (.str ":".toList) (phrase_one ihb.2))) (tok_cons K.colon (.str ":".toList) (phrase_one ihc.2)))
    exact ⟨Nat.le_refl _, slice_phrase ih.2 (fine_properSlice2 (phrase_one h2))⟩
  | call0 f => exact ⟨Nat.le_refl _, fine_primary5 (phrase_one (fine_call1 (tok_cons K.id (.str f) (tok_cons _ _ (tok_cons _ _ .nil)))))⟩
  | call f p r _ ht ih =>
    exact ⟨Nat.le_refl _, fine_primary5 (phrase_one (fine_call2 (tok_cons K.id (.str f) (tok_cons _ _ (phrase_cons (arguments_parts (fun q hq => (ih q hq).2) ht)
      (tok_cons _ _ .nil))))))⟩
  | op o _ _ iha ihb => exact ⟨opLevel_le o, op_phrase iha.2 ihb.2⟩
  | minus _ ih => exact ⟨by omega, fine_uExpr2 (tok_cons _ _ (phrase_one ih.2))⟩
  | plus _ ih => exact ⟨by omega, fine_uExpr3 (tok_cons _ _ (phrase_one ih.2))⟩
  | not _ ih => exact ⟨by omega, fine_notTest2 (tok_cons _ _ (phrase_one ih.2))⟩

theorem form_expr {n : Nat} {w : List (Tok Val)} {e : Expr} (h : Form n w e) : Phrase fineGrammar N.expression w (.e e) :=
  at_le (form_at h).1 (Nat.zero_le _) (form_at h).2

theorem listed_phrase {w : List (Tok Val)} {es : List Expr} (h : Listed w es) : Phrase fineGrammar N.testlistStarExpr w (.es es) := by
  cases h with
  | mk p r h => exact testlist_parts fun q hq => (form_at (h q hq)).2

theorem bracketed_phrase {w : List (Tok Val)} (h : Bracketed w) : ∃ v, Phrase fineGrammar N.listDisplay w v := by
  cases h with
  | none us => exact ⟨_, list_none us⟩
  | some us us' h =>
    cases h with
    | mk p r h => exact ⟨_, list_parts us us' fun q hq => (form_at (h q hq)).2⟩

theorem fields_more : ∀ (r : List Field) (w : List (Tok Val)) (lk : List Str) (l : List Expr), (∀ q ∈ r, Form 0 q.toks q.expr) →
    Phrase fineGrammar N.dotlist w (.tab lk l) → Phrase fineGrammar N.dotlist (w ++ furtherFields r) (.tab (lk ++ r.map (·.key)) (l ++ r.map (·.expr)))
  | [], w, lk, l, _, h => by simpa [furtherFields] using h
  | p :: r, w, lk, l, ha, h => by
    have h1 := fine_dotlist2 (phrase_cons h (tok_cons K.comma (.str ",".toList) (tok_cons K.dot (.str ".".toList) (tok_cons K.id (.str p.key)
      (tok_cons K.assign (.str "=".toList) (phrase_one (form_expr (ha p List.mem_cons_self))))))))
    have h2 := fields_more r _ (lk ++ [p.key]) (l ++ [p.expr]) (fun x hx => ha x (List.mem_cons_of_mem _ hx)) h1
    simpa [furtherFields, tk] using h2

theorem small_form {w : List (Tok Val)} {s : Stmt} (h : Small w s) : Phrase fineGrammar N.smallStmt w (.st s) := by
  cases h with
  | exprs h => exact fine_smallStmt1 (phrase_one (fine_exprStmt1 (phrase_one (listed_phrase h))))
  | assign hl hr k hk op =>
    rcases hk with rfl | rfl
    · exact fine_smallStmt1 (phrase_one (fine_exprStmt3 (phrase_cons (listed_phrase hl) (tok_cons _ _ (phrase_one (listed_phrase hr))))))
    · exact fine_smallStmt1 (phrase_one (fine_exprStmt2 (phrase_cons (listed_phrase hl) (tok_cons _ _ (phrase_one (listed_phrase hr))))))
  | fancy cat p r h =>
    have h1 := fine_dotlist1 (tok_cons K.dot (.str ".".toList) (tok_cons K.id (.str p.key) (tok_cons K.assign (.str "=".toList)
      (phrase_one (form_expr (h p List.mem_cons_self))))))
    have h2 := fields_more r _ [p.key] [p.expr] (fun x hx => h x (List.mem_cons_of_mem _ hx)) h1
    have h3 : Phrase fineGrammar N.smallStmt _ (.st (.fancy cat ((p :: r).map (·.key)) ((p :: r).map (·.expr)))) := fine_smallStmt1 (phrase_one (fine_exprStmt4 (phrase_one
      (fine_fancyDrelAssignmentStmt1 (tok_cons K.id (.str cat) (tok_cons K.openParen (.str "(".toList) (phrase_cons h2 (tok_cons K.closeParen (.str ")".toList) .nil))))))))
    simpa [tk] using h3
  | print h => exact fine_smallStmt2 (phrase_one (fine_printStmt1 (tok_cons _ _ (phrase_one (form_expr h)))))
  | brk => exact fine_smallStmt3 (phrase_one (fine_breakStmt1 (tok_cons _ _ .nil)))
  | next => exact fine_smallStmt4 (phrase_one (fine_nextStmt1 (tok_cons _ _ .nil)))

theorem smalls_form {w : List (Tok Val)} {l : List Stmt} (h : Smalls w l) : Phrase fineGrammar N.simpleStmt w (.st (.seq l)) := by
  induction h with
  | one h => exact fine_simpleStmt1 (phrase_one (small_form h))
  | more _ h ih => exact fine_simpleStmt2 (phrase_cons ih (tok_cons K.semi (.str ";".toList) (phrase_one (small_form h))))

theorem args_form_more : ∀ (xs : List (Str × List (Tok Val))) (w : List (Tok Val)) (l : List Str), (∀ y ∈ xs, Bracketed y.2) → Phrase fineGrammar N.arglist w (.ids l) →
    Phrase fineGrammar N.arglist (w ++ furtherArgs xs) (.ids (l ++ xs.map (·.1)))
  | [], w, l, _, h => by simpa [furtherArgs] using h
  | x :: r, w, l, hx, h => by
    obtain ⟨v, hv⟩ := bracketed_phrase (hx x List.mem_cons_self)
    have h1 := fine_arglist2 (phrase_cons h (tok_cons K.comma (.str ",".toList) (tok_cons K.id (.str x.1) (tok_cons K.colon (.str ":".toList) (phrase_one hv)))))
    have h2 := args_form_more r _ (l ++ [x.1]) (fun y hy => hx y (List.mem_cons_of_mem _ hy)) h1
    simpa [furtherArgs, tk] using h2

theorem args_form {x : Str × List (Tok Val)} {xs : List (Str × List (Tok Val))} (hx : ∀ y ∈ x :: xs, Bracketed y.2) :
    Phrase fineGrammar N.arglist ((K.id, .str x.1) :: tk K.colon ":" :: (x.2 ++ furtherArgs xs)) (.ids ((x :: xs).map (·.1))) := by
  obtain ⟨v, hv⟩ := bracketed_phrase (hx x List.mem_cons_self)
  have := args_form_more xs _ [x.1] (fun y hy => hx y (List.mem_cons_of_mem _ hy)) (fine_arglist1 (tok_cons K.id (.str x.1) (tok_cons K.colon (.str ":".toList) (phrase_one hv))))
  simpa [tk] using this

theorem restricted_phrase {o : Op} (h : opLevel o = 4 ∧ o ≠ .isIn ∧ o ≠ .notIn) : Phrase fineGrammar N.restrictedCompOperator (opToks o) (.str (cmpText o)) := by
  obtain ⟨h1, h2, h3⟩ := h
  cases o with
  | lt => exact fine_restrictedCompOperator1 (tok_cons _ _ .nil)
  | gt => exact fine_restrictedCompOperator2 (tok_cons _ _ .nil)
  | ge => exact fine_restrictedCompOperator3 (tok_cons _ _ .nil)
  | le => exact fine_restrictedCompOperator4 (tok_cons _ _ .nil)
  | ne => exact fine_restrictedCompOperator5 (tok_cons _ _ .nil)
  | eq => exact fine_restrictedCompOperator6 (tok_cons _ _ .nil)
  | isIn => exact absurd rfl h2
  | notIn => exact absurd rfl h3
  | _ => simp [opLevel] at h1

/-- What the parts of a program are in the grammar. -/
def Kind.Good : Kind → List (Tok Val) → Stmt → Prop
  | .simple, w, s => Phrase fineGrammar N.statement w (.st s) ∧ Phrase fineGrammar M.statementN w (.st s)
  | .alone, w, s => Phrase fineGrammar N.ifStmt w (.st s)
  | .closed, w, s => Phrase fineGrammar N.compoundStmt w (.st (.seq [s])) ∧ Phrase fineGrammar M.compoundN w (.st (.seq [s]))
  | .line, w, s => Phrase fineGrammar N.statement w (.st s) ∧ ∃ l, s = .seq l
  | .lines, w, s => Phrase fineGrammar N.statements w (.st s)
  | .body, w, s => Phrase fineGrammar M.suiteN w (.st s)
  | .loopBody, w, s => Phrase fineGrammar M.suiteK w (.st s)
  | .text, w, s => Phrase fineGrammar N.input w (.st s)

theorem wrote_seq {w : List (Tok Val)} {s : Stmt} {k : Kind} (h : Wrote k w s) (hk : k = .simple ∨ k = .line) : ∃ l, s = .seq l := by
  induction h with
  | simple _ _ _ _ => exact ⟨_, rfl⟩
  | lineSimple _ ih => exact ih (.inl rfl)
  | lineAlone _ _ => exact ⟨_, rfl⟩
  | lineClosed _ _ => exact ⟨_, rfl⟩
  | _ => rcases hk with hk | hk <;> cases hk

theorem wrote_good {k : Kind} {w : List (Tok Val)} {s : Stmt} (h : Wrote k w s) : k.Good w s := by
  induction h with
  | simple h semi us hu =>
    cases semi with
    | false => exact ⟨fine_statement1 (phrase_cons (smalls_form h) (phrase_one (lineEnds_phrase hu))), fine_statementN1 (phrase_cons (smalls_form h) (phrase_one (lineEnds_phrase hu)))⟩
    | true =>
      exact ⟨fine_statement2 (phrase_cons (smalls_form h) (tok_cons K.semi (.str ";".toList) (phrase_one (lineEnds_phrase hu)))),
        fine_statementN2 (phrase_cons (smalls_form h) (tok_cons K.semi (.str ";".toList) (phrase_one (lineEnds_phrase hu))))⟩
  | if_ hc us _ ih =>
    exact fine_ifStmt1 (tok_cons K.if_ (.str "if".toList) (tok_cons K.openParen (.str "(".toList)
      (phrase_cons (form_expr hc) (tok_cons K.closeParen (.str ")".toList) (phrase_cons (ends_phrase us) (phrase_one ih))))))
  | elseif _ he us _ ih ihx =>
    exact fine_ifStmt2 (phrase_cons ih (tok_cons K.elseif (.str "else if".toList) (tok_cons K.openParen (.str "(".toList)
      (phrase_cons (form_expr he) (tok_cons K.closeParen (.str ")".toList) (phrase_cons (ends_phrase us) (phrase_one ihx)))))))
  | @else_ w w' c b x cs bs _ _ ih ihx =>
    have h1 : Phrase fineGrammar N.ifElseStmt _ (.st (.ite c b cs (bs ++ [x]))) := fine_ifElseStmt1 (phrase_cons ih (tok_cons K.else_ (.str "else".toList) (phrase_one ihx)))
    exact ⟨fine_compoundStmt2 (phrase_one h1), fine_compoundN1 (phrase_one h1)⟩
  | @for_ i ids w w' over b ho _ ih =>
    have h1 : Phrase fineGrammar N.forStmt _ (.st (.for_ (i :: ids) over b)) := fine_forStmt1 (tok_cons K.for_ (.str "for".toList) (phrase_cons (ids_phrase i ids)
      (tok_cons K.in_ (.str "in".toList) (phrase_cons (listed_phrase ho) (phrase_one ih)))))
    exact ⟨fine_compoundStmt3 (phrase_one h1), fine_compoundN2 (phrase_one h1)⟩
  | @forList i ids w w' over b ho _ ih =>
    have h1 : Phrase fineGrammar N.forStmt _ (.st (.for_ (i :: ids) over b)) := fine_forStmt2 (tok_cons K.for_ (.str "for".toList) (tok_cons K.openSq (.str "[".toList)
      (phrase_cons (ids_phrase i ids) (tok_cons K.closeSq (.str "]".toList) (tok_cons K.in_ (.str "in".toList) (phrase_cons (listed_phrase ho) (phrase_one ih)))))))
    exact ⟨fine_compoundStmt3 (phrase_one h1), fine_compoundN2 (phrase_one h1)⟩
  | @do_ i wa wz w' a z b ha hz _ ih =>
    have h0 := fine_doStmtHead1 (tok_cons K.do_ (.str "do".toList) (tok_cons K.id (.str i) (tok_cons K.assign (.str "=".toList) (phrase_cons (form_expr ha)
      (tok_cons K.comma (.str ",".toList) (phrase_one (form_expr hz)))))))
    have h1 : Phrase fineGrammar N.doStmt _ (.st (.do_ i a z (.lit "1".toList) b)) := fine_doStmt1 (phrase_cons h0 (phrase_one ih))
    exact ⟨fine_compoundStmt4 (phrase_one h1), fine_compoundN3 (phrase_one h1)⟩
  | @doStep i wa wz ws w' a z s b ha hz hs _ ih =>
    have h0 := fine_doStmtHead2 (tok_cons K.do_ (.str "do".toList) (tok_cons K.id (.str i) (tok_cons K.assign (.str "=".toList) (phrase_cons (form_expr ha)
      (tok_cons K.comma (.str ",".toList) (phrase_cons (form_expr hz) (tok_cons K.comma (.str ",".toList) (phrase_one (form_expr hs)))))))))
    have h1 : Phrase fineGrammar N.doStmt _ (.st (.do_ i a z s b)) := fine_doStmt1 (phrase_cons h0 (phrase_one ih))
    exact ⟨fine_compoundStmt4 (phrase_one h1), fine_compoundN3 (phrase_one h1)⟩
  | @rep w b _ ih =>
    have h1 : Phrase fineGrammar N.repeatStmt _ (.st (.rep b)) := fine_repeatStmt1 (tok_cons K.repeat_ (.str "repeat".toList) (phrase_one ih))
    exact ⟨fine_compoundStmt7 (phrase_one h1), fine_compoundN6 (phrase_one h1)⟩
  | @with_ a c us w b _ ih =>
    have h0 := fine_withHead1 (tok_cons K.with_ (.str "with".toList) (tok_cons K.id (.str a) (tok_cons K.as_ (.str "as".toList) (tok_cons K.id (.str c) .nil))))
    have h1 : Phrase fineGrammar N.withStmt _ (.st (.with_ a c b)) := fine_withStmt1 (phrase_cons h0 (phrase_cons (ends_phrase us) (phrase_one ih)))
    exact ⟨fine_compoundStmt6 (phrase_one h1), fine_compoundN5 (phrase_one h1)⟩
  | @loop a c w b _ ih =>
    have h0 := fine_loopHead1 (tok_cons K.loop (.str "loop".toList) (tok_cons K.id (.str a) (tok_cons K.as_ (.str "as".toList) (tok_cons K.id (.str c) .nil))))
    have h1 : Phrase fineGrammar N.loopStmt _ (.st (.loop a c [] [] [] b)) := fine_loopStmt1 (phrase_cons h0 (phrase_one ih))
    exact ⟨fine_compoundStmt5 (phrase_one h1), fine_compoundN4 (phrase_one h1)⟩
  | @loopIndex a c i w b _ ih =>
    have h0 := fine_loopHead2 (tok_cons K.loop (.str "loop".toList) (tok_cons K.id (.str a) (tok_cons K.as_ (.str "as".toList) (tok_cons K.id (.str c)
      (tok_cons K.colon (.str ":".toList) (tok_cons K.id (.str i) .nil))))))
    have h1 : Phrase fineGrammar N.loopStmt _ (.st (.loop a c i [] [] b)) := fine_loopStmt1 (phrase_cons h0 (phrase_one ih))
    exact ⟨fine_compoundStmt5 (phrase_one h1), fine_compoundN4 (phrase_one h1)⟩
  | @loopTest a c i o l ho w b _ ih =>
    have h0 := fine_loopHead3 (tok_cons K.loop (.str "loop".toList) (tok_cons K.id (.str a) (tok_cons K.as_ (.str "as".toList) (tok_cons K.id (.str c)
      (tok_cons K.colon (.str ":".toList) (tok_cons K.id (.str i) (phrase_cons (restricted_phrase ho) (tok_cons K.id (.str l) .nil))))))))
    have h1 : Phrase fineGrammar N.loopStmt _ (.st (.loop a c i (cmpText o) l b)) := fine_loopStmt1 (phrase_cons h0 (phrase_one ih))
    exact ⟨fine_compoundStmt5 (phrase_one h1), fine_compoundN4 (phrase_one h1)⟩
  | @func f x xs hx w b _ ih =>
    have h1 : Phrase fineGrammar N.funcdef _ (.st (.func f ((x :: xs).map (·.1)) b)) := fine_funcdef1 (tok_cons K.function (.str "function".toList) (tok_cons K.id (.str f)
      (tok_cons K.openParen (.str "(".toList) (phrase_cons (args_form hx) (tok_cons K.closeParen (.str ")".toList) (phrase_one ih))))))
    exact ⟨fine_compoundStmt8 (phrase_one h1), fine_compoundN7 (phrase_one h1)⟩
  | lineSimple h ih => exact ⟨ih.1, wrote_seq h (.inl rfl)⟩
  | lineAlone _ ih => exact ⟨compound_if ih, _, rfl⟩
  | lineClosed _ ih => exact ⟨fine_statement3 (phrase_one ih.1), _, rfl⟩
  | linesOne _ ih => exact fine_statements1 (phrase_one ih.1)
  | linesMore _ _ ih ihs => exact fine_statements2 (phrase_cons ih (phrase_one ihs.1))
  | bodySimple _ ih => exact fine_suiteN1 (phrase_one ih.2)
  | bodyClosed _ ih => exact fine_suiteN1 (phrase_one (fine_statementN3 (phrase_one ih.2)))
  | bodyLines us us' _ ih =>
    exact fine_suiteN2 (tok_cons K.openBrace (.str "{".toList) (phrase_cons (ends_phrase us) (phrase_cons ih (tok_cons K.closeBrace (.str "}".toList) (phrase_one (ends_phrase us'))))))
  | loopClosed _ ih => exact fine_suiteK1 (phrase_one (fine_statementK1 (phrase_one ih.2)))
  | loopLines us us' _ ih =>
    exact fine_suiteK2 (tok_cons K.openBrace (.str "{".toList) (phrase_cons (ends_phrase us) (phrase_cons ih (tok_cons K.closeBrace (.str "}".toList) (phrase_one (ends_phrase us'))))))
  | textOne us _ ih => exact fine_input1 (phrase_cons (ends_phrase us) (phrase_one ih.1))
  | textMore _ _ ih ihs => exact fine_input2 (phrase_cons ih (phrase_one ihs.1))

end Drel
end Verif
