import Verif.Lemmas.DrelRules
import Verif.Spec.DrelExpr
/-! # Derivations of written expressions -/
namespace Verif
namespace Drel
open LR DrelPy

theorem phrase_cons {G : List (Rule Val)} {a : Nat} {xs : List Sym} {w w' : List (Tok Val)} {v : Val} {vs : List Val} (h : Phrase G a w v)
    (h' : Derives G xs w' vs) : Derives G (.n a :: xs) (w ++ w') (v :: vs) := Derives.append h h'

theorem tok_cons {G : List (Rule Val)} (k : Nat) (v : Val) {xs : List Sym} {w : List (Tok Val)} {vs : List Val} (h : Derives G xs w vs) :
    Derives G (.t k :: xs) ((k, v) :: w) (v :: vs) := .tok k v h

theorem phrase_one {G : List (Rule Val)} {a : Nat} {w : List (Tok Val)} {v : Val} (h : Phrase G a w v) : Derives G [.n a] w [v] := h

/-- The nonterminal of a level. -/
def nt : Nat → Nat
  | 0 => N.expression
  | 1 => N.orTest
  | 2 => N.andTest
  | 3 => N.notTest
  | 4 => N.comparison
  | 5 => N.aExpr
  | 6 => N.mExpr
  | 7 => N.uExpr
  | 8 => N.power
  | _ => N.primary

/-- The tokens are an expression of level `n`. -/
def At (n : Nat) (w : List (Tok Val)) (e : Expr) : Prop := Phrase fineGrammar (nt n) w (.e e)

theorem at_succ {w : List (Tok Val)} {e : Expr} : ∀ {n : Nat}, n < 9 → At (n + 1) w e → At n w e
  | 0, _, h => fine_expression1 h
  | 1, _, h => fine_orTest1 h
  | 2, _, h => fine_andTest1 h
  | 3, _, h => fine_notTest1 h
  | 4, _, h => fine_comparison1 h
  | 5, _, h => fine_aExpr1 h
  | 6, _, h => fine_mExpr1 h
  | 7, _, h => fine_uExpr1 h
  | 8, _, h => fine_power1 h
  | _ + 9, h, _ => by omega

theorem at_down {w : List (Tok Val)} {e : Expr} {m : Nat} (hm : m ≤ 9) (h : At m w e) : ∀ d n : Nat, n + d = m → At n w e
  | 0, n, e' => by rw [Nat.add_zero] at e'; exact e' ▸ h
  | d + 1, n, e' => at_succ (by omega) (at_down hm h d (n + 1) (by omega))

theorem at_le {w : List (Tok Val)} {e : Expr} {m n : Nat} (hm : m ≤ 9) (hn : n ≤ m) (h : At m w e) : At n w e := at_down hm h (m - n) n (by omega)

theorem level_le (e : Expr) : level e ≤ 9 := by
  cases e with
  | op o _ _ => cases o <;> simp [level, opLevel]
  | _ => simp [level]

theorem phrase_empty : Phrase fineGrammar N.maybeNline [] .none := fine_maybeNline2 (fine_empty1 .nil)

theorem phrase_atom {w : List (Tok Val)} {e : Expr} (h : Phrase fineGrammar N.atom w (.e e)) : At 9 w e := fine_primary1 h

theorem phrase_enclosed {w : List (Tok Val)} {e : Expr} (h : Phrase fineGrammar N.enclosure w (.e e)) : At 9 w e := phrase_atom (fine_atom4 h)

section
variable (kind : Str → Nat)

/-- Each of the expressions has a derivation. -/
def AllAt (es : List Expr) : Prop := ∀ e ∈ es, At 0 (put kind e) e

variable {kind}

theorem testlist_more : ∀ (es : List Expr) (w : List (Tok Val)) (l : List Expr), AllAt kind es → Phrase fineGrammar N.testlistStarExpr w (.es l) →
    Phrase fineGrammar N.testlistStarExpr (w ++ putMore kind es) (.es (l ++ es))
  | [], w, l, _, h => by simpa [putMore] using h
  | e :: es, w, l, ha, h => by
    have h1 := fine_testlistStarExpr2 (phrase_cons h (tok_cons K.comma (.str ",".toList) (phrase_cons phrase_empty (phrase_one (ha e List.mem_cons_self)))))
    have h2 := testlist_more es _ (l ++ [e]) (fun x hx => ha x (List.mem_cons_of_mem _ hx)) h1
    simpa [putMore, tk] using h2

theorem testlist_phrase {e : Expr} {es : List Expr} (ha : AllAt kind (e :: es)) :
    Phrase fineGrammar N.testlistStarExpr (putList kind (e :: es)) (.es (e :: es)) := by
  have := testlist_more es (put kind e) [e] (fun x hx => ha x (List.mem_cons_of_mem _ hx))
    (fine_testlistStarExpr1 (phrase_one (ha e List.mem_cons_self)))
  simpa [putList] using this

theorem arguments_more : ∀ (es : List Expr) (w : List (Tok Val)) (l : List Expr), AllAt kind es → Phrase fineGrammar N.argumentList w (.es l) →
    Phrase fineGrammar N.argumentList (w ++ putMore kind es) (.es (l ++ es))
  | [], w, l, _, h => by simpa [putMore] using h
  | e :: es, w, l, ha, h => by
    have h1 := fine_argumentList2 (phrase_cons h (tok_cons K.comma (.str ",".toList) (phrase_one (fine_funcArg1 (phrase_one (ha e List.mem_cons_self))))))
    have h2 := arguments_more es _ (l ++ [e]) (fun x hx => ha x (List.mem_cons_of_mem _ hx)) h1
    simpa [putMore, tk] using h2

theorem arguments_phrase {e : Expr} {es : List Expr} (ha : AllAt kind (e :: es)) :
    Phrase fineGrammar N.argumentList (putList kind (e :: es)) (.es (e :: es)) := by
  have := arguments_more es (put kind e) [e] (fun x hx => ha x (List.mem_cons_of_mem _ hx))
    (fine_argumentList1 (phrase_one (fine_funcArg1 (phrase_one (ha e List.mem_cons_self)))))
  simpa [putList] using this

theorem listmaker_more : ∀ (es : List Expr) (w : List (Tok Val)) (l : List Expr), AllAt kind es → Phrase fineGrammar N.listmaker2 w (.es l) →
    Phrase fineGrammar N.listmaker2 (w ++ putMore kind es) (.es (l ++ es))
  | [], w, l, _, h => by simpa [putMore] using h
  | e :: es, w, l, ha, h => by
    have h1 := fine_listmaker22 (phrase_cons h (tok_cons K.comma (.str ",".toList) (phrase_cons phrase_empty (phrase_one (ha e List.mem_cons_self)))))
    have h2 := listmaker_more es _ (l ++ [e]) (fun x hx => ha x (List.mem_cons_of_mem _ hx)) h1
    simpa [putMore, tk] using h2

theorem listmaker_phrase {e : Expr} {es : List Expr} (ha : AllAt kind (e :: es)) :
    Phrase fineGrammar N.listmaker (putList kind (e :: es)) (.es (e :: es)) := by
  have he := ha e List.mem_cons_self
  cases es with
  | nil =>
    have : Phrase fineGrammar N.listmaker _ (.es [e]) := fine_listmaker1 (phrase_cons he (phrase_one (fine_listmaker2e1 .nil)))
    simpa [putList, putMore] using this
  | cons x xs =>
    have h1 := fine_listmaker21 (tok_cons K.comma (.str ",".toList) (phrase_cons phrase_empty (phrase_one (ha x (by simp)))))
    have h2 := listmaker_more xs _ [x] (fun y hy => ha y (by simp [hy])) h1
    have h3 : Phrase fineGrammar N.listmaker _ (.es (e :: x :: xs)) := fine_listmaker2 (phrase_cons he (phrase_one h2))
    simpa [putList, putMore, tk] using h3

theorem slots_more : ∀ (es : List Expr) (w : List (Tok Val)) (l : List (Option Expr)), AllAt kind es → Phrase fineGrammar N.sliceList w (.slots l) →
    Phrase fineGrammar N.sliceList (w ++ putMore kind es) (.slots (l ++ es.map some))
  | [], w, l, _, h => by simpa [putMore] using h
  | e :: es, w, l, ha, h => by
    have h1 := fine_sliceList2 (phrase_cons h (tok_cons K.comma (.str ",".toList) (phrase_one (fine_sliceItem1 (phrase_one (ha e List.mem_cons_self))))))
    have h2 := slots_more es _ (l ++ [some e]) (fun x hx => ha x (List.mem_cons_of_mem _ hx)) h1
    simpa [putMore, tk] using h2

theorem slots_phrase {e x : Expr} {es : List Expr} (ha : AllAt kind (e :: x :: es)) :
    Phrase fineGrammar N.sliceList (putList kind (e :: x :: es)) (.slots ((e :: x :: es).map some)) := by
  have h1 := fine_sliceList1 (phrase_cons (fine_sliceList11 (phrase_one (fine_sliceItem1 (phrase_one (ha e (by simp))))))
    (tok_cons K.comma (.str ",".toList) (phrase_one (fine_sliceItem1 (phrase_one (ha x (by simp)))))))
  have h2 := slots_more es _ [some e, some x] (fun y hy => ha y (by simp [hy])) h1
  simpa [putList, putMore, tk] using h2

theorem entries_more : ∀ (ks : List Str) (es : List Expr) (w : List (Tok Val)) (lk : List Str) (l : List Expr), ks.length = es.length → AllAt kind es →
    Phrase fineGrammar N.tablemaker2 w (.tab lk l) → Phrase fineGrammar N.tablemaker2 (w ++ putEntries kind ks es) (.tab (lk ++ ks) (l ++ es))
  | [], [], w, lk, l, _, _, h => by simpa [putEntries] using h
  | [], _ :: _, _, _, _, h, _, _ => nomatch h
  | _ :: _, [], _, _, _, h, _, _ => nomatch h
  | k :: ks, e :: es, w, lk, l, hl, ha, h => by
    have h1 := fine_tablemaker22 (phrase_cons h (tok_cons K.comma (.str ",".toList) (phrase_cons phrase_empty
      (phrase_cons (fine_stringliteral3 (tok_cons K.shortString (.str k) .nil)) (tok_cons K.colon (.str ":".toList) (phrase_one (ha e List.mem_cons_self)))))))
    have h2 := entries_more ks es _ (lk ++ [k]) (l ++ [e]) (by simpa using hl) (fun x hx => ha x (List.mem_cons_of_mem _ hx)) h1
    simpa [putEntries, tk] using h2

theorem table_phrase {k : Str} {ks : List Str} {e : Expr} {es : List Expr} (hl : ks.length = es.length) (ha : AllAt kind (e :: es)) :
    Phrase fineGrammar N.tablemaker (putTable kind (k :: ks) (e :: es)) (.tab (k :: ks) (e :: es)) := by
  have he := ha e List.mem_cons_self
  have hk : Phrase fineGrammar N.stringliteral [(K.shortString, .str k)] (.str k) := fine_stringliteral3 (tok_cons K.shortString (.str k) .nil)
  cases ks with
  | nil =>
    cases es with
    | nil =>
      have : Phrase fineGrammar N.tablemaker _ (.tab [k] [e]) := fine_tablemaker1 (phrase_cons hk (tok_cons K.colon (.str ":".toList) (phrase_cons he (phrase_one (fine_tablemaker2e1 .nil)))))
      simpa [putTable, putEntries, tk] using this
    | cons _ _ => cases hl
  | cons k' ks =>
    cases es with
    | nil => cases hl
    | cons x xs =>
      have h1 := fine_tablemaker21 (tok_cons K.comma (.str ",".toList) (phrase_cons phrase_empty
        (phrase_cons (fine_stringliteral3 (tok_cons K.shortString (.str k') .nil)) (tok_cons K.colon (.str ":".toList) (phrase_one (ha x (by simp)))))))
      have h2 := entries_more ks xs _ [k'] [x] (by simpa using hl) (fun y hy => ha y (by simp [hy])) h1
      have h3 : Phrase fineGrammar N.tablemaker _ (.tab (k :: k' :: ks) (e :: x :: xs)) := fine_tablemaker2 (phrase_cons hk (tok_cons K.colon (.str ":".toList) (phrase_cons he (phrase_one h2))))
      simpa [putTable, putEntries, tk] using h3

/-- Literals. -/
theorem literal_phrase {k : Nat} (hk : k ∈ literalKinds) (s : Str) : At 9 [(k, .str s)] (.lit s) := by
  refine phrase_atom (fine_atom3 (phrase_one ?_))
  simp only [literalKinds, List.mem_cons, List.not_mem_nil, or_false] at hk
  rcases hk with rfl | rfl | rfl | rfl | rfl | rfl | rfl | rfl
  · exact fine_literal2 (tok_cons _ (.str s) .nil)
  · exact fine_literal3 (tok_cons _ (.str s) .nil)
  · exact fine_literal4 (tok_cons _ (.str s) .nil)
  · exact fine_literal5 (tok_cons _ (.str s) .nil)
  · exact fine_literal6 (tok_cons _ (.str s) .nil)
  · exact fine_literal7 (tok_cons _ (.str s) .nil)
  · exact fine_literal1 (phrase_one (fine_stringliteral3 (tok_cons _ (.str s) .nil)))
  · exact fine_literal1 (phrase_one (fine_stringliteral4 (tok_cons _ (.str s) .nil)))

/-- Comparisons. -/
theorem compare_phrase {o : Op} {w w' : List (Tok Val)} {a b : Expr} (ho : opLevel o = 4) (ha : At 5 w a) (hb : At 5 w' b) :
    At 4 (w ++ (opToks o ++ w')) (.op o a b) := by
  have key : ∀ s : String, Act.opOf s.toList = o → Phrase fineGrammar N.compOperator (opToks o) (.str s.toList) →
      At 4 (w ++ (opToks o ++ w')) (.op o a b) := by
    intro s hs hp
    have := fine_comparison2 (phrase_cons ha (phrase_cons hp (phrase_one hb)))
    show Phrase fineGrammar N.comparison _ _
    have hv : Act.compare [.e a, .str s.toList, .e b] = .e (.op o a b) := by
      simp only [Act.compare, Act.S, Act.X, Act.at_]
      rw [← hs]
      rfl
    rw [← hv]
    exact this
  cases o with
  | lt => exact key "<" (by decide) (fine_compOperator1 (phrase_one (fine_restrictedCompOperator1 (tok_cons _ _ .nil))))
  | gt => exact key ">" (by decide) (fine_compOperator1 (phrase_one (fine_restrictedCompOperator2 (tok_cons _ _ .nil))))
  | ge => exact key ">=" (by decide) (fine_compOperator1 (phrase_one (fine_restrictedCompOperator3 (tok_cons _ _ .nil))))
  | le => exact key "<=" (by decide) (fine_compOperator1 (phrase_one (fine_restrictedCompOperator4 (tok_cons _ _ .nil))))
  | ne => exact key "!=" (by decide) (fine_compOperator1 (phrase_one (fine_restrictedCompOperator5 (tok_cons _ _ .nil))))
  | eq => exact key "==" (by decide) (fine_compOperator1 (phrase_one (fine_restrictedCompOperator6 (tok_cons _ _ .nil))))
  | isIn => exact key "in" (by decide) (fine_compOperator2 (tok_cons _ _ .nil))
  | notIn => exact key "not in" (by decide) (fine_compOperator3 (tok_cons K.not_ (.str "not".toList) (tok_cons K.in_ (.str "in".toList) .nil)))
  | _ => simp [opLevel] at ho

/-- Operators. -/
theorem op_phrase {o : Op} {w w' : List (Tok Val)} {a b : Expr} (ha : At (leftNeed o) w a) (hb : At (rightNeed o) w' b) :
    At (opLevel o) (w ++ (opToks o ++ w')) (.op o a b) := by
  cases o with
  | or => exact fine_orTest2 (phrase_cons ha (tok_cons _ _ (phrase_one hb)))
  | and => exact fine_andTest2 (phrase_cons ha (tok_cons _ _ (phrase_one hb)))
  | add => exact fine_aExpr2 (phrase_cons ha (tok_cons _ _ (phrase_one hb)))
  | sub => exact fine_aExpr3 (phrase_cons ha (tok_cons _ _ (phrase_one hb)))
  | mul => exact fine_mExpr2 (phrase_cons ha (tok_cons _ _ (phrase_one hb)))
  | div => exact fine_mExpr3 (phrase_cons ha (tok_cons _ _ (phrase_one hb)))
  | cross => exact fine_mExpr4 (phrase_cons ha (tok_cons _ _ (phrase_one hb)))
  | amp => exact fine_mExpr5 (phrase_cons ha (tok_cons _ _ (phrase_one hb)))
  | bar => exact fine_mExpr6 (phrase_cons ha (tok_cons _ _ (phrase_one hb)))
  | pow => exact fine_power2 (phrase_cons ha (tok_cons _ _ (phrase_one hb)))
  | _ => exact compare_phrase rfl ha hb

theorem slice_phrase {p : Expr} {w w' : List (Tok Val)} {parts : List Expr} (hp : At 9 w p)
    (hs : Phrase fineGrammar N.properSlice w' (.parts parts)) :
    At 9 (w ++ tk K.openSq "[" :: (w' ++ [tk K.closeSq "]"])) (.slice p parts) :=
  fine_primary4 (phrase_one (fine_slicing1 (phrase_cons hp (tok_cons _ _ (phrase_cons hs (tok_cons _ _ .nil))))))

variable (hkind : ∀ s, kind s ∈ literalKinds)

include hkind
set_option linter.unusedSectionVars false

mutual
theorem put_phrase : ∀ e : Expr, Fits e → At (level e) (put kind e) e
  | .name s, _ => phrase_atom (fine_atom1 (tok_cons K.id (.str s) .nil))
  | .tag s, _ => phrase_atom (fine_atom2 (phrase_one (fine_itemTag1 (tok_cons K.itemTag (.str s) .nil))))
  | .lit s, _ => literal_phrase (hkind s) s
  | .group [], _ => phrase_enclosed (fine_enclosure1 (phrase_one (fine_parenthForm2 (tok_cons _ _ (tok_cons _ _ .nil)))))
  | .group (e :: es), h => by
    simp only [Fits] at h
    exact phrase_enclosed (fine_enclosure1 (phrase_one (fine_parenthForm1 (tok_cons _ _ (phrase_cons (testlist_phrase (put_all (e :: es) h)) (tok_cons _ _ .nil))))))
  | .list [], _ => phrase_enclosed (fine_enclosure3 (phrase_one (fine_listDisplay2 (tok_cons _ _ (phrase_cons phrase_empty (tok_cons _ _ .nil))))))
  | .list (e :: es), h => by
    simp only [Fits] at h
    have h1 := fine_listDisplay1 (tok_cons K.openSq (.str "[".toList) (phrase_cons phrase_empty (phrase_cons (listmaker_phrase (put_all (e :: es) h))
      (phrase_cons phrase_empty (tok_cons K.closeSq (.str "]".toList) .nil)))))
    exact phrase_enclosed (fine_enclosure3 (phrase_one h1))
  | .table [] [], _ => phrase_enclosed (fine_enclosure4 (phrase_one (fine_tableDisplay2 (tok_cons _ _ (phrase_cons phrase_empty (tok_cons _ _ .nil))))))
  | .table (k :: ks) (e :: es), h => by
    simp only [Fits] at h
    have h1 := fine_tableDisplay1 (tok_cons K.openBrace (.str "{".toList) (phrase_cons phrase_empty
      (phrase_cons (table_phrase (k := k) (ks := ks) (by simpa using h.1) (put_all (e :: es) h.2))
      (phrase_cons phrase_empty (tok_cons K.closeBrace (.str "}".toList) .nil)))))
    exact phrase_enclosed (fine_enclosure4 (phrase_one h1))
  | .table [] (_ :: _), h => by simp [Fits] at h
  | .table (_ :: _) [], h => by simp [Fits] at h
  | .attr p a, h => by
    simp only [Fits] at h
    have hp := put_phrase p h.2
    rw [h.1] at hp
    exact fine_primary2 (phrase_one (fine_attributeref1 (phrase_cons hp (phrase_one (fine_attributeTag1 (tok_cons K.dot (.str ".".toList) (tok_cons K.id (.str a) .nil)))))))
  | .sub p i, h => by
    simp only [Fits] at h
    have hp := put_phrase p h.2.1
    rw [h.1] at hp
    have hi := at_le (level_le i) (Nat.zero_le _) (put_phrase i h.2.2)
    exact fine_primary3 (phrase_one (fine_subscription1 (phrase_cons hp (tok_cons K.openSq (.str "[".toList) (phrase_cons hi (tok_cons K.closeSq (.str "]".toList) .nil))))))
  | .items p [], h => by simp [Fits] at h
  | .items p [_], h => by simp [Fits] at h
  | .items p (e :: x :: es), h => by
    simp only [Fits] at h
    have hp := put_phrase p h.2.1
    rw [h.1] at hp
    have h1 := fine_slicing2 (phrase_cons hp (tok_cons K.openSq (.str "[".toList) (phrase_cons (slots_phrase (put_all (e :: x :: es) h.2.2.2))
      (tok_cons K.closeSq (.str "]".toList) .nil))))
    have hv : Act.slices [.e p, .str "[".toList, .slots ((e :: x :: es).map some), .str "]".toList] = .e (.items p (e :: x :: es)) := by
      have h1 : ((e :: x :: es).map some).all Option.isSome = true := by simp
      have h2 : ((e :: x :: es).map some).filterMap id = e :: x :: es := by
        rw [List.filterMap_map]
        exact List.filterMap_some
      simp only [Act.slices, Act.O, Act.X, Act.at_, List.getD_cons_succ, List.getD_cons_zero, Nat.reduceSub]
      rw [if_pos h1, h2]
    rw [hv] at h1
    exact fine_primary4 (phrase_one h1)
  | .slice p [], h => by
    simp only [Fits] at h
    have hp := put_phrase p h.2.1
    rw [h.1] at hp
    exact slice_phrase hp (fine_properSlice1 (phrase_one (fine_shortSlice1 (tok_cons _ _ .nil))))
  | .slice p [a], h => by
    simp only [Fits, FitsSlice] at h
    have hp := put_phrase p h.2.1
    rw [h.1] at hp
    have ha := at_le (level_le a) (Nat.zero_le _) (put_phrase a h.2.2)
    exact slice_phrase hp (fine_properSlice1 (phrase_one (fine_shortSlice4 (phrase_cons ha (tok_cons _ _ .nil)))))
  | .slice p [a, b], h => by
    simp only [Fits, FitsSlice] at h
    have hp := put_phrase p h.2.1
    rw [h.1] at hp
    have hb := at_le (level_le b) (Nat.zero_le _) (put_phrase b h.2.2.2)
    rcases h.2.2.1 with rfl | h1
    · exact slice_phrase hp (fine_properSlice1 (phrase_one (fine_shortSlice3 (tok_cons _ _ (phrase_one hb)))))
    · have ha := at_le (level_le a) (Nat.zero_le _) (put_phrase a h1)
      exact slice_phrase hp (fine_properSlice1 (phrase_one (fine_shortSlice2 (phrase_cons ha (tok_cons _ _ (phrase_one hb))))))
  | .slice p [a, b, c], h => by
    simp only [Fits, FitsSlice] at h
    have hp := put_phrase p h.2.1
    rw [h.1] at hp
    have hb := at_le (level_le b) (Nat.zero_le _) (put_phrase b h.2.2.2.1)
    have hc := at_le (level_le c) (Nat.zero_le _) (put_phrase c h.2.2.2.2)
    rcases h.2.2.1 with rfl | h1
    · have h2 := fine_longSlice1 (phrase_cons (fine_shortSlice3 (tok_cons K.colon (.str ":".toList) (phrase_one hb))) (tok_cons K.colon (.str ":".toList) (phrase_one hc)))
      exact slice_phrase hp (fine_properSlice2 (phrase_one h2))
    · have ha := at_le (level_le a) (Nat.zero_le _) (put_phrase a h1)
      have h2 := fine_longSlice1 (phrase_cons (fine_shortSlice2 (phrase_cons ha (tok_cons K.colon (.str ":".toList) (phrase_one hb)))) (tok_cons K.colon (.str ":".toList) (phrase_one hc)))
      have h3 : At 9 _ (.slice p [a, b, c]) := slice_phrase hp (fine_properSlice2 (phrase_one h2))
      simp only [List.append_assoc, List.cons_append] at h3
      show At 9 _ _
      simpa [put, putSlice, tk] using h3
  | .slice p (_ :: _ :: _ :: _ :: _), h => by simp [Fits, FitsSlice] at h
  | .slices _, h => by simp [Fits] at h
  | .int0, h => by simp [Fits] at h
  | .call f [], _ => fine_primary5 (phrase_one (fine_call1 (tok_cons K.id (.str f) (tok_cons _ _ (tok_cons _ _ .nil)))))
  | .call f (e :: es), h => by
    simp only [Fits] at h
    exact fine_primary5 (phrase_one (fine_call2 (tok_cons K.id (.str f) (tok_cons _ _ (phrase_cons (arguments_phrase (put_all (e :: es) h)) (tok_cons _ _ .nil))))))
  | .op o a b, h => by
    simp only [Fits] at h
    exact op_phrase (at_le (level_le a) h.1 (put_phrase a h.2.1)) (at_le (level_le b) h.2.2.1 (put_phrase b h.2.2.2))
  | .sign true a, h => by
    simp only [Fits] at h
    exact fine_uExpr2 (tok_cons _ _ (phrase_one (at_le (level_le a) h.1 (put_phrase a h.2))))
  | .sign false a, h => by
    simp only [Fits] at h
    exact fine_uExpr3 (tok_cons _ _ (phrase_one (at_le (level_le a) h.1 (put_phrase a h.2))))
  | .not a, h => by
    simp only [Fits] at h
    exact fine_notTest2 (tok_cons _ _ (phrase_one (at_le (level_le a) h.1 (put_phrase a h.2))))
theorem put_all : ∀ es : List Expr, FitsAll es → AllAt kind es
  | [], _ => fun _ h => nomatch h
  | x :: xs, h => by
    simp only [FitsAll] at h
    have h1 := at_le (level_le x) (Nat.zero_le _) (put_phrase x h.1)
    have h2 := put_all xs h.2
    intro e he
    rcases List.mem_cons.mp he with h' | h'
    · exact h' ▸ h1
    · exact h2 e h'
end

end
end Drel
end Verif
