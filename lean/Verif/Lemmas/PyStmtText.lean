import Verif.Lemmas.PyLines
/-! # Texts of statements put together -/
namespace Verif
namespace PyText
open DrelPy

/-! ## Line ends are in no token -/

theorem shortString_nl {q : Char} : ∀ {r s r' : Str}, q ≠ '\n' → shortString q r = some (s, r') → '\n' ∈ r → '\n' ∈ r'
  | [], s, r', _, h, _ => by cases h
  | c :: r, s, r', hq, h, hm => by
    unfold shortString at h
    split at h
    · rename_i hc; cases h
      rcases List.mem_cons.1 hm with e | e
      · exact absurd (hc.symm.trans e.symm) hq
      · exact e
    · split at h
      · cases h
      · rename_i hc
        cases e : shortString q r with
        | none => rw [e] at h; cases h
        | some p =>
          rw [e] at h; cases h
          refine shortString_nl hq e ?_
          rcases List.mem_cons.1 hm with e | e
          · exact absurd (.inl e.symm) hc
          · exact e

theorem longString_nl {q : Char} : ∀ {r s r' : Str}, q ≠ '\n' → longString q r = some (s, r') → '\n' ∈ r → '\n' ∈ r'
  | [], s, r', _, h, _ => by cases h
  | c :: r, s, r', hq, h, hm => by
    unfold longString at h
    split at h
    · rename_i hc; cases h
      rw [← List.take_append_drop 3 (c :: r), List.mem_append, hc] at hm
      rcases hm with e | e
      · simp [Ne.symm hq] at e
      · exact e
    · split at h
      · cases h
      · rename_i hc
        cases e : longString q r with
        | none => rw [e] at h; cases h
        | some p =>
          rw [e] at h; cases h
          refine longString_nl hq e ?_
          rcases List.mem_cons.1 hm with e | e
          · exact absurd (.inl e.symm) hc
          · exact e

theorem quote_nl {q : Char} (h : isQuote q = true) : q ≠ '\n' := by rintro rfl; revert h; decide

theorem string_nl {q : Char} {r r' : Str} {t : Tok} (hq : isQuote q = true) (h : string q r = some (t, r')) (hm : '\n' ∈ r) : '\n' ∈ r' := by
  unfold string at h
  have hq' := quote_nl hq
  split at h
  · rename_i h2
    cases e : longString q (r.drop 2) with
    | none => rw [e] at h; cases h
    | some p =>
      rw [e] at h; cases h
      refine longString_nl hq' e ?_
      rw [← List.take_append_drop 2 r, List.mem_append, h2] at hm
      rcases hm with e | e
      · simp [Ne.symm hq'] at e
      · exact e
  · cases e : shortString q r with
    | none => rw [e] at h; cases h
    | some p =>
      rw [e] at h; cases h
      exact shortString_nl hq' e hm

theorem dropWhile_nl {r : Str} (hm : '\n' ∈ r) : '\n' ∈ r.dropWhile nameChar := by
  induction r with
  | nil => cases hm
  | cons c r ih =>
    rw [List.dropWhile_cons]
    split
    · rename_i h
      rcases List.mem_cons.1 hm with e | e
      · subst e; exact absurd h (by decide)
      · exact ih e
    · exact hm

theorem numeral_nl : ∀ {p : Char} {r : Str}, '\n' ∈ r → '\n' ∈ (numeral p r).2
  | _, [], h => by cases h
  | p, c :: r, h => by
    unfold numeral
    split
    · rename_i hc
      rcases List.mem_cons.1 h with e | e
      · subst e
        exfalso; revert hc
        rw [show (nameChar '\n' || '\n' == '.' || ('\n' == '+' || '\n' == '-') && (p == 'e' || p == 'E')) = false from rfl]
        simp
      · exact numeral_nl e
    · exact h

theorem next_nl {c : Char} {r r' : Str} {t : Tok} (h : next c r = some (t, r')) : c ≠ '\n' ∧ ('\n' ∈ r → '\n' ∈ r') := by
  unfold next at h
  split at h
  · rename_i hq; exact ⟨quote_nl hq, string_nl hq h⟩
  · split at h
    · rename_i hn
      refine ⟨by rintro rfl; revert hn; decide, ?_⟩
      split at h
      · rename_i q r2
        split at h
        · rename_i hp
          rw [Bool.and_eq_true] at hp
          intro hm
          refine string_nl hp.2 h ?_
          rcases List.mem_cons.1 hm with e | e
          · exact absurd e.symm (quote_nl hp.2)
          · exact e
        · cases h; exact dropWhile_nl
      · cases h; exact id
    · split at h
      · rename_i hd
        split at h
        · cases h
          refine ⟨?_, numeral_nl⟩
          rintro rfl; revert hd
          rw [show (Char.isDigit '\n' || '\n' == '.' && digitNext r) = false from rfl]
          simp
        · cases h
      · split at h
        · rename_i d r2
          split at h
          · rename_i hp
            cases h
            constructor
            · rintro rfl; revert hp
              simp [isPair]
            · intro hm
              rcases List.mem_cons.1 hm with e | e
              · subst e; revert hp
                simp [isPair]
              · exact e
          · split at h
            · rename_i hd; cases h; exact ⟨by rintro rfl; revert hd; decide, id⟩
            · cases h
        · split at h
          · rename_i hd; cases h; exact ⟨by rintro rfl; revert hd; decide, id⟩
          · cases h

theorem tokens_nl : ∀ {n : Nat} {s : Str} {t : List Tok}, tokens n s = some t → '\n' ∉ s
  | _, [], _, _ => by simp
  | 0, _ :: _, _, h => by cases h
  | n + 1, c :: r, t, h => by
    unfold tokens at h
    split at h
    · rename_i hc
      subst hc
      rw [List.mem_cons, not_or]
      exact ⟨by decide, tokens_nl h⟩
    · cases hx : next c r with
      | none => rw [hx] at h; cases h
      | some p =>
        obtain ⟨t1, r'⟩ := p
        rw [hx] at h
        dsimp only at h
        cases hy : tokens n r' with
        | none => rw [hy] at h; cases h
        | some l =>
          obtain ⟨h1, h2⟩ := next_nl hx
          rw [List.mem_cons, not_or]
          exact ⟨Ne.symm h1, fun hm => tokens_nl hy (h2 hm)⟩

theorem Lay.of {s : Str} {t : List Tok} (hl : Lexes s t) (hs : Start s) : Lay s [(0, t)] := by
  obtain ⟨c, hc, ho⟩ := hs
  cases s with
  | nil => cases hc
  | cons d r =>
    cases hc
    refine Lay.line (tokens_nl hl.choose_spec) rfl ?_ hl
    rintro rfl
    revert ho; decide

/-! ## Statements of one line -/

theorem GroupText.brk : GroupText "break ".toList [.brk] :=
  ⟨_, Lay.of (t := [.word "break".toList]) ⟨6, by decide⟩ ⟨'b', by decide, by decide⟩,
    Group.simple rfl rfl (Ev.intro fun m => by unfold simple; rw [if_pos rfl])⟩

theorem GroupText.cont : GroupText "continue ".toList [.cont] :=
  ⟨_, Lay.of (t := [.word "continue".toList]) ⟨9, by decide⟩ ⟨'c', by decide, by decide⟩,
    Group.simple rfl rfl (Ev.intro fun m => by unfold simple; rw [if_neg (by decide), if_pos rfl])⟩

theorem GroupText.exprs {ss : List Str} {es : List Py} (h : TextsGood ss es) (hne : ss ≠ []) : GroupText (commas ss) [.expr es] := by
  obtain ⟨tl, hl, hg, hx, -⟩ := h.lex
  obtain ⟨hs, -, htl⟩ := hx hne
  obtain ⟨h1, h2, h3⟩ := first_plain hg htl []
  rw [List.append_nil] at h1 h2 h3
  refine ⟨_, Lay.of hl hs, Group.simple h1 h2 ?_⟩
  have h4 := (exprList_good hg htl (rest := []) (.inl rfl)).bind (g := fun p m =>
    match p.2 with
    | [] => some (PyS.expr p.1)
    | t :: r =>
      if t = .op "=".toList ∧ p.1.all assignable then (someExprs m r).map (PyS.assign p.1) else none) (b := .expr es)
    (Ev.intro fun m => rfl)
  rw [List.append_nil] at h4
  exact h4.congr fun m => h3 m

theorem GroupText.expr {lvl : Nat} {s : Str} {e : Py} (h : Good lvl s e) (h1 : 1 ≤ lvl) : GroupText s [.expr [e]] :=
  GroupText.exprs (.one h h1) (by simp)

theorem GroupText.assign {ss ts : List Str} {es fs : List Py} (h : TextsGood ss es) (hne : ss ≠ []) (ha : es.all assignable = true)
    (h' : TextsGood ts fs) (hne' : ts ≠ []) : GroupText (commas ss ++ " = ".toList ++ commas ts) [.assign es fs] := by
  obtain ⟨tl, hl, hg, hx, -⟩ := h.lex
  obtain ⟨hs, hst, htl⟩ := hx hne
  obtain ⟨tl', hl', hg', hx', -⟩ := h'.lex
  obtain ⟨hs', -, htl'⟩ := hx' hne'
  obtain ⟨h1, h2, h3⟩ := first_plain hg htl (.op "=".toList :: commaToks tl')
  have hlex : Lexes (commas ss ++ " = ".toList ++ commas ts) (commaToks tl ++ .op "=".toList :: commaToks tl') := by
    have a1 := hl.append (b := " = ".toList) (tb := [.op "=".toList]) ⟨3, by decide⟩ (Apart.safe hst ⟨' ', by decide, by decide⟩)
    have a2 := a1.append hl' (Apart.hard _ (HardEnd.append ⟨' ', by decide, by decide⟩))
    rw [List.append_assoc (commaToks tl)] at a2
    exact a2
  refine ⟨_, Lay.of hlex hs.append.append, Group.simple h1 h2 ?_⟩
  have h4 := (exprList_good hg htl (rest := .op "=".toList :: commaToks tl') (.inr ⟨_, rfl⟩)).bind (g := fun p m =>
    match p.2 with
    | [] => some (PyS.expr p.1)
    | t :: r =>
      if t = .op "=".toList ∧ p.1.all assignable then (someExprs m r).map (PyS.assign p.1) else none) (b := .assign es fs)
    (((someExprs_good hg' htl').map (g := PyS.assign es)).congr fun m => by
      dsimp only
      rw [if_pos ⟨rfl, ha⟩])
  exact h4.congr fun m => h3 m

theorem GroupText.ret {lvl : Nat} {s : Str} {e : Py} (h : Good lvl s e) (h1 : 1 ≤ lvl) : GroupText ("return ".toList ++ s) [.ret e] := by
  obtain ⟨l, hl, hg⟩ := h.toks
  have hlex : Lexes ("return ".toList ++ s) (.word "return".toList :: l) :=
    Lexes.append (a := "return ".toList) (ta := [.word "return".toList]) ⟨7, by decide⟩ hl (Apart.hard _ ⟨' ', by decide, by decide⟩)
  refine ⟨_, Lay.of hlex (Start.append ⟨'r', by decide, by decide⟩), Group.simple rfl rfl ?_⟩
  refine ((oneExpr_good hg h1).map (g := PyS.ret)).congr fun m => ?_
  unfold simple
  rw [if_neg (by intro h; injection h with h _; revert h; decide), if_neg (by intro h; injection h with h _; revert h; decide)]
  dsimp only
  rw [if_pos rfl]

/-! ## First lines -/

theorem header_colon {n : Nat} {t : List Tok} : header n (t ++ [.op ":".toList]) = opener n t := by
  unfold header
  rw [List.getLast?_append, List.dropLast_concat]
  rfl

theorem opener_if (n : Nat) (r : List Tok) : opener n (.word "if".toList :: r) = (oneExpr n r).map .if_ := by
  unfold opener; dsimp only; rw [if_pos rfl]

theorem opener_elif (n : Nat) (r : List Tok) : opener n (.word "elif".toList :: r) = (oneExpr n r).map .elif_ := by
  unfold opener; dsimp only; rw [if_neg (by decide), if_pos rfl]

theorem opener_else (n : Nat) : opener n [.word "else".toList] = some .else_ := by
  unfold opener; dsimp only; rw [if_neg (by decide), if_neg (by decide), if_pos rfl, if_pos rfl]

theorem opener_while (n : Nat) (r : List Tok) : opener n (.word "while".toList :: r) = (oneExpr n r).map .while_ := by
  unfold opener; dsimp only; rw [if_neg (by decide), if_neg (by decide), if_neg (by decide), if_pos rfl]

/-- A word, an expression and a colon. -/
theorem lex_head {w : Str} {s : Str} {lvl : Nat} {e : Py} {tw : List Tok} (hw : Lexes w tw) (hh : HardEnd w) (h : Good lvl s e) {l : List Tok}
    (hl : Lexes s l) : Lexes (w ++ s ++ ":".toList) (tw ++ l ++ [.op ":".toList]) :=
  lex_between hw ⟨1, by decide⟩ hl hh ⟨':', by decide, by decide⟩ (.inr h.stop)

theorem GroupText.if {lvl : Nat} {c u w : Str} {e : Py} {ss es : List PyS} (h : Good lvl c e) (h1 : 1 ≤ lvl) (hu : GroupText u ss)
    {ls : List Line} (hw : Lay w ls) (hp : Parts ls es) :
    GroupText ("if ".toList ++ c ++ ":".toList ++ addIndent ('\n' :: u) ++ '\n' :: w) [.ite e ss es] := by
  obtain ⟨l, hl, hg⟩ := h.toks
  obtain ⟨lu, hlu, hgu⟩ := hu
  have hlex := lex_head (w := "if ".toList) (tw := [.word "if".toList]) ⟨3, by decide⟩ ⟨' ', by decide, by decide⟩ h hl
  have hlay := ((Lay.of hlex (Start.append (Start.append ⟨'i', by decide, by decide⟩))).compound hlu).nl hw
  refine ⟨_, hlay, Group.if rfl rfl ?_ hgu hp⟩
  refine ((oneExpr_good hg h1).map (g := Head.if_)).congr fun m => ?_
  rw [header_colon, List.cons_append, List.nil_append, opener_if]

theorem GroupText.if_only {lvl : Nat} {c u : Str} {e : Py} {ss : List PyS} (h : Good lvl c e) (h1 : 1 ≤ lvl) (hu : GroupText u ss) :
    GroupText ("if ".toList ++ c ++ ":".toList ++ addIndent ('\n' :: u)) [.ite e ss []] := by
  obtain ⟨l, hl, hg⟩ := h.toks
  obtain ⟨lu, hlu, hgu⟩ := hu
  have hlex := lex_head (w := "if ".toList) (tw := [.word "if".toList]) ⟨3, by decide⟩ ⟨' ', by decide, by decide⟩ h hl
  have hlay := (Lay.of hlex (Start.append (Start.append ⟨'i', by decide, by decide⟩))).compound hlu
  have hpart := Group.if (t := [.word "if".toList] ++ l ++ [.op ":".toList]) (c := e) rfl rfl ?_ hgu .nil
  · rw [List.append_nil] at hpart
    exact ⟨_, hlay, hpart⟩
  · refine ((oneExpr_good hg h1).map (g := Head.if_)).congr fun m => ?_
    rw [header_colon, List.cons_append, List.nil_append, opener_if]

/-- Texts of the parts `elif` and `else`; every part begins on a new line. -/
def PartsText (s : Str) (es : List PyS) : Prop := (s = [] ∧ es = []) ∨ ∃ w ls, s = '\n' :: w ∧ Lay w ls ∧ Parts ls es

theorem GroupText.ite {lvl : Nat} {c u w : Str} {e : Py} {ss es : List PyS} (h : Good lvl c e) (h1 : 1 ≤ lvl) (hu : GroupText u ss)
    (hw : PartsText w es) : GroupText ("if ".toList ++ c ++ ":".toList ++ addIndent ('\n' :: u) ++ w) [.ite e ss es] := by
  rcases hw with ⟨rfl, rfl⟩ | ⟨v, ls, rfl, hv, hp⟩
  · rw [List.append_nil]; exact GroupText.if_only h h1 hu
  · exact GroupText.if h h1 hu hv hp

theorem PartsText.elif {lvl : Nat} {c u w : Str} {e : Py} {ss es : List PyS} (h : Good lvl c e) (h1 : 1 ≤ lvl) (hu : GroupText u ss)
    (hw : PartsText w es) :
    PartsText ("\n".toList ++ ("elif ".toList ++ c ++ ":".toList ++ addIndent ('\n' :: u)) ++ w) [.ite e ss es] := by
  obtain ⟨l, hl, hg⟩ := h.toks
  obtain ⟨lu, hlu, hgu⟩ := hu
  have hlex := lex_head (w := "elif ".toList) (tw := [.word "elif".toList]) ⟨5, by decide⟩ ⟨' ', by decide, by decide⟩ h hl
  have hlay := (Lay.of hlex (Start.append (Start.append ⟨'e', by decide, by decide⟩))).compound hlu
  have hh : Ev (fun m => header m ([.word "elif".toList] ++ l ++ [.op ":".toList])) (.elif_ e) := by
    refine ((oneExpr_good hg h1).map (g := Head.elif_)).congr fun m => ?_
    rw [header_colon, List.cons_append, List.nil_append, opener_elif]
  right
  rcases hw with ⟨rfl, rfl⟩ | ⟨v, ls, rfl, hv, hp⟩
  · have hpart := Parts.elif rfl hh hgu .nil
    rw [List.append_nil] at hpart
    exact ⟨_, _, by rw [List.append_nil]; rfl, hlay, hpart⟩
  · exact ⟨_, _, rfl, hlay.nl hv, Parts.elif rfl hh hgu hp⟩

theorem PartsText.else {u : Str} {ss : List PyS} (hu : GroupText u ss) :
    PartsText ("\n".toList ++ ("else".toList ++ [] ++ ":".toList ++ addIndent ('\n' :: u))) ss := by
  obtain ⟨lu, hlu, hgu⟩ := hu
  have hlay := (Lay.of (s := "else".toList ++ [] ++ ":".toList) (t := [.word "else".toList, .op ":".toList]) ⟨5, by decide⟩
    ⟨'e', by decide, by decide⟩).compound hlu
  refine .inr ⟨_, _, rfl, hlay, Parts.else rfl (Ev.intro fun m => ?_) hgu⟩
  show header m ([.word "else".toList] ++ [.op ":".toList]) = _
  rw [header_colon, opener_else]

theorem GroupText.while {u : Str} {ss : List PyS} (hu : GroupText u ss) :
    GroupText ("while True:".toList ++ addIndent ('\n' :: u)) [.while_ (.name "True".toList) ss] := by
  obtain ⟨lu, hlu, hgu⟩ := hu
  have hlay := (Lay.of (s := "while True:".toList) (t := [.word "while".toList, .word "True".toList, .op ":".toList]) ⟨11, by decide⟩
    ⟨'w', by decide, by decide⟩).compound hlu
  refine ⟨_, hlay, Group.while rfl rfl ?_ hgu⟩
  have h1 := oneExpr_good (PrimGood.name (w := "True".toList) (by decide)).expr (by omega)
  refine (h1.map (g := Head.while_)).congr fun m => ?_
  show header m ([.word "while".toList, .word "True".toList] ++ [.op ":".toList]) = _
  rw [header_colon, opener_while]

/-! ## Names -/

theorem Good.ofName {s : Str} (h : pyName s = true) : Good 11 s (.name s) := (GoodP.name h).good

/-- Names separated by commas. -/
theorem lex_names : ∀ {xs : List Str}, xs ≠ [] → xs.all pyName = true →
    Lexes (commas xs) (commaToks (xs.map fun x => [.word x])) ∧ StopEnd (commas xs)
  | [], h, _ => absurd rfl h
  | [x], _, h => by
    simp only [List.all_cons, List.all_nil, Bool.and_true] at h
    obtain ⟨c, r, rfl, hc, hall, -⟩ := pyName_parts h
    simp only [List.all_cons, Bool.and_eq_true] at hall
    exact ⟨lex_word hc hall.2, (GoodP.name h).stop⟩
  | x :: y :: r, _, h => by
    rw [List.all_cons, Bool.and_eq_true] at h
    obtain ⟨h1, h2⟩ := lex_names (xs := y :: r) (by simp) h.2
    have hx := h.1
    obtain ⟨c, t, rfl, hc, hall, -⟩ := pyName_parts h.1
    simp only [List.all_cons, Bool.and_eq_true] at hall
    have a1 := (lex_word hc hall.2).append (b := ",".toList) (tb := [.op ",".toList]) ⟨1, by decide⟩
      (Apart.safe (GoodP.name hx).stop ⟨',', by decide, by decide⟩)
    have a2 := a1.append h1 (Apart.hard _ (HardEnd.append ⟨',', by decide, by decide⟩))
    rw [List.append_assoc, List.append_assoc] at a2
    refine ⟨a2, ?_⟩
    rw [commas, show (',' :: commas (y :: r) : Str) = ",".toList ++ commas (y :: r) from rfl]
    exact StopEnd.append (StopEnd.append h2)

theorem someNames_in : ∀ {xs : List Str}, xs ≠ [] → xs.all freeName = true → ∀ (v : Str) (r : List Tok),
    someNames (commaToks (xs.map fun x => [.word x]) ++ .word v :: r) = some (xs, .word v :: r)
  | [], h, _, _, _ => absurd rfl h
  | [x], _, h, v, r => by
    simp only [List.all_cons, List.all_nil, Bool.and_true] at h
    show someNames (.word x :: .word v :: r) = _
    rw [someNames, if_pos h]
    intro o r' h; cases h
  | x :: y :: xs, _, h, v, r => by
    rw [List.all_cons, Bool.and_eq_true] at h
    show someNames (.word x :: .op ",".toList :: (commaToks ((y :: xs).map fun x => [.word x]) ++ .word v :: r)) = _
    rw [someNames, if_pos h.1, if_pos rfl, someNames_in (by simp) h.2]
    rfl

theorem someNames_op : ∀ {xs : List Str}, xs ≠ [] → xs.all freeName = true → ∀ {o : Str} (_ : o ≠ ",".toList) (r : List Tok),
    someNames (commaToks (xs.map fun x => [.word x]) ++ .op o :: r) = some (xs, .op o :: r)
  | [], h, _, _, _, _ => absurd rfl h
  | [x], _, h, o, ho, r => by
    simp only [List.all_cons, List.all_nil, Bool.and_true] at h
    show someNames (.word x :: .op o :: r) = _
    rw [someNames, if_pos h, if_neg ho]
  | x :: y :: xs, _, h, o, ho, r => by
    rw [List.all_cons, Bool.and_eq_true] at h
    show someNames (.word x :: .op ",".toList :: (commaToks ((y :: xs).map fun x => [.word x]) ++ .op o :: r)) = _
    rw [someNames, if_pos h.1, if_pos rfl, someNames_op (by simp) h.2 ho]
    rfl

theorem GroupText.for {xs ts : List Str} {es : List Py} {u : Str} {ss : List PyS} (hx : xs ≠ []) (hx1 : xs.all pyName = true)
    (hx2 : xs.all freeName = true) (h : TextsGood ts es) (hne : ts ≠ []) (hu : GroupText u ss) :
    GroupText ("for ".toList ++ commas xs ++ " in ".toList ++ commas ts ++ ":".toList ++ addIndent ('\n' :: u)) [.for_ xs es ss] := by
  obtain ⟨lu, hlu, hgu⟩ := hu
  obtain ⟨tl, hl, hg, hy, -⟩ := h.lex
  obtain ⟨-, hst, htl⟩ := hy hne
  obtain ⟨hn, hns⟩ := lex_names hx hx1
  have a1 := Lexes.append (a := "for ".toList) (ta := [.word "for".toList]) ⟨4, by decide⟩ hn (Apart.hard _ ⟨' ', by decide, by decide⟩)
  have a2 := a1.append (b := " in ".toList) (tb := [.word "in".toList]) ⟨4, by decide⟩ (Apart.safe hns.append ⟨' ', by decide, by decide⟩)
  have a3 := a2.append hl (Apart.hard _ (HardEnd.append ⟨' ', by decide, by decide⟩))
  have a4 := a3.append (b := ":".toList) (tb := [.op ":".toList]) ⟨1, by decide⟩ (Apart.safe hst.append ⟨':', by decide, by decide⟩)
  have hlay := (Lay.of a4 (Start.append (Start.append (Start.append (Start.append ⟨'f', by decide, by decide⟩))))).compound hlu
  refine ⟨_, hlay, Group.for rfl rfl ?_ hgu⟩
  refine ((someExprs_good hg htl).map (g := Head.for_ xs)).congr fun m => ?_
  rw [header_colon, List.append_assoc, List.append_assoc, List.cons_append, List.nil_append]
  unfold opener
  dsimp only
  rw [if_neg (by decide), if_neg (by decide), if_neg (by decide), if_neg (by decide), if_pos rfl, List.cons_append, List.nil_append, someNames_in hx hx2]
  show (if "in".toList = "in".toList then (someExprs m (commaToks tl)).map (Head.for_ xs) else none) = _
  rw [if_pos rfl]

theorem commas_flatten (as : List Str) (b : Str) : (as.map (· ++ ",".toList)).flatten ++ b = commas (as ++ [b]) := by
  induction as with
  | nil => rfl
  | cons a r ih =>
    rw [List.map_cons, List.flatten_cons, List.append_assoc, ih, List.append_assoc]
    cases r <;> rfl

theorem GroupText.def {f : Str} {xs : List Str} {u : Str} {ss : List PyS} (hf : pyName f = true) (hf' : freeName f = true)
    (hx1 : xs.all pyName = true) (hx2 : xs.all freeName = true) (hnd : (xs ++ ["ciffile".toList]).Nodup) (hu : GroupText u ss) :
    GroupText ("def ".toList ++ f ++ " (".toList ++ (xs.map (· ++ ",".toList)).flatten ++ "ciffile):".toList ++ addIndent ('\n' :: u))
      [.def_ f (xs ++ ["ciffile".toList]) ss] := by
  obtain ⟨lu, hlu, hgu⟩ := hu
  have h1 : (xs ++ ["ciffile".toList]).all pyName = true := by
    rw [List.all_append, hx1]; decide
  have h2 : (xs ++ ["ciffile".toList]).all freeName = true := by
    rw [List.all_append, hx2]; decide
  obtain ⟨hn, hns⟩ := lex_names (xs := xs ++ ["ciffile".toList]) (by simp) h1
  have e : "def ".toList ++ f ++ " (".toList ++ (xs.map (· ++ ",".toList)).flatten ++ "ciffile):".toList =
      "def ".toList ++ f ++ " (".toList ++ commas (xs ++ ["ciffile".toList]) ++ "):".toList := by
    rw [← commas_flatten, show "ciffile):".toList = "ciffile".toList ++ "):".toList from rfl]
    simp only [List.append_assoc]
  rw [e]
  have hfg := GoodP.name hf
  obtain ⟨c, r, rfl, hc, hall, -⟩ := pyName_parts hf
  simp only [List.all_cons, Bool.and_eq_true] at hall
  have a1 := Lexes.append (a := "def ".toList) (ta := [.word "def".toList]) ⟨4, by decide⟩ (lex_word hc hall.2)
    (Apart.hard _ ⟨' ', by decide, by decide⟩)
  have a2 := a1.append (b := " (".toList) (tb := [.op "(".toList]) ⟨4, by decide⟩ (Apart.safe hfg.stop.append ⟨' ', by decide, by decide⟩)
  have a3 := a2.append hn (Apart.hard _ (HardEnd.append ⟨'(', by decide, by decide⟩))
  have a4 := a3.append (b := "):".toList) (tb := [.op ")".toList, .op ":".toList]) ⟨2, by decide⟩ (Apart.safe hns.append ⟨')', by decide, by decide⟩)
  have hlay := (Lay.of a4 (Start.append (Start.append (Start.append (Start.append ⟨'d', by decide, by decide⟩))))).compound hlu
  refine ⟨_, hlay, Group.def rfl rfl (Ev.intro fun m => ?_) hgu⟩
  generalize hxs : xs ++ ["ciffile".toList] = ys at *
  have hy : ys ≠ [] := by rw [← hxs]; simp
  rw [show [Tok.word "def".toList] ++ [.word (c :: r)] ++ [.op "(".toList] ++ commaToks (ys.map fun x => [.word x]) ++ [.op ")".toList, .op ":".toList]
    = (.word "def".toList :: .word (c :: r) :: .op "(".toList :: (commaToks (ys.map fun x => [.word x]) ++ [.op ")".toList])) ++ [.op ":".toList] by
    simp]
  rw [header_colon]
  unfold opener
  dsimp only
  rw [if_neg (by decide), if_neg (by decide), if_neg (by decide), if_neg (by decide), if_neg (by decide), if_pos rfl]
  rw [if_pos ⟨hf', rfl⟩, someNames_op hy h2 (by decide)]
  show (if [Tok.op ")".toList] = [Tok.op ")".toList] ∧ ys.Nodup then some (Head.def_ (c :: r) ys) else none) = _
  rw [if_pos ⟨rfl, hnd⟩]

end PyText
end Verif
