import Verif.Lemmas.DrelStmtGood
import Verif.Lemmas.PyStmtEq
/-! # The text before the body of a loop -/
namespace Verif
namespace DrelMeaning
open DrelPy PyText
variable [CaseFold]
set_option linter.unusedSectionVars false

/-! ## Names with numbers -/

theorem numbered_all {w : Str} (hw : w.all nameChar = true) (n : Nat) : (w ++ Nat.toDigits 10 n).all nameChar = true := by
  rw [List.all_append, hw, Bool.true_and, List.all_eq_true]
  intro c hc
  have := List.all_eq_true.1 (toDigits_digit n) c hc
  simp [nameChar, Char.isAlphanum, this]

/-- A name with underlines before it is not a word of Python. -/
theorem under_free (s : Str) : freeName ('_' :: '_' :: s) = true ∧ keywords.contains ('_' :: '_' :: s) = false := by
  have h1 : keywords.contains ('_' :: '_' :: s) = false := by
    rw [List.contains_eq_mem, decide_eq_false_iff_not]
    have : ∀ k ∈ keywords, k.head? ≠ some '_' := by decide
    exact fun h => this _ h rfl
  refine ⟨?_, h1⟩
  rw [freeName, h1, List.contains_eq_mem]
  have : ∀ k ∈ ["True".toList, "False".toList, "None".toList], k.head? ≠ some '_' := by decide
  have h2 : decide (('_' :: '_' :: s) ∈ ["True".toList, "False".toList, "None".toList]) = false :=
    decide_eq_false fun h => this _ h rfl
  rw [h2]; rfl

theorem under_name {s : Str} (h : s.all nameChar = true) : pyName ('_' :: '_' :: s) = true := by
  rw [pyName, (under_free s).2, List.all_cons, h]; rfl

theorem rangeVar_name (n : Nat) : pyName (rangeVar n) = true :=
  under_name (s := "loop_range".toList ++ Nat.toDigits 10 n) (numbered_all (by decide) n)

theorem ownIndex_name (n : Nat) : pyName ("__pi".toList ++ Nat.toDigits 10 n) = true :=
  under_name (s := "pi".toList ++ Nat.toDigits 10 n) (numbered_all (by decide) n)

theorem ownIndex_free (n : Nat) : freeName ("__pi".toList ++ Nat.toDigits 10 n) = true :=
  (under_free ("pi".toList ++ Nat.toDigits 10 n)).1

theorem loopIndex_eq (i : Str) (n : Nat) : loopIndex i n = indexVar i n := rfl

/-! ## Indented texts -/

theorem addIndent_append (a b : Str) : addIndent (a ++ b) = addIndent a ++ addIndent b := by
  induction a with
  | nil => rfl
  | cons c r ih =>
    rw [List.cons_append, addIndent, addIndent, ih]
    split <;> simp only [List.cons_append, List.append_assoc]

theorem addIndent_line {s : Str} (h : '\n' ∉ s) : addIndent s = s := by
  induction s with
  | nil => rfl
  | cons c r ih =>
    rw [List.mem_cons, not_or] at h
    rw [addIndent, if_neg (Ne.symm h.1), ih h.2]

theorem plain_line {s : Str} (h : plain s = true) : '\n' ∉ s := by
  intro hn
  have := List.all_eq_true.1 h _ hn
  revert this; decide

/-! ## Lines that are the same in every loop -/

theorem simple_le {n m : Nat} {t : List Tok} {s : PyS} (h : simple n t = some s) (hm : n ≤ m) : simple m t = some s := by
  induction hm with
  | refl => exact h
  | step _ ih => exact simple_mono ih

/-- What is read in a line that is one statement. -/
def oneLine (n : Nat) (s : Str) : Option PyS :=
  if s.head?.any (· != ' ') && !s.contains '\n' then
    (tokens n s).bind fun t => if opens t || goesOn t then none else simple n t
  else none

theorem GroupText.computed (n : Nat) {s : Str} {a : PyS} (h : oneLine n s = some a) : GroupText s [a] := by
  unfold oneLine at h
  split at h
  · rename_i hc
    rw [Bool.and_eq_true, Bool.not_eq_true', List.contains_eq_mem, decide_eq_false_iff_not] at hc
    rw [Option.bind_eq_some_iff] at h
    obtain ⟨t, ht, h⟩ := h
    split at h
    · cases h
    · rename_i ho
      rw [Bool.not_eq_true, Bool.or_eq_false_iff] at ho
      cases s with
      | nil => simp at hc
      | cons c r =>
        exact ⟨_, Lay.line hc.2 rfl (by simpa using hc.1) ⟨n, ht⟩, Group.simple ho.1 ho.2 ⟨n, fun m hm => simple_le h hm⟩⟩
  · cases h

theorem present_good : GroupText presentItems [presentNames] := GroupText.computed 80 (by decide +kernel)

theorem shownAll_good : GroupText "print('names in cat = %s' % repr(__pyallitems))".toList
    [shown "names in cat = %s".toList "__pyallitems".toList] := GroupText.computed 80 (by decide +kernel)

theorem shownSome_good : GroupText "print('names in cat -> %s' % repr(__pycitems))".toList
    [shown "names in cat -> %s".toList "__pycitems".toList] := GroupText.computed 80 (by decide +kernel)

theorem shownNew_good : GroupText "print('After category creation, names in cat ->' + repr(__pycitems))".toList
    [.expr [apply "print".toList [] [.bin "+".toList (.str "After category creation, names in cat ->".toList)
        (apply "repr".toList [] [.name "__pycitems".toList])]]] := GroupText.computed 80 (by decide +kernel)

/-! ## Sets and comprehensions -/

theorem str_lex {s : Str} (h : plain s = true) : Lexes (quoted '\'' s) [.str s] := by
  refine ⟨1, ?_⟩
  rw [quoted, tokens, if_neg (by decide)]
  have : next '\'' (s ++ ['\'']) = some (.str s, []) := by
    unfold next
    rw [if_pos (by decide), string_plain (plain_quote h (by decide))]
  rw [this]
  rfl

/-- Texts with a comma and a blank between them. -/
def spaced (ss : List Str) : Str := ss.foldr (fun a r => if r = [] then a else a ++ ", ".toList ++ r) []

theorem set_lex : ∀ {ns : List Str}, ns ≠ [] → (∀ n ∈ ns, plain n = true) →
    Lexes (spaced (ns.map (quoted '\''))) (commaToks (ns.map fun s => [.str s])) ∧ StopEnd (spaced (ns.map (quoted '\''))) ∧
      spaced (ns.map (quoted '\'')) ≠ []
  | [], h, _ => absurd rfl h
  | [n], _, h => ⟨str_lex (h n (by simp)), (strGood (h n (by simp)) (q := '\'') (by decide)).stop, by
    show quoted '\'' n ≠ []
    rw [quoted]; nofun⟩
  | n :: m :: ns, _, h => by
    obtain ⟨h1, h2, h3⟩ := set_lex (ns := m :: ns) (by simp) fun x hx => h x (List.mem_cons_of_mem _ hx)
    have hn := str_lex (h n (by simp))
    have hs := (strGood (h n (by simp)) (q := '\'') (by decide)).stop
    have e : spaced ((n :: m :: ns).map (quoted '\'')) = quoted '\'' n ++ ", ".toList ++ spaced ((m :: ns).map (quoted '\'')) := by
      show (if spaced ((m :: ns).map (quoted '\'')) = [] then _ else _) = _
      rw [if_neg h3]
      rfl
    rw [e]
    refine ⟨?_, h2.append, fun h => by simp at h⟩
    have a1 := hn.append (b := ", ".toList) (tb := [.op ",".toList]) ⟨2, by decide⟩ (Apart.safe hs ⟨',', by decide, by decide⟩)
    have a2 := a1.append h1 (Apart.hard _ (HardEnd.append ⟨' ', by decide, by decide⟩))
    exact a2

theorem reprSet_good {ns : List Str} (hne : ns ≠ []) (h : ∀ n ∈ ns, plain n = true) : GoodP (reprSet ns) (.set (ns.map .str)) := by
  obtain ⟨h1, h2, -⟩ := set_lex hne h
  have e : reprSet ns = "{".toList ++ spaced (ns.map (quoted '\'')) ++ "}".toList := by
    cases ns with
    | nil => exact absurd rfl hne
    | cons n r => rfl
  rw [e]
  refine ⟨Start.append (Start.append ⟨'{', by decide, by decide⟩), StopEnd.append ⟨'}', by decide, by decide⟩, rfl, _, ?_, PrimGood.set hne⟩
  exact lex_between (o := "{".toList) (to := [.op "{".toList]) ⟨1, by decide⟩ (c := "}".toList) (tc := [.op "}".toList])
    ⟨1, by decide⟩ h1 ⟨'{', by decide, by decide⟩ ⟨'}', by decide, by decide⟩ (.inr h2)

/-- The comparison of the variable of a comprehension with the limit. -/
theorem compared_good {o l : Str} (ho : comparisons.contains o = true) (hl : pyName l = true) :
    Good 4 ("a".toList ++ (" ".toList ++ o ++ " ".toList) ++ l) (.bin o (.name "a".toList) (.name l)) := by
  have hsp : ∀ o : Str, SafeStart (" ".toList ++ o ++ " ".toList) := fun o => ⟨' ', rfl, by decide⟩
  have hen : ∀ o : Str, HardEnd (" ".toList ++ o ++ " ".toList) := fun o => HardEnd.append ⟨' ', by decide, by decide⟩
  simp only [comparisons, List.contains_eq_mem, decide_eq_true_eq] at ho
  simp only [List.mem_cons, List.not_mem_nil, or_false] at ho
  have ha : Good 11 "a".toList (.name "a".toList) := Good.ofName (by decide)
  have hb := Good.ofName hl
  rcases ho with rfl | rfl | rfl | rfl | rfl | rfl
  · exact Good.bin (ot := [.op "<".toList]) ha hb (by omega) (by omega) (by omega) (by omega) (by omega) (by omega) (by omega) ⟨3, by decide⟩
      (hsp _) (.inl (hen _)) (fun r => rfl) (fun r => ⟨by decide, by decide, by decide⟩)
  · exact Good.bin (ot := [.op ">".toList]) ha hb (by omega) (by omega) (by omega) (by omega) (by omega) (by omega) (by omega) ⟨3, by decide⟩
      (hsp _) (.inl (hen _)) (fun r => rfl) (fun r => ⟨by decide, by decide, by decide⟩)
  · exact Good.bin (ot := [.op ">=".toList]) ha hb (by omega) (by omega) (by omega) (by omega) (by omega) (by omega) (by omega) ⟨4, by decide⟩
      (hsp _) (.inl (hen _)) (fun r => rfl) (fun r => ⟨by decide, by decide, by decide⟩)
  · exact Good.bin (ot := [.op "<=".toList]) ha hb (by omega) (by omega) (by omega) (by omega) (by omega) (by omega) (by omega) ⟨4, by decide⟩
      (hsp _) (.inl (hen _)) (fun r => rfl) (fun r => ⟨by decide, by decide, by decide⟩)
  · exact Good.bin (ot := [.op "!=".toList]) ha hb (by omega) (by omega) (by omega) (by omega) (by omega) (by omega) (by omega) ⟨4, by decide⟩
      (hsp _) (.inl (hen _)) (fun r => rfl) (fun r => ⟨by decide, by decide, by decide⟩)
  · exact Good.bin (ot := [.op "==".toList]) ha hb (by omega) (by omega) (by omega) (by omega) (by omega) (by omega) (by omega) ⟨4, by decide⟩
      (hsp _) (.inl (hen _)) (fun r => rfl) (fun r => ⟨by decide, by decide, by decide⟩)

theorem comp_good {w o l : Str} (hw : pyName w = true) (ho : comparisons.contains o = true) (hl : pyName l = true) :
    GoodP ("[a for a in ".toList ++ w ++ " if ".toList ++ ("a".toList ++ (" ".toList ++ o ++ " ".toList) ++ l) ++ "]".toList)
      (.comp "a".toList "a".toList (.name w) (.bin o (.name "a".toList) (.name l))) := by
  have hcmp := compared_good ho hl
  obtain ⟨tc, htc, hgc⟩ := hcmp.toks
  have hwg := Good.ofName hw
  obtain ⟨tw, htw, hgw⟩ := hwg.toks
  refine ⟨⟨'[', rfl, by decide⟩, StopEnd.append ⟨']', by decide, by decide⟩, rfl, _, ?_,
    PrimGood.comp (a := "a".toList) (x := "a".toList) (by decide) (by decide) hgw (by omega) hgc (by omega)⟩
  have a1 := Lexes.append (a := "[a for a in ".toList)
    (ta := [.op "[".toList, .word "a".toList, .word "for".toList, .word "a".toList, .word "in".toList]) ⟨12, by decide⟩ htw
    (Apart.hard _ ⟨' ', by decide, by decide⟩)
  have a2 := a1.append (b := " if ".toList) (tb := [.word "if".toList]) ⟨4, by decide⟩ (Apart.safe hwg.stop.append ⟨' ', by decide, by decide⟩)
  have a3 := a2.append htc (Apart.hard _ (HardEnd.append ⟨' ', by decide, by decide⟩))
  have a4 := a3.append (b := "]".toList) (tb := [.op "]".toList]) ⟨1, by decide⟩ (Apart.safe hcmp.stop.append ⟨']', by decide, by decide⟩)
  simp only [List.append_assoc, List.cons_append, List.nil_append] at a4 ⊢
  exact a4

/-! ## The whole text -/

theorem GroupText.assign1 {x t : Str} {e : Py} {lvl : Nat} (hx : pyName x = true) (ha : assignable (.name x) = true) (h : Good lvl t e) (h1 : 1 ≤ lvl) :
    GroupText (x ++ " = ".toList ++ t) [.assign [.name x] [e]] :=
  GroupText.assign (ss := [x]) (ts := [t]) (.one (Good.ofName hx) (by omega)) (by simp) (by rw [List.all_cons, ha]; rfl) (.one h h1) (by simp)

theorem access_line {k : Str} (hk : plain k = true) : '\n' ∉ dataAccess (quoted '\'' k) := by
  have h1 : '\n' ∉ "ciffile[".toList := by decide
  have h2 : '\n' ∉ "]".toList := by decide
  have h3 : '\n' ∉ quoted '\'' k := by
    rw [quoted, List.mem_cons, List.mem_append, List.mem_singleton]
    rintro (h | h | h)
    · exact absurd h (by decide)
    · exact plain_line hk h
    · exact absurd h (by decide)
  intro h
  unfold dataAccess at h
  cases List.mem_append.1 h with
  | inl h =>
    cases List.mem_append.1 h with
    | inl h => exact h1 h
    | inr h => exact h3 h
  | inr h => exact h2 h

theorem create_good {k : Str} (hk : plain k = true) : GroupText
    ("if len(__pycitems)==0:\n    __pydummy = ".toList ++ dataAccess (quoted '\'' k) ++ "\n    ".toList ++ presentItems ++
      "\n    print('After category creation, names in cat ->' + repr(__pycitems))".toList)
    [.ite (.bin "==".toList (apply "len".toList [] [.name "__pycitems".toList]) (.num "0".toList))
      [.assign [.name "__pydummy".toList] [stored k], presentNames,
        .expr [apply "print".toList [] [.bin "+".toList (.str "After category creation, names in cat ->".toList)
          (apply "repr".toList [] [.name "__pycitems".toList])]]] []] := by
  have hlen := (GoodP.name (s := "len".toList) (by decide)).call (.one (Good.ofName (s := "__pycitems".toList) (by decide)) (by omega))
  have hz : Good 11 "0".toList (.num "0".toList) := (number_good (s := "0".toList) (by decide)).1.good
  have hc := Good.bin (p := 4) (t := "==".toList) (ot := [.op "==".toList]) (o := "==".toList) hlen.good hz (by omega) (by omega) (by omega) (by omega)
    (by omega) (by omega) (by omega) ⟨2, by decide⟩ ⟨'=', by decide, by decide⟩ (.inr ⟨'=', by decide, by decide⟩) (fun r => rfl)
    (fun r => ⟨by decide, by decide, by decide⟩)
  have hd := GroupText.assign1 (x := "__pydummy".toList) (by decide) (by decide) (storedGood hk (q := '\'') (by decide)).good (by omega)
  have hu := hd.cons (present_good.cons shownNew_good)
  have hif := GroupText.if_only hc (by omega) hu
  have hkl := access_line hk
  have e0 : ∀ x : Str, ('\n' :: ("__pydummy".toList ++ " = ".toList ++ x ++ "\n".toList ++
      (presentItems ++ "\n".toList ++ "print('After category creation, names in cat ->' + repr(__pycitems))".toList)) : Str) =
      "\n__pydummy = ".toList ++ (x ++ ("\n".toList ++ presentItems ++
        "\nprint('After category creation, names in cat ->' + repr(__pycitems))".toList)) := by
    intro x
    rw [show "\n__pydummy = ".toList = '\n' :: ("__pydummy".toList ++ " = ".toList) by decide +kernel,
      show "\nprint('After category creation, names in cat ->' + repr(__pycitems))".toList = "\n".toList ++
        "print('After category creation, names in cat ->' + repr(__pycitems))".toList by decide +kernel]
    simp only [List.append_assoc, List.cons_append]
  rw [e0, addIndent_append, addIndent_append, addIndent_line hkl] at hif
  have e1 : addIndent "\n__pydummy = ".toList = "\n    __pydummy = ".toList := by decide +kernel
  have e2 : addIndent ("\n".toList ++ presentItems ++ "\nprint('After category creation, names in cat ->' + repr(__pycitems))".toList) =
      "\n    ".toList ++ presentItems ++ "\n    print('After category creation, names in cat ->' + repr(__pycitems))".toList := by decide +kernel
  rw [e1, e2] at hif
  have e3 : "if len(__pycitems)==0:\n    __pydummy = ".toList = "if ".toList ++ ("len".toList ++ "(".toList ++ commas ["__pycitems".toList] ++
    ")".toList ++ "==".toList ++ "0".toList) ++ ":".toList ++ "\n    __pydummy = ".toList := by decide +kernel
  rw [e3]
  simp only [List.append_assoc] at hif ⊢
  exact hif

/-- The text of a loop. -/
theorem loop_good {v : View} {ns : List Str} {k i o l u : Str} {n : Nat} {r ss : List PyS} (hne : ns ≠ []) (hns : ∀ x ∈ ns, plain x = true)
    (hk : plain k = true) (hi : pyName (indexVar i n) = true) (hf : freeName (indexVar i n) = true)
    (hl : o ≠ [] → pyName l = true ∧ isPi l = false ∧ l ≠ "a".toList) (hr : someRows v n o l = some r) (hu : GroupText u ss) :
    GroupText (loopHead ns k n (indexVar i n) o l ++ addIndent ('\n' :: u))
      (allRows ns k n ++ r ++ [.for_ [indexVar i n] [.name (rangeVar n)] ss]) := by
  have hrn := rangeVar_name n
  have hra : assignable (.name (rangeVar n)) = true := rfl
  have h1 := GroupText.assign1 (x := "__pyallitems".toList) (by decide) (by decide) (reprSet_good hne hns).good (by omega)
  have h6 : GroupText (rangeVar n ++ " = ".toList ++ "range(len(ciffile[__pycitems[0]]))".toList)
      [.assign [.name (rangeVar n)] [apply "range".toList [] [apply "len".toList []
        [.index (.name "ciffile".toList) (.index (.name "__pycitems".toList) (.num "0".toList))]]]] := by
    have hz : Good 11 "0".toList (.num "0".toList) := (number_good (s := "0".toList) (by decide)).1.good
    have g1 := (GoodP.name (s := "__pycitems".toList) (by decide)).index (.one hz (by omega)) (by simp)
    have g2 := (GoodP.name (s := "ciffile".toList) (by decide)).index (.one g1.good (by omega)) (by simp)
    have g3 := (GoodP.name (s := "len".toList) (by decide)).call (.one g2.good (by omega))
    have g4 := (GoodP.name (s := "range".toList) (by decide)).call (.one g3.good (by omega))
    exact GroupText.assign1 hrn hra g4.good (by omega)
  have h8 := GroupText.for (xs := [indexVar i n]) (ts := [rangeVar n]) (by simp) (by rw [List.all_cons, hi]; rfl) (by rw [List.all_cons, hf]; rfl)
    (.one (Good.ofName hrn) (by omega)) (by simp) hu
  have base := fun (t : Str) (q : List PyS) (ht : GroupText t q) =>
    h1.cons (shownAll_good.cons (present_good.cons (shownSome_good.cons ((create_good hk).nl.cons (h6.cons ht)))))
  have t1 : "__pyallitems = ".toList = "__pyallitems".toList ++ " = ".toList := by decide +kernel
  have t2 : "\nprint('names in cat = %s' % repr(__pyallitems))\n".toList =
    "\n".toList ++ "print('names in cat = %s' % repr(__pyallitems))".toList ++ "\n".toList := by decide +kernel
  have t3 : "\nprint('names in cat -> %s' % repr(__pycitems))\nif len(__pycitems)==0:\n    __pydummy = ".toList =
    "\n".toList ++ "print('names in cat -> %s' % repr(__pycitems))".toList ++ "\n".toList ++
      "if len(__pycitems)==0:\n    __pydummy = ".toList := by decide +kernel
  have t4 : "\n    print('After category creation, names in cat ->' + repr(__pycitems))\n".toList =
    "\n    print('After category creation, names in cat ->' + repr(__pycitems))".toList ++ "\n".toList := by decide +kernel
  have t5 : " = range(len(ciffile[__pycitems[0]]))".toList = " = ".toList ++ "range(len(ciffile[__pycitems[0]]))".toList := by decide +kernel
  have t6 : "\nfor ".toList = "\n".toList ++ "for ".toList := by decide +kernel
  have t7 : " = [a for a in ".toList = " = ".toList ++ "[a for a in ".toList := by decide +kernel
  have t8 : " if a ".toList = " if ".toList ++ ("a".toList ++ " ".toList) := by decide +kernel
  unfold someRows at hr
  unfold loopHead allRows
  dsimp only
  rw [show "__loop_range".toList ++ Nat.toDigits 10 n = rangeVar n from rfl, t1, t2, t3, t4, t5, t6]
  by_cases ho : o = []
  · rw [if_pos ho] at hr
    cases hr
    have := base _ _ h8
    rw [if_pos ho]
    simp only [commas, List.append_assoc, List.cons_append, List.nil_append, List.append_nil] at this ⊢
    exact this
  · rw [if_neg ho] at hr
    split at hr
    · rename_i hc
      obtain ⟨hl1, hl2, hl3⟩ := hl ho
      simp only [isPi, Bool.or_eq_false_iff, decide_eq_false_iff_not] at hl2
      rw [means, if_neg hl2.2, if_neg hl2.1, if_neg hl3] at hr
      cases hr
      have h7 := GroupText.assign1 hrn hra (comp_good hrn hc hl1).good (by omega)
      have := base _ _ (h7.cons h8)
      rw [if_neg ho, t7, t8]
      simp only [commas, List.append_assoc, List.cons_append, List.nil_append] at this ⊢
      exact this
    · cases hr

end DrelMeaning
end Verif
