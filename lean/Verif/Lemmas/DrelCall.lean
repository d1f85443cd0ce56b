import Verif.Lemmas.DrelText
/-! # Texts of function calls -/
namespace Verif
namespace DrelMeaning
open DrelPy PyText
variable [CaseFold]
set_option linter.unusedSectionVars false

/-- The tokens of `a.b.c`. -/
def dottedToks (a : Str) (r : List Str) : List Tok := r.foldl (fun l w => l ++ [.op ".".toList, .word w]) [.word a]

theorem primGood_dotted {a : Str} {r : List Str} (ha : a ∉ keywords) (hr : ∀ w ∈ r, w ∉ keywords) :
    PrimGood (dottedToks a r) (dotted a r) := by
  have : ∀ (r : List Str) (l : List Tok) (e : Py), PrimGood l e → (∀ w ∈ r, w ∉ keywords) →
      PrimGood (r.foldl (fun l w => l ++ [.op ".".toList, .word w]) l) (r.foldl .attr e) := by
    intro r
    induction r with
    | nil => intro l e h _; exact h
    | cons w r ih => intro l e h hr; exact ih _ _ (h.attr (hr w (by simp))) fun x hx => hr x (by simp [hx])
  exact this r _ _ (.name ha) hr

/-- The text is a dotted name. -/
def isDotted (s a : Str) (r : List Str) : Bool :=
  decide (tokens 20 s = some (dottedToks a r)) && !keywords.contains a && r.all (fun w => !keywords.contains w) &&
    s.head?.any startOk && s.getLast?.any stopOk

theorem missing_dotted (a : Str) (r : List Str) : missing (dotted a r) = false := by
  have : ∀ (r : List Str) (e : Py), missing e = false → missing (r.foldl .attr e) = false := by
    intro r
    induction r with
    | nil => intro e h; exact h
    | cons w r ih => intro e _; exact ih _ rfl
  exact this r _ rfl

theorem _root_.Verif.PyText.GoodP.dotted {s a : Str} {r : List Str} (h : isDotted s a r = true) : GoodP s (dotted a r) := by
  simp only [isDotted, Bool.and_eq_true, decide_eq_true_eq, Bool.not_eq_true', List.contains_eq_mem, decide_eq_false_iff_not,
    List.all_eq_true, Option.any_eq_true] at h
  obtain ⟨⟨⟨⟨h1, h2⟩, h3⟩, h4⟩, h5⟩ := h
  exact ⟨h4, h5, missing_dotted a r, _, ⟨20, h1⟩, primGood_dotted h2 h3⟩

/-- An attribute of something that ends with a bracket. -/
theorem _root_.Verif.PyText.GoodP.attr {s x w : Str} {e : Py} (h : GoodP s e) (hs : HardEnd s) (hx : Lexes x [.op ".".toList, .word w]) (hw : w ∉ keywords)
    (hend : StopEnd x) : GoodP (s ++ x) (.attr e w) := by
  obtain ⟨l, hl, hp⟩ := h.toks
  exact ⟨h.start.append, hend.append, rfl, _, hl.append hx (Apart.hard _ hs), hp.attr hw⟩

theorem hard_paren (s : Str) : HardEnd (s ++ ")".toList) := HardEnd.append ⟨')', by decide, by decide⟩

/-- A number of the translator's. -/
theorem _root_.Verif.PyText.GoodP.num {s : Str} (h1 : Lexes s [.num s]) (h2 : Start s) (h3 : StopEnd s) : GoodP s (.num s) :=
  ⟨h2, h3, rfl, _, h1, .num s⟩

/-- The text of a call to a function of this name. -/
theorem callText_eq {f n p q : Str} {ts : List Str} (hf : functionName f = (n, p, some q)) (hn : n ≠ "list".toList) :
    callText f ts = n ++ (if ts = [] then "(".toList else "( ".toList) ++ commas (ts.map (p ++ ·)) ++ ")".toList ++ q := by
  unfold callText
  rw [hf]
  dsimp only
  rw [if_neg (fun h => hn h.1)]
  by_cases h : ts = []
  · rw [if_pos h, if_pos h, h]
    simp only [List.map_nil, commas, List.append_nil]
  · rw [if_neg h, if_neg h]

theorem bracket_cases (ts : List Str) : (if ts = [] then "(".toList else "( ".toList) = "(".toList ∨
    (if ts = [] then "(".toList else "( ".toList) = "( ".toList := by
  split
  · exact .inl rfl
  · exact .inr rfl

theorem map_nil_append (ts : List Str) : ts.map (([] : Str) ++ ·) = ts := by
  induction ts with
  | nil => rfl
  | cons a r ih => rw [List.map_cons, ih, List.nil_append]

/-- A function with another name. -/
theorem call_plain {f n : Str} {F : Py} {ts : List Str} {es : List Py} (hf : functionName f = (n, [], some [])) (hn : n ≠ "list".toList)
    (hF : GoodP n F) (h : TextsGood ts es) : GoodP (callText f ts) (.call F es) := by
  rw [callText_eq hf hn, map_nil_append, List.append_nil]
  exact hF.call' h (bracket_cases ts)

/-- A function of an angle in degrees, and the exponential of an imaginary number. -/
theorem call_inner {f n p q : Str} {F : Py} {t : Str} {e : Py} (hf : functionName f = (n, p, some q)) (hn : n ≠ "list".toList)
    (hF : GoodP n F) {lvl : Nat} (h1 : 1 ≤ lvl) (hp : Good lvl (p ++ t ++ q) e) (hq : q = ")".toList) :
    GoodP (callText f [t]) (.call F [e]) := by
  have := hF.call' (.one hp h1) (o := "( ".toList) (.inr rfl)
  rw [callText_eq hf hn, if_neg (by simp), hq]
  rw [hq] at this
  simp only [commas, List.map_cons, List.map_nil, List.append_assoc] at this ⊢
  exact this

/-- The result in degrees. -/
theorem call_outer {f n m o : Str} {F G : Py} {ts : List Str} {es : List Py} (hf : functionName f = (n, [], some ")".toList))
    (hn : n ≠ "list".toList) (hnm : n = m ++ "(".toList ++ o) (hF : GoodP m F) (hG : GoodP o G) (h : TextsGood ts es) :
    GoodP (callText f ts) (.call F [.call G es]) := by
  have := hF.call (.one (hG.call' h (bracket_cases ts)).good (by omega))
  rw [callText_eq hf hn, map_nil_append, hnm]
  simp only [commas, List.append_assoc] at this ⊢
  exact this

/-- Something is done with the result. -/
theorem call_then {f n q : Str} {F : Py} {ts : List Str} {es : List Py} (hf : functionName f = (n, [], some q)) (hn : n ≠ "list".toList)
    (hF : GoodP n F) (h : TextsGood ts es) : ∃ s, HardEnd s ∧ GoodP s (.call F es) ∧ callText f ts = s ++ q := by
  refine ⟨_, ?_, hF.call' h (bracket_cases ts), by rw [callText_eq hf hn, map_nil_append]⟩
  exact hard_paren _

/-- Something is done with the only argument. -/
theorem call_method {f q : Str} {t : Str} {e : Py} {lvl : Nat} (hf : functionName f = ([], [], some q)) (h : Good lvl t e) (h1 : 1 ≤ lvl) :
    ∃ s, HardEnd s ∧ GoodP s e ∧ callText f [t] = s ++ q := by
  refine ⟨"( ".toList ++ commas [t] ++ ")".toList, hard_paren _,
    GoodP.paren (.one h h1) (es := [e]) h.real (.inr rfl), ?_⟩
  rw [callText_eq hf (by decide), map_nil_append, if_neg (by simp), List.nil_append]

theorem flatten_commas (x : Str) : ∀ ts : List Str, (ts.map fun a => a ++ ",".toList).flatten ++ x = commas (ts ++ [x])
  | [] => by simp [commas]
  | t :: r => by
    rw [List.map_cons, List.flatten_cons, List.append_assoc, flatten_commas x r]
    cases r with
    | nil => simp only [commas, List.nil_append, List.cons_append, List.append_assoc]; rfl
    | cons u r => simp only [commas, List.cons_append, List.append_assoc]; rfl

theorem _root_.Verif.PyText.TextsGood.append {ts us : List Str} {es fs : List Py} (h : TextsGood ts es) (h' : TextsGood us fs) :
    TextsGood (ts ++ us) (es ++ fs) := by
  induction h with
  | nil => exact h'
  | cons hg h1 _ ih => exact .cons hg h1 ih

/-- A function of the dictionary. -/
theorem call_other {f : Str} {ts : List Str} {es : List Py} (hf : functionName f = (f, [], none)) (hn : pyName f = true)
    (h : TextsGood ts es) : GoodP (callText f ts) (.call (.name f) (es ++ [.name "ciffile".toList])) := by
  have := (GoodP.name hn).call' (TextsGood.append h (.one (GoodP.name (s := "ciffile".toList) (by decide)).good (by omega)))
    (o := "( ".toList) (.inr rfl)
  unfold callText
  rw [hf]
  dsimp only
  rw [← flatten_commas] at this
  have e : (ts.map fun a => [] ++ a ++ ",".toList) = ts.map fun a => a ++ ",".toList := by
    simp only [List.nil_append]
  rw [e]
  rw [show "ciffile)".toList = "ciffile".toList ++ ")".toList from rfl]
  simp only [List.append_assoc] at this ⊢
  exact this

/-- A list of its arguments. -/
theorem call_list {f : Str} {ts : List Str} {es : List Py} (hf : functionName f = ("list".toList, [], some []))
    (h : TextsGood ts es) :
    GoodP (callText f ts) (.call (.name "list".toList) (if 1 < es.length then [.list es] else es)) := by
  have hl : GoodP "list".toList (.name "list".toList) := GoodP.name (by decide)
  have hlen := h.length
  unfold callText
  rw [hf]
  dsimp only
  by_cases h1 : 1 < ts.length
  · rw [if_pos ⟨rfl, h1⟩, if_pos (by omega), map_nil_append]
    have := hl.call' (.one (GoodP.list h).good (by omega)) (o := "( ".toList) (.inr rfl)
    rw [show "( [".toList = "( ".toList ++ "[".toList from rfl]
    simp only [commas, List.append_assoc, List.append_nil] at this ⊢
    exact this
  · have hes : ¬ 1 < es.length := by omega
    rw [if_neg (fun h => h1 h.2), if_neg hes, map_nil_append]
    have := hl.call' h (bracket_cases ts)
    by_cases h0 : ts = []
    · rw [if_pos h0]
      rw [if_pos h0, h0] at this
      rw [List.append_nil]
      rw [show commas [] = [] from rfl, List.append_nil] at this
      exact this
    · rw [if_neg h0, List.append_nil]
      rw [if_neg h0] at this
      exact this

/-- Functions that are not in the tables. -/
theorem called_other {f : Str} {es : List Py} (hb : dget builtins (lower f) = none) (ho : dget others (lower f) = none) :
    functionName f = (f, [], none) ∧ called f es = some (.call (.name f) (es ++ [.name "ciffile".toList])) := by
  refine ⟨by unfold functionName; rw [hb, ho], ?_⟩
  have hb' := dget_eq_none.1 hb
  have ho' := dget_eq_none.1 ho
  have nb : ∀ k, k ∈ dkeys builtins → lower f ≠ k := fun k hk e => hb' (e ▸ hk)
  have no : ∀ k, k ∈ dkeys others → lower f ≠ k := fun k hk e => ho' (e ▸ hk)
  have h1 : dget renamed (lower f) = none := dget_eq_none.2 fun h =>
    hb' ((by decide : ∀ k ∈ dkeys renamed, k ∈ dkeys builtins) _ h)
  have h2 : dget ofDegrees (lower f) = none := dget_eq_none.2 fun h =>
    ho' ((by decide : ∀ k ∈ dkeys ofDegrees, k ∈ dkeys others) _ h)
  have h3 : dget inDegrees (lower f) = none := dget_eq_none.2 fun h =>
    ho' ((by decide : ∀ k ∈ dkeys inDegrees, k ∈ dkeys others) _ h)
  have h4 : dget methods (lower f) = none := dget_eq_none.2 fun h =>
    ho' ((by decide : ∀ k ∈ dkeys methods, k ∈ dkeys others) _ h)
  unfold called
  rw [if_neg (nb _ (by decide)), if_neg (no _ (by decide)), if_neg (no _ (by decide)), if_neg (no _ (by decide)),
    if_neg (no _ (by decide)), h1, h2, h3, h4]

/-- The built-in functions with other names. -/
theorem builtin_good {k n : Str} (h : dget builtins k = some n) : k = "list".toList ∧ n = "list".toList ∨
    ∃ a r, dget renamed k = some (a, r) ∧ GoodP n (dotted a r) ∧ n ≠ "list".toList ∧ k ≠ "list".toList ∧ k ≠ "mod".toList ∧
      k ≠ "matrix".toList ∧ k ≠ "expimag".toList ∧ k ≠ "sort".toList := by
  have key : ∀ p ∈ builtins, p.1 = "list".toList ∧ p.2 = "list".toList ∨
      ((dget renamed p.1).any fun x => isDotted p.2 x.1 x.2) = true ∧ p.2 ≠ "list".toList ∧ p.1 ≠ "list".toList ∧
        p.1 ≠ "mod".toList ∧ p.1 ≠ "matrix".toList ∧ p.1 ≠ "expimag".toList ∧ p.1 ≠ "sort".toList := by decide +kernel
  rcases key _ (dget_mem h) with h1 | ⟨h1, h2⟩
  · exact .inl h1
  · rw [Option.any_eq_true] at h1
    obtain ⟨⟨a, r⟩, h3, h4⟩ := h1
    exact .inr ⟨a, r, h3, GoodP.dotted h4, h2⟩

/-- One argument. -/
theorem _root_.Verif.PyText.TextsGood.single {ts : List Str} {es : List Py} (h : TextsGood ts es) (h1 : ts.length = 1) :
    ∃ lvl t e, ts = [t] ∧ es = [e] ∧ Good lvl t e ∧ 1 ≤ lvl := by
  cases h with
  | nil => cases h1
  | cons hg hl hr =>
    cases hr with
    | nil => exact ⟨_, _, _, rfl, rfl, hg, hl⟩
    | cons => simp at h1

/-- The angle given in degrees. -/
theorem radians_good {lvl : Nat} {t : Str} {e : Py} (h : Good lvl t e) (h1 : 1 ≤ lvl) :
    Good 11 ("math.radians(".toList ++ t ++ ")".toList) (apply "math".toList ["radians".toList] [e]) := by
  have := (GoodP.dotted (s := "math.radians".toList) (a := "math".toList) (r := ["radians".toList]) (by decide +kernel)).call (.one h h1)
  rw [show "math.radians(".toList = "math.radians".toList ++ "(".toList from rfl]
  exact this.good

/-- The argument times the imaginary unit. -/
theorem imaginary_good {lvl : Nat} {t : Str} {e : Py} (h : Good lvl t e) (h1 : 1 ≤ lvl) :
    Good 8 ("1j*(".toList ++ t ++ ")".toList) (.bin "*".toList (.num "1j".toList) e) := by
  have h2 := (GoodP.num (s := "1j".toList) ⟨1, by decide⟩ ⟨'1', by decide, by decide⟩ ⟨'j', by decide, by decide⟩).good
  have h3 := (GoodP.paren (.one h h1) (es := [e]) h.real (.inl rfl)).good
  have h4 := Good.bin (p := 8) (t := "*".toList) (ot := [.op "*".toList]) (o := "*".toList) h2 h3 (by omega) (by omega) (by omega)
    (by omega) (.inl (by omega)) (.inl (by omega)) (.inl (by omega)) ⟨1, by decide⟩ ⟨'*', by decide, by decide⟩
    (.inr ⟨'*', by decide, by simp⟩) (fun _ => rfl) (fun _ => ⟨by decide, by decide, by decide⟩)
  rw [show "1j*(".toList = "1j".toList ++ "*".toList ++ "(".toList from rfl]
  simp only [commas, List.append_assoc] at h4 ⊢
  exact h4

/-- The other built-in functions. -/
theorem others_good {f : Str} {x : Str × Str × Str} {ts : List Str} {es : List Py} (h : dget others (lower f) = some x)
    (hn : lower f ≠ "sort".toList) (hu : lower f ∈ unary → ts.length = 1) (ht : TextsGood ts es) :
    ∃ p, called f es = some p ∧ GoodP (callText f ts) p := by
  have hm := dget_mem h
  have key : ∀ k, k ∈ dkeys others → k = "sind".toList ∨ k = "cosd".toList ∨ k = "tand".toList ∨ k = "acosd".toList ∨
      k = "asind".toList ∨ k = "atand".toList ∨ k = "atan2d".toList ∨ k = "mod".toList ∨ k = "upper".toList ∨
      k = "transpose".toList ∨ k = "expimag".toList ∨ k = "real".toList ∨ k = "imag".toList ∨ k = "matrix".toList ∨
      k = "sort".toList := by decide +kernel
  have hk := key _ (dget_isSome.1 ⟨_, h⟩)
  have one : lower f ∈ unary → _ := fun h => ht.single (hu h)
  rcases hk with hk | hk | hk | hk | hk | hk | hk | hk | hk | hk | hk | hk | hk | hk | hk
  · obtain ⟨lvl, t, e, rfl, rfl, hg, h1⟩ := one (by rw [hk]; decide)
    exact ⟨_, by unfold called; rw [hk]; rfl, call_inner (n := "math.sin".toList) (by unfold functionName; rw [hk]; rfl) (by decide)
      (GoodP.dotted (a := "math".toList) (r := ["sin".toList]) (by decide +kernel)) (by omega) (radians_good hg h1) rfl⟩
  · obtain ⟨lvl, t, e, rfl, rfl, hg, h1⟩ := one (by rw [hk]; decide)
    exact ⟨_, by unfold called; rw [hk]; rfl, call_inner (n := "math.cos".toList) (by unfold functionName; rw [hk]; rfl) (by decide)
      (GoodP.dotted (a := "math".toList) (r := ["cos".toList]) (by decide +kernel)) (by omega) (radians_good hg h1) rfl⟩
  · obtain ⟨lvl, t, e, rfl, rfl, hg, h1⟩ := one (by rw [hk]; decide)
    exact ⟨_, by unfold called; rw [hk]; rfl, call_inner (n := "math.tan".toList) (by unfold functionName; rw [hk]; rfl) (by decide)
      (GoodP.dotted (a := "math".toList) (r := ["tan".toList]) (by decide +kernel)) (by omega) (radians_good hg h1) rfl⟩
  · exact ⟨_, by unfold called; rw [hk]; rfl, call_outer (n := "math.degrees(math.acos".toList) (by unfold functionName; rw [hk]; rfl)
      (by decide) (m := "math.degrees".toList) (o := "math.acos".toList) rfl
      (GoodP.dotted (a := "math".toList) (r := ["degrees".toList]) (by decide +kernel))
      (GoodP.dotted (a := "math".toList) (r := ["acos".toList]) (by decide +kernel)) ht⟩
  · exact ⟨_, by unfold called; rw [hk]; rfl, call_outer (n := "math.degrees(math.asin".toList) (by unfold functionName; rw [hk]; rfl)
      (by decide) (m := "math.degrees".toList) (o := "math.asin".toList) rfl
      (GoodP.dotted (a := "math".toList) (r := ["degrees".toList]) (by decide +kernel))
      (GoodP.dotted (a := "math".toList) (r := ["asin".toList]) (by decide +kernel)) ht⟩
  · exact ⟨_, by unfold called; rw [hk]; rfl, call_outer (n := "math.degrees(math.atan".toList) (by unfold functionName; rw [hk]; rfl)
      (by decide) (m := "math.degrees".toList) (o := "math.atan".toList) rfl
      (GoodP.dotted (a := "math".toList) (r := ["degrees".toList]) (by decide +kernel))
      (GoodP.dotted (a := "math".toList) (r := ["atan".toList]) (by decide +kernel)) ht⟩
  · exact ⟨_, by unfold called; rw [hk]; rfl, call_outer (n := "math.degrees(math.atan2".toList) (by unfold functionName; rw [hk]; rfl)
      (by decide) (m := "math.degrees".toList) (o := "math.atan2".toList) rfl
      (GoodP.dotted (a := "math".toList) (r := ["degrees".toList]) (by decide +kernel))
      (GoodP.dotted (a := "math".toList) (r := ["atan2".toList]) (by decide +kernel)) ht⟩
  · obtain ⟨s, _, hs, e⟩ := call_then (n := "divmod".toList) (q := "[1]".toList) (by unfold functionName; rw [hk]; rfl) (by decide)
      (GoodP.name (by decide)) ht
    refine ⟨_, by unfold called; rw [hk]; rfl, ?_⟩
    have := hs.index (.one (GoodP.num (s := "1".toList) ⟨1, by decide⟩ ⟨'1', by decide, by decide⟩ ⟨'1', by decide, by decide⟩).good
      (by omega)) (by simp)
    rw [e, show "[1]".toList = "[".toList ++ commas ["1".toList] ++ "]".toList from rfl]
    simp only [← List.append_assoc]
    exact this
  · obtain ⟨lvl, t, e, rfl, rfl, hg, h1⟩ := one (by rw [hk]; decide)
    obtain ⟨s, hh, hs, e⟩ := call_method (f := f) (q := ".upper()".toList) (by unfold functionName; rw [hk]; rfl) hg h1
    refine ⟨_, by unfold called; rw [hk]; rfl, ?_⟩
    have := (hs.attr hh (x := ".upper".toList) (w := "upper".toList) ⟨2, by decide⟩ (by decide) ⟨'r', by decide, by decide⟩).call .nil
    rw [e, show ".upper()".toList = ".upper".toList ++ "(".toList ++ commas [] ++ ")".toList from rfl]
    simp only [← List.append_assoc]
    exact this
  · obtain ⟨lvl, t, e, rfl, rfl, hg, h1⟩ := one (by rw [hk]; decide)
    obtain ⟨s, hh, hs, e⟩ := call_method (f := f) (q := ".T".toList) (by unfold functionName; rw [hk]; rfl) hg h1
    refine ⟨_, by unfold called; rw [hk]; rfl, ?_⟩
    rw [e]
    exact hs.attr hh (x := ".T".toList) (w := "T".toList) ⟨2, by decide⟩ (by decide) ⟨'T', by decide, by decide⟩
  · obtain ⟨lvl, t, e, rfl, rfl, hg, h1⟩ := one (by rw [hk]; decide)
    exact ⟨_, by unfold called; rw [hk]; rfl, call_inner (n := "cmath.exp".toList) (by unfold functionName; rw [hk]; rfl) (by decide)
      (GoodP.dotted (a := "cmath".toList) (r := ["exp".toList]) (by decide +kernel)) (by omega) (imaginary_good hg h1) rfl⟩
  · obtain ⟨lvl, t, e, rfl, rfl, hg, h1⟩ := one (by rw [hk]; decide)
    obtain ⟨s, hh, hs, e⟩ := call_method (f := f) (q := ".real".toList) (by unfold functionName; rw [hk]; rfl) hg h1
    refine ⟨_, by unfold called; rw [hk]; rfl, ?_⟩
    rw [e]
    exact hs.attr hh (x := ".real".toList) (w := "real".toList) ⟨2, by decide⟩ (by decide) ⟨'l', by decide, by decide⟩
  · obtain ⟨lvl, t, e, rfl, rfl, hg, h1⟩ := one (by rw [hk]; decide)
    obtain ⟨s, hh, hs, e⟩ := call_method (f := f) (q := ".imag".toList) (by unfold functionName; rw [hk]; rfl) hg h1
    refine ⟨_, by unfold called; rw [hk]; rfl, ?_⟩
    rw [e]
    exact hs.attr hh (x := ".imag".toList) (w := "imag".toList) ⟨2, by decide⟩ (by decide) ⟨'g', by decide, by decide⟩
  · obtain ⟨s, hh, hs, e⟩ := call_then (n := "numpy.matrix".toList) (q := ".astype('float64')".toList) (by unfold functionName; rw [hk]; rfl)
      (by decide) (GoodP.dotted (a := "numpy".toList) (r := ["matrix".toList]) (by decide +kernel)) ht
    refine ⟨_, by unfold called; rw [hk]; rfl, ?_⟩
    have := (hs.attr hh (x := ".astype".toList) (w := "astype".toList) ⟨2, by decide⟩ (by decide) ⟨'e', by decide, by decide⟩).call
      (.one (GoodP.str (q := '\'') (by decide) (s := "float64".toList) (by decide)).good (by omega))
    rw [e, show ".astype('float64')".toList = ".astype".toList ++ "(".toList ++ commas [quoted '\'' "float64".toList] ++ ")".toList from rfl]
    simp only [← List.append_assoc]
    exact this
  · exact absurd hk hn

/-- The text of a function call is the call meant. -/
theorem call_good {f : Str} {ts : List Str} {es : List Py} (hf : pyName f = true) (hn : lower f ≠ "sort".toList)
    (hu : lower f ∈ unary → ts.length = 1) (ht : TextsGood ts es) : ∃ p, called f es = some p ∧ GoodP (callText f ts) p := by
  cases hb : dget builtins (lower f) with
  | some n =>
    have hfn : functionName f = (n, [], some []) := by unfold functionName; rw [hb]
    rcases builtin_good hb with ⟨hk, rfl⟩ | ⟨a, r, hr, hg, hn', h1, h2, h3, h4, h5⟩
    · exact ⟨_, by unfold called; rw [if_pos hk]; rfl, call_list hfn ht⟩
    · exact ⟨_, by unfold called; rw [if_neg h1, if_neg h2, if_neg h3, if_neg h4, if_neg h5, hr]; rfl, call_plain hfn hn' hg ht⟩
  | none =>
    cases ho : dget others (lower f) with
    | some x => exact others_good ho hn hu ht
    | none => exact ⟨_, (called_other hb ho).2, call_other (called_other (es := es) hb ho).1 hf ht⟩

theorem paren_callText (f : Str) (ts : List Str) : '(' ∈ callText f ts := by
  unfold callText
  generalize functionName f = x
  obtain ⟨n, p, q⟩ := x
  have h1 : '(' ∈ "(".toList := by decide
  have h2 : '(' ∈ "( ".toList := by decide
  have h3 : '(' ∈ "( [".toList := by decide
  cases q with
  | none => simp only [List.mem_append, h2, or_true, true_or]
  | some q =>
    dsimp only
    split
    · simp only [List.mem_append, h3, or_true, true_or]
    · split
      · simp only [List.mem_append, h1, or_true, true_or]
      · simp only [List.mem_append, h2, or_true, true_or]

end DrelMeaning
end Verif
