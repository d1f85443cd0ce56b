import Verif.Lemmas.PyGood
import Verif.Model.DrelPy
import Verif.Spec.DrelFits
import Verif.Lemmas.Dict
/-! # Texts of Python expressions put together -/
namespace Verif
namespace PyText
open DrelPy

/-- First characters of expressions. -/
def startOk (c : Char) : Bool := !(c == '=' || c == '*' || c == ' ')

/-- Last characters of expressions. -/
def stopOk (c : Char) : Bool := !(c == '<' || c == '>' || c == '=' || c == '!' || c == '*')

/-- Last characters after which anything is a new token. -/
def hard (c : Char) : Bool := "()[]{},:&| +-/".toList.contains c

/-- First characters that are a new token after an expression. -/
def safe (c : Char) : Bool := ",)]}:[(<>!=&|* +-".toList.contains c

theorem apart_hard {x y : Char} (h : hard x = true) : apart x y = true := by
  simp only [hard, List.contains_eq_mem, decide_eq_true_eq] at h
  have h : x ∈ ['(', ')', '[', ']', '{', '}', ',', ':', '&', '|', ' ', '+', '-', '/'] := h
  simp only [List.mem_cons, List.not_mem_nil, or_false] at h
  rcases h with rfl | rfl | rfl | rfl | rfl | rfl | rfl | rfl | rfl | rfl | rfl | rfl | rfl | rfl <;> rfl

theorem apart_safe {x y : Char} (hx : stopOk x = true) (hy : safe y = true) : apart x y = true := by
  have h3 : (x == '<' || x == '>' || x == '=' || x == '!' || x == '*') = false := by
    simpa only [stopOk, Bool.not_eq_true'] using hx
  have h1 : (!(nameChar y || y == '.' || isQuote y)) = true ∧ (!isQuote y) = true := by
    simp only [safe, List.contains_eq_mem, decide_eq_true_eq] at hy
    have h : y ∈ [',', ')', ']', '}', ':', '[', '(', '<', '>', '!', '=', '&', '|', '*', ' ', '+', '-'] := hy
    simp only [List.mem_cons, List.not_mem_nil, or_false] at h
    rcases h with rfl | rfl | rfl | rfl | rfl | rfl | rfl | rfl | rfl | rfl | rfl | rfl | rfl | rfl | rfl | rfl | rfl <;>
      exact ⟨by decide, by decide⟩
  unfold apart
  split
  · exact h1.1
  · split
    · exact h1.2
    · rw [h3]; rfl

/-- The text ends so that anything may follow. -/
def HardEnd (s : Str) : Prop := ∃ c, s.getLast? = some c ∧ hard c = true

/-- The text begins so that it may follow an expression. -/
def SafeStart (s : Str) : Prop := ∃ c, s.head? = some c ∧ safe c = true

/-- The text ends like an expression. -/
def StopEnd (s : Str) : Prop := ∃ c, s.getLast? = some c ∧ stopOk c = true

/-- The text begins like an expression. -/
def Start (s : Str) : Prop := ∃ c, s.head? = some c ∧ startOk c = true

theorem Apart.hard {a : Str} (b : Str) (h : HardEnd a) : Apart a b := by
  obtain ⟨c, hc, hh⟩ := h
  intro x y hx _
  rw [hc] at hx; cases hx
  exact apart_hard hh

theorem Apart.safe {a b : Str} (ha : StopEnd a) (hb : SafeStart b) : Apart a b := by
  obtain ⟨c, hc, hh⟩ := ha
  obtain ⟨d, hd, hs⟩ := hb
  intro x y hx hy
  rw [hc] at hx; cases hx
  rw [hd] at hy; cases hy
  exact apart_safe hh hs

theorem getLast_append {a b : Str} {c : Char} (h : b.getLast? = some c) : (a ++ b).getLast? = some c := by
  rw [List.getLast?_append, h]; rfl

theorem head_append {a b : Str} {c : Char} (h : a.head? = some c) : (a ++ b).head? = some c := by
  rw [List.head?_append, h]; rfl

theorem StopEnd.append {a b : Str} (h : StopEnd b) : StopEnd (a ++ b) := by
  obtain ⟨c, hc, hh⟩ := h; exact ⟨c, getLast_append hc, hh⟩

theorem HardEnd.append {a b : Str} (h : HardEnd b) : HardEnd (a ++ b) := by
  obtain ⟨c, hc, hh⟩ := h; exact ⟨c, getLast_append hc, hh⟩

theorem Start.append {a b : Str} (h : Start a) : Start (a ++ b) := by
  obtain ⟨c, hc, hh⟩ := h; exact ⟨c, head_append hc, hh⟩

theorem SafeStart.append {a b : Str} (h : SafeStart a) : SafeStart (a ++ b) := by
  obtain ⟨c, hc, hh⟩ := h; exact ⟨c, head_append hc, hh⟩

/-- The text is an expression of precedence `lvl`, read as `e`. -/
structure Good (lvl : Nat) (s : Str) (e : Py) : Prop where
  start : Start s
  stop : StopEnd s
  real : missing e = false
  toks : ∃ l, Lexes s l ∧ ExprGood lvl l e

/-- The text is a primary, read as `e`. -/
structure GoodP (s : Str) (e : Py) : Prop where
  start : Start s
  stop : StopEnd s
  real : missing e = false
  toks : ∃ l, Lexes s l ∧ PrimGood l e

theorem GoodP.good {s : Str} {e : Py} (h : GoodP s e) : Good 11 s e := by
  obtain ⟨h1, h2, h3, l, hl, hp⟩ := h
  exact ⟨h1, h2, h3, l, hl, hp.expr⟩

/-- A good text is read. -/
theorem Good.reads {lvl : Nat} {s : Str} {e : Py} (h : Good lvl s e) (h1 : 1 ≤ lvl) : Reads s e := by
  obtain ⟨l, ⟨n, hn⟩, hg⟩ := h.toks
  obtain ⟨k, hk⟩ := hg.parse1 h1 (rest := []) trivial rfl
  refine ⟨n + k, l, tokens_mono hn (by omega), ?_⟩
  have := hk (n + k) (by omega)
  simpa using this

/-! ## Lists of texts -/

/-- Texts of expressions. -/
inductive TextsGood : List Str → List Py → Prop where
  | nil : TextsGood [] []
  | cons {lvl s e ss es} : Good lvl s e → 1 ≤ lvl → TextsGood ss es → TextsGood (s :: ss) (e :: es)

theorem TextsGood.ne {ss : List Str} {es : List Py} (h : TextsGood ss es) : ss = [] ↔ es = [] := by
  cases h <;> simp

theorem TextsGood.length {ss : List Str} {es : List Py} (h : TextsGood ss es) : ss.length = es.length := by
  induction h with
  | nil => rfl
  | cons _ _ _ ih => simp [ih]

theorem TextsGood.lex {ss : List Str} {es : List Py} (h : TextsGood ss es) :
    ∃ tl, Lexes (commas ss) (commaToks tl) ∧ ListGood tl es ∧ (ss ≠ [] → Start (commas ss) ∧ StopEnd (commas ss) ∧ tl ≠ []) ∧
      (ss = [] → tl = []) := by
  induction h with
  | nil => exact ⟨[], ⟨0, rfl⟩, .nil, fun h => absurd rfl h, fun _ => rfl⟩
  | @cons lvl s e ss es hg h1 hs ih =>
    obtain ⟨l, hl, hle⟩ := hg.toks
    cases hs with
    | nil => exact ⟨[l], hl, .cons hle h1 .nil, fun _ => ⟨hg.start, hg.stop, by simp⟩, fun h => by cases h⟩
    | @cons lvl' s' e' ss' es' hg' h1' hs' =>
      obtain ⟨tl, htl, hlg, hne, -⟩ := ih
      obtain ⟨hst, hsp, htn⟩ := hne (by simp)
      cases tl with
      | nil => exact absurd rfl htn
      | cons t tl =>
        refine ⟨l :: t :: tl, ?_, .cons hle h1 hlg, fun _ => ⟨hg.start.append, ?_, by simp⟩, fun h => by cases h⟩
        · have h2 : Lexes [','] [.op ",".toList] := ⟨1, by decide⟩
          have h3 := h2.append htl (Apart.hard _ ⟨',', rfl, by decide⟩)
          have h4 := hl.append h3 (Apart.safe hg.stop ⟨',', rfl, by decide⟩)
          exact h4
        · show StopEnd (s ++ ([','] ++ commas (s' :: ss')))
          exact hsp.append.append

/-- Something between two brackets. -/
theorem lex_between {o c m : Str} {to tc tm : List Tok} (ho : Lexes o to) (hc : Lexes c tc) (hm : Lexes m tm) (hho : HardEnd o)
    (hsc : SafeStart c) (hsm : m = [] ∨ StopEnd m) : Lexes (o ++ m ++ c) (to ++ tm ++ tc) := by
  have h1 := ho.append hm (Apart.hard _ hho)
  refine h1.append hc ?_
  rcases hsm with rfl | hs
  · rw [List.append_nil]; exact Apart.hard _ hho
  · exact Apart.safe hs.append hsc

theorem TextsGood.end_ {ss : List Str} {es : List Py} (h : TextsGood ss es) : commas ss = [] ∨ StopEnd (commas ss) := by
  by_cases hs : ss = []
  · subst hs; exact .inl rfl
  · obtain ⟨_, _, _, hne, _⟩ := h.lex
    exact .inr (hne hs).2.1

/-- A call; there may be a blank after the bracket. -/
theorem GoodP.call' {f o : Str} {F : Py} {ss : List Str} {es : List Py} (hf : GoodP f F) (h : TextsGood ss es)
    (ho : o = "(".toList ∨ o = "( ".toList) : GoodP (f ++ o ++ commas ss ++ ")".toList) (.call F es) := by
  obtain ⟨l, hl, hp⟩ := hf.toks
  obtain ⟨tl, htl, hlg, -, -⟩ := h.lex
  refine ⟨hf.start.append.append.append, StopEnd.append ⟨')', by decide, by decide⟩, rfl,
    l ++ .op "(".toList :: (commaToks tl ++ [.op ")".toList]), ?_, hp.call hlg⟩
  have ho1 : Lexes o [.op "(".toList] := by rcases ho with rfl | rfl <;> exact ⟨2, by decide⟩
  have ho2 : HardEnd o := by
    rcases ho with rfl | rfl
    · exact ⟨'(', by decide, by decide⟩
    · exact ⟨' ', by decide, by decide⟩
  have ho3 : SafeStart o := by rcases ho with rfl | rfl <;> exact ⟨'(', by decide, by decide⟩
  have h1 := hl.append ho1 (Apart.safe hf.stop ho3)
  have h2 := lex_between h1 (c := ")".toList) (tc := [.op ")".toList]) ⟨1, by decide⟩ htl ho2.append ⟨')', by decide, by decide⟩ h.end_
  rw [show l ++ Tok.op "(".toList :: (commaToks tl ++ [.op ")".toList]) = l ++ [.op "(".toList] ++ commaToks tl ++ [.op ")".toList] by
    simp only [List.append_assoc, List.cons_append, List.nil_append]]
  exact h2

theorem GoodP.call {f : Str} {F : Py} {ss : List Str} {es : List Py} (hf : GoodP f F) (h : TextsGood ss es) :
    GoodP (f ++ "(".toList ++ commas ss ++ ")".toList) (.call F es) := hf.call' h (.inl rfl)

/-- Brackets around expressions; there may be a blank after the bracket. -/
theorem GoodP.paren {o : Str} {ss : List Str} {es : List Py} (h : TextsGood ss es) (hr : missing (tupled es) = false)
    (ho : o = "(".toList ∨ o = "( ".toList) : GoodP (o ++ commas ss ++ ")".toList) (tupled es) := by
  obtain ⟨tl, htl, hlg, -, -⟩ := h.lex
  have ho1 : Lexes o [.op "(".toList] := by rcases ho with rfl | rfl <;> exact ⟨2, by decide⟩
  have ho2 : HardEnd o := by
    rcases ho with rfl | rfl
    · exact ⟨'(', by decide, by decide⟩
    · exact ⟨' ', by decide, by decide⟩
  have ho3 : Start o := by rcases ho with rfl | rfl <;> exact ⟨'(', by decide, by decide⟩
  refine ⟨ho3.append.append, StopEnd.append ⟨')', by decide, by decide⟩, hr,
    .op "(".toList :: (commaToks tl ++ [.op ")".toList]), ?_, .paren hlg⟩
  exact lex_between ho1 (c := ")".toList) (tc := [.op ")".toList]) ⟨1, by decide⟩ htl ho2 ⟨')', by decide, by decide⟩ h.end_

/-- A list. -/
theorem GoodP.list {ss : List Str} {es : List Py} (h : TextsGood ss es) :
    GoodP ("[".toList ++ commas ss ++ "]".toList) (.list es) := by
  obtain ⟨tl, htl, hlg, -, -⟩ := h.lex
  refine ⟨Start.append (Start.append ⟨'[', by decide, by decide⟩), StopEnd.append ⟨']', by decide, by decide⟩, rfl,
    .op "[".toList :: (commaToks tl ++ [.op "]".toList]), ?_, .list hlg⟩
  exact lex_between (o := "[".toList) (to := [.op "[".toList]) ⟨1, by decide⟩ (c := "]".toList) (tc := [.op "]".toList])
    ⟨1, by decide⟩ htl ⟨'[', by decide, by decide⟩ ⟨']', by decide, by decide⟩ h.end_

/-- A text of something other than a list: one expression. -/
theorem TextsGood.one {lvl : Nat} {s : Str} {e : Py} (h : Good lvl s e) (h1 : 1 ≤ lvl) : TextsGood [s] [e] := .cons h h1 .nil

theorem TextsGood.two {l1 l2 : Nat} {s t : Str} {e f : Py} (h : Good l1 s e) (h1 : 1 ≤ l1) (h' : Good l2 t f) (h2 : 1 ≤ l2) :
    TextsGood [s, t] [e, f] := .cons h h1 (.one h' h2)

/-- Subscripts by expressions. -/
theorem GoodP.index {f : Str} {F : Py} {ss : List Str} {es : List Py} (hf : GoodP f F) (h : TextsGood ss es) (hne : ss ≠ []) :
    GoodP (f ++ "[".toList ++ commas ss ++ "]".toList) (.index F (tupled es)) := by
  obtain ⟨l, hl, hp⟩ := hf.toks
  have key : ∀ {ss es}, TextsGood ss es → ∃ tl, Lexes (commas ss) (commaToks tl) ∧ SubsGood tl es ∧ (ss ≠ [] → tl ≠ []) ∧
      (ss = [] → tl = []) := by
    intro ss es h
    induction h with
    | nil => exact ⟨[], ⟨0, rfl⟩, .nil, fun h => absurd rfl h, fun _ => rfl⟩
    | @cons lvl s e ss es hg h1 hs ih =>
      obtain ⟨l, hl, hle⟩ := hg.toks
      cases hs with
      | nil => exact ⟨[l], hl, .cons (.expr hle h1 hg.real) .nil, by simp, fun h => by cases h⟩
      | @cons lvl' s' e' ss' es' hg' h1' hs' =>
        obtain ⟨tl, htl, hlg, htn, -⟩ := ih
        cases tl with
        | nil => exact absurd rfl (htn (by simp))
        | cons t tl =>
          refine ⟨l :: t :: tl, ?_, .cons (.expr hle h1 hg.real) hlg, by simp, fun h => by cases h⟩
          have h2 : Lexes [','] [.op ",".toList] := ⟨1, by decide⟩
          have h3 := h2.append htl (Apart.hard _ ⟨',', rfl, by decide⟩)
          exact hl.append h3 (Apart.safe hg.stop ⟨',', rfl, by decide⟩)
  obtain ⟨tl, htl, hsg, htn, -⟩ := key h
  refine ⟨hf.start.append.append.append, StopEnd.append ⟨']', by decide, by decide⟩, rfl,
    l ++ .op "[".toList :: (commaToks tl ++ [.op "]".toList]), ?_, hp.index hsg (htn hne)⟩
  have h1 := hl.append (b := "[".toList) (tb := [.op "[".toList]) ⟨1, by decide⟩ (Apart.safe hf.stop ⟨'[', by decide, by decide⟩)
  have h2 := lex_between h1 (c := "]".toList) (tc := [.op "]".toList]) ⟨1, by decide⟩ htl
    (HardEnd.append ⟨'[', by decide, by decide⟩) ⟨']', by decide, by decide⟩ h.end_
  rw [show l ++ Tok.op "[".toList :: (commaToks tl ++ [.op "]".toList]) = l ++ [.op "[".toList] ++ commaToks tl ++ [.op "]".toList] by
    simp only [List.append_assoc, List.cons_append, List.nil_append]]
  exact h2

/-- A slice. -/
theorem GoodP.slice {f u : Str} {F i : Py} {t : List Tok} (hf : GoodP f F) (hl : Lexes u t) (hu : StopEnd u) (hs : SubGood t i) :
    GoodP (f ++ "[".toList ++ u ++ "]".toList) (.index F i) := by
  obtain ⟨l, hlf, hp⟩ := hf.toks
  refine ⟨hf.start.append.append.append, StopEnd.append ⟨']', by decide, by decide⟩, rfl,
    l ++ .op "[".toList :: (commaToks [t] ++ [.op "]".toList]), ?_, hp.index (.cons hs .nil) (by simp)⟩
  have h1 := hlf.append (b := "[".toList) (tb := [.op "[".toList]) ⟨1, by decide⟩ (Apart.safe hf.stop ⟨'[', by decide, by decide⟩)
  have h2 := lex_between h1 (c := "]".toList) (tc := [.op "]".toList]) ⟨1, by decide⟩ hl
    (HardEnd.append ⟨'[', by decide, by decide⟩) ⟨']', by decide, by decide⟩ (.inr hu)
  rw [show l ++ Tok.op "[".toList :: (commaToks [t] ++ [.op "]".toList]) = l ++ [.op "[".toList] ++ t ++ [.op "]".toList] by
    simp only [commaToks, List.append_assoc, List.cons_append, List.nil_append]]
  exact h2

/-- `s:` -/
theorem lex_from {l : Nat} {s : Str} {e : Py} (h : Good l s e) (h1 : 1 ≤ l) :
    ∃ t, Lexes (s ++ ":".toList) t ∧ StopEnd (s ++ ":".toList) ∧ SubGood t (.slice e .none .none) := by
  obtain ⟨t, ht, hg⟩ := h.toks
  exact ⟨_, ht.append (b := ":".toList) (tb := [.op ":".toList]) ⟨1, by decide⟩ (Apart.safe h.stop ⟨':', by decide, by decide⟩),
    StopEnd.append ⟨':', by decide, by decide⟩, .from hg h1⟩

theorem lex_colon {l : Nat} {s u : Str} {e : Py} {t t' : List Tok} (h : Good l s e) (ht : Lexes s t) 
    (ht' : Lexes u t') : Lexes (s ++ ":".toList ++ u) (t ++ .op ":".toList :: t') := by
  have h1 := ht.append (b := ":".toList) (tb := [.op ":".toList]) ⟨1, by decide⟩ (Apart.safe h.stop ⟨':', by decide, by decide⟩)
  have h2 := h1.append ht' (Apart.hard _ (HardEnd.append ⟨':', by decide, by decide⟩))
  rw [show t ++ Tok.op ":".toList :: t' = t ++ [Tok.op ":".toList] ++ t' by
    simp only [List.append_assoc, List.cons_append, List.nil_append]]
  exact h2

/-- `s:f` -/
theorem lex_fromTo {l m : Nat} {s u : Str} {e f : Py} (h : Good l s e) (h1 : 1 ≤ l) (h' : Good m u f) (h2 : 1 ≤ m) :
    ∃ t, Lexes (s ++ ":".toList ++ u) t ∧ StopEnd (s ++ ":".toList ++ u) ∧ SubGood t (.slice e f .none) := by
  obtain ⟨t, ht, hg⟩ := h.toks
  obtain ⟨t', ht', hg'⟩ := h'.toks
  exact ⟨_, lex_colon h ht ht', h'.stop.append, .fromTo hg h1 hg' h2⟩

/-- `s:f:t` -/
theorem lex_stepped {l m k : Nat} {s u w : Str} {e f g : Py} (h : Good l s e) (h1 : 1 ≤ l) (h' : Good m u f) (h2 : 1 ≤ m)
    (h'' : Good k w g) (h3 : 1 ≤ k) :
    ∃ t, Lexes (s ++ ":".toList ++ u ++ ":".toList ++ w) t ∧ StopEnd (s ++ ":".toList ++ u ++ ":".toList ++ w) ∧
      SubGood t (.slice e f g) := by
  obtain ⟨t, ht, hg⟩ := h.toks
  obtain ⟨t', ht', hg'⟩ := h'.toks
  obtain ⟨t'', ht'', hg''⟩ := h''.toks
  refine ⟨_, ?_, h''.stop.append, .stepped hg h1 hg' h2 hg'' h3⟩
  have a1 := lex_colon h ht ht'
  have a2 := a1.append (b := ":".toList) (tb := [.op ":".toList]) ⟨1, by decide⟩
    (Apart.safe h'.stop.append ⟨':', by decide, by decide⟩)
  have a3 := a2.append ht'' (Apart.hard _ (HardEnd.append ⟨':', by decide, by decide⟩))
  simp only [List.append_assoc, List.cons_append, List.nil_append] at a3 ⊢
  exact a3

/-! ## Dictionaries -/

/-- Texts of entries. -/
inductive EntriesGood : List Str → List Str → List Py → List Py → Prop where
  | nil : EntriesGood [] [] [] []
  | cons {lk lv s t k v ss ts ks vs} : Good lk s k → 1 ≤ lk → Good lv t v → 1 ≤ lv → EntriesGood ss ts ks vs →
      EntriesGood (s :: ss) (t :: ts) (k :: ks) (v :: vs)

theorem EntriesGood.lex {ss ts : List Str} {ks vs : List Py} (h : EntriesGood ss ts ks vs) :
    ∃ tl, Lexes (commas (entries ss ts)) (commaToks tl) ∧ PairsGood tl ks vs ∧ (ss ≠ [] → StopEnd (commas (entries ss ts)) ∧ tl ≠ []) ∧
      (ss = [] → tl = [] ∧ entries ss ts = []) := by
  induction h with
  | nil => exact ⟨[], ⟨0, rfl⟩, .nil, fun h => absurd rfl h, fun _ => ⟨rfl, rfl⟩⟩
  | @cons lk lv s t k v ss ts ks vs hk h1 hv h2 hs ih =>
    obtain ⟨lt, hlt, hlk⟩ := hk.toks
    obtain ⟨lu, hlu, hlv⟩ := hv.toks
    have hc := lex_colon hk hlt hlu
    have hst : StopEnd (s ++ ":".toList ++ t) := hv.stop.append
    cases hs with
    | nil => exact ⟨[_], hc, .cons hlk h1 hlv h2 .nil, fun _ => ⟨hst, by simp⟩, fun h => by cases h⟩
    | @cons lk' lv' s' t' k' v' ss' ts' ks' vs' hk' h1' hv' h2' hs' =>
      obtain ⟨tl, htl, hlg, hne, -⟩ := ih
      obtain ⟨hsp, htn⟩ := hne (by simp)
      cases tl with
      | nil => exact absurd rfl htn
      | cons x tl =>
        refine ⟨_ :: x :: tl, ?_, .cons hlk h1 hlv h2 hlg, fun _ => ⟨?_, by simp⟩, fun h => by cases h⟩
        · have h2 : Lexes [','] [.op ",".toList] := ⟨1, by decide⟩
          have h3 := h2.append htl (Apart.hard _ ⟨',', rfl, by decide⟩)
          exact hc.append h3 (Apart.safe hst ⟨',', rfl, by decide⟩)
        · show StopEnd ((s ++ ":".toList ++ t) ++ ([','] ++ commas (entries (s' :: ss') (t' :: ts'))))
          exact hsp.append.append

/-- A dictionary. -/
theorem GoodP.dict {ss ts : List Str} {ks vs : List Py} (h : EntriesGood ss ts ks vs) :
    GoodP ("{".toList ++ commas (entries ss ts) ++ "}".toList) (.dict ks vs) := by
  obtain ⟨tl, htl, hlg, hne, hnil⟩ := h.lex
  refine ⟨Start.append (Start.append ⟨'{', by decide, by decide⟩), StopEnd.append ⟨'}', by decide, by decide⟩, rfl,
    .op "{".toList :: (commaToks tl ++ [.op "}".toList]), ?_, .dict hlg⟩
  refine lex_between (o := "{".toList) (to := [.op "{".toList]) ⟨1, by decide⟩ (c := "}".toList) (tc := [.op "}".toList])
    ⟨1, by decide⟩ htl ⟨'{', by decide, by decide⟩ ⟨'}', by decide, by decide⟩ ?_
  by_cases hs : ss = []
  · left; rw [(hnil hs).2]; rfl
  · exact .inr (hne hs).1

/-! ## Operators -/

/-- A binary operator other than `**`. -/
theorem Good.bin {p la lb : Nat} {a b t : Str} {ot : List Tok} {o : Str} {A B : Py}
    (ha : Good la a A) (hb : Good lb b B) (hla : p ≤ la) (hlb : p < lb)
    (hp : p ≠ 10) (hp4 : la = 4 → p < 4) (hpa : la ≠ 10 ∨ p < 9) (hpb : lb ≠ 4 ∨ p < 4) (hq : lb ≠ 10 ∨ p < 9)
    (hot : Lexes t ot) (hst : SafeStart t) (hend : HardEnd t ∨ ∃ c, t.getLast? = some c ∧ (c = '<' ∨ c = '>' ∨ c = '=' ∨ c = '*'))
    (hto : ∀ r, infix_ (ot ++ r) = some (o, p, r)) (hnt : ∀ r, noTrailer (ot ++ r)) :
    Good p (a ++ t ++ b) (.bin o A B) := by
  obtain ⟨ta, hta, hga⟩ := ha.toks
  obtain ⟨tb, htb, hgb⟩ := hb.toks
  refine ⟨ha.start.append.append, hb.stop.append, rfl, ta ++ ot ++ tb, ?_,
    ExprGood.bin hga hgb hla hlb hp hp4 hpa hpb hq hto hnt⟩
  have h1 := hta.append hot (Apart.safe ha.stop hst)
  refine h1.append htb ?_
  rcases hend with h | ⟨c, hc, hcc⟩
  · exact Apart.hard _ h.append
  · obtain ⟨d, hd, hs⟩ := hb.start
    intro x y hx hy
    rw [getLast_append hc] at hx; cases hx
    rw [hd] at hy; cases hy
    simp only [startOk, Bool.not_eq_true'] at hs
    have hs := (Bool.or_eq_false_iff.1 hs).1
    rcases hcc with rfl | rfl | rfl | rfl <;> (unfold apart; rw [hs]; rfl)

/-- The power operator. -/
theorem Good.pow {lb : Nat} {a b : Str} {A B : Py} (ha : Good 11 a A) (hb : Good lb b B) (hlb : 10 ≤ lb) :
    Good 10 (a ++ "**".toList ++ b) (.bin "**".toList A B) := by
  obtain ⟨ta, hta, hga⟩ := ha.toks
  obtain ⟨tb, htb, hgb⟩ := hb.toks
  refine ⟨ha.start.append.append, hb.stop.append, rfl, ta ++ [.op "**".toList] ++ tb, ?_, ExprGood.pow hga hgb hlb⟩
  have h1 := hta.append (b := "**".toList) (tb := [.op "**".toList]) ⟨1, by decide⟩ (Apart.safe ha.stop ⟨'*', by decide, by decide⟩)
  refine h1.append htb ?_
  obtain ⟨d, hd, hs⟩ := hb.start
  intro x y hx hy
  rw [getLast_append (c := '*') (by decide)] at hx; cases hx
  rw [hd] at hy; cases hy
  simp only [startOk, Bool.not_eq_true'] at hs
  have hs := (Bool.or_eq_false_iff.1 hs).1
  unfold apart; rw [hs]; rfl

/-- `not` -/
theorem Good.not {la : Nat} {a : Str} {A : Py} (ha : Good la a A) (hla : 3 ≤ la) :
    Good 3 ("not ".toList ++ a) (.un "not".toList A) := by
  obtain ⟨ta, hta, hga⟩ := ha.toks
  refine ⟨Start.append ⟨'n', by decide, by decide⟩, ha.stop.append, rfl, .word "not".toList :: ta, ?_, hga.not hla⟩
  exact Lexes.append (a := "not ".toList) (ta := [.word "not".toList]) ⟨3, by decide⟩ hta
    (Apart.hard _ ⟨' ', by decide, by decide⟩)

/-- A signed number one. -/
theorem good_sign {o : Str} (ho : o = "-".toList ∨ o = "+".toList) : Good 9 (o ++ "1".toList) (.un o (.num "1".toList)) := by
  refine ⟨?_, StopEnd.append ⟨'1', by decide, by decide⟩, rfl, [.op o, .num "1".toList], ?_, ?_⟩
  · rcases ho with rfl | rfl
    · exact ⟨'-', by decide, by decide⟩
    · exact ⟨'+', by decide, by decide⟩
  · rcases ho with rfl | rfl <;> exact ⟨2, by decide⟩
  · exact ExprGood.sign ho (PrimGood.num _).expr (by omega)

/-! ## Atoms -/

theorem nameStart_char {c : Char} (h : nameStart c = true) : nameChar c = true := by
  simp only [nameStart, Bool.or_eq_true] at h
  simp only [nameChar, Bool.or_eq_true, Char.isAlphanum]
  rcases h with h | h
  · exact .inl (.inl h)
  · exact .inr h

theorem nameChar_stop {c : Char} (h : nameChar c = true) : stopOk c = true ∧ startOk c = true := by
  constructor
  · simp only [stopOk, Bool.not_eq_true', Bool.or_eq_false_iff, beq_eq_false_iff_ne]
    refine ⟨⟨⟨⟨?_, ?_⟩, ?_⟩, ?_⟩, ?_⟩ <;> (rintro rfl; revert h; decide)
  · simp only [startOk, Bool.not_eq_true', Bool.or_eq_false_iff, beq_eq_false_iff_ne]
    refine ⟨⟨?_, ?_⟩, ?_⟩ <;> (rintro rfl; revert h; decide)

theorem nameStart_not {c : Char} (h : nameStart c = true) : c ≠ ' ' ∧ isQuote c = false := by
  refine ⟨by rintro rfl; revert h; decide, ?_⟩
  simp only [isQuote, Bool.or_eq_false_iff, beq_eq_false_iff_ne]
  refine ⟨?_, ?_⟩ <;> (rintro rfl; revert h; decide)

theorem lex_word {c : Char} {r : Str} (hc : nameStart c = true) (hr : r.all nameChar = true) :
    Lexes (c :: r) [.word (c :: r)] := by
  refine ⟨1, ?_⟩
  have hn := nameStart_not hc
  rw [tokens, if_neg hn.1]
  have htw : r.takeWhile nameChar = r ∧ r.dropWhile nameChar = [] := by
    have : ∀ (r : Str), r.all nameChar = true → r.takeWhile nameChar = r ∧ r.dropWhile nameChar = [] := by
      intro r
      induction r with
      | nil => intro _; exact ⟨rfl, rfl⟩
      | cons d r ih =>
        intro h
        simp only [List.all_cons, Bool.and_eq_true] at h
        simp [List.takeWhile, List.dropWhile, h.1, ih h.2]
    exact this r hr
  have : next c r = some (.word (c :: r), []) := by
    unfold next
    rw [if_neg (by rw [hn.2]; simp), if_pos hc]
    cases r with
    | nil => rfl
    | cons q r =>
      have hq : isQuote q = false := by
        simp only [List.all_cons, Bool.and_eq_true] at hr
        simp only [isQuote, Bool.or_eq_false_iff, beq_eq_false_iff_ne]
        have h := hr.1
        refine ⟨?_, ?_⟩ <;> (rintro rfl; revert h; decide)
      dsimp only
      rw [hq, Bool.and_false]
      rw [if_neg (by simp), htw.1, htw.2]
  rw [this]
  rfl

theorem last_all {p : Char → Bool} {s : Str} {x : Char} (h : s.all p = true) (hx : s.getLast? = some x) : p x = true :=
  List.all_eq_true.1 h x (List.mem_of_getLast? hx)

theorem pyName_parts {s : Str} (h : pyName s = true) : ∃ c r, s = c :: r ∧ nameStart c = true ∧ s.all nameChar = true ∧ s ∉ keywords := by
  cases s with
  | nil => cases h
  | cons c r =>
    simp only [pyName, Bool.and_eq_true, Bool.not_eq_true', List.contains_eq_mem, decide_eq_false_iff_not] at h
    exact ⟨c, r, rfl, h.1.1, by simp [nameStart_char h.1.1, h.1.2], h.2⟩

theorem GoodP.name {s : Str} (h : pyName s = true) : GoodP s (.name s) := by
  obtain ⟨c, r, rfl, hc, hall, hk⟩ := pyName_parts h
  refine ⟨⟨c, rfl, (nameChar_stop (nameStart_char hc)).2⟩, ?_, rfl, [.word (c :: r)], ?_, .name hk⟩
  · cases hl : (c :: r).getLast? with
    | none => simp at hl
    | some x => exact ⟨x, hl, (nameChar_stop (last_all hall hl)).1⟩
  · simp only [List.all_cons, Bool.and_eq_true] at hall
    exact lex_word hc hall.2

theorem shortString_plain {q : Char} : ∀ {s : Str}, (s.all fun d => d != q && d != '\\' && d != '\n') = true →
    ∀ rest, shortString q (s ++ q :: rest) = some (s, rest)
  | [], _, rest => by simp [shortString]
  | c :: s, h, rest => by
    simp only [List.all_cons, Bool.and_eq_true, bne_iff_ne, ne_eq] at h
    rw [List.cons_append, shortString, if_neg h.1.1.1, if_neg (by rintro (h' | h'); exact h.1.2 h'; exact h.1.1.2 h'),
      shortString_plain (by simpa using h.2)]
    rfl

theorem string_plain {q : Char} {s : Str} (h : (s.all fun d => d != q && d != '\\' && d != '\n') = true) :
    string q (s ++ [q]) = some (.str s, []) := by
  unfold string
  rw [if_neg, shortString_plain h]
  · rfl
  · intro ht
    cases s with
    | nil => cases ht
    | cons c s =>
      simp only [List.all_cons, Bool.and_eq_true, bne_iff_ne, ne_eq] at h
      cases s with
      | nil =>
        simp only [List.cons_append, List.nil_append, List.take, List.cons.injEq] at ht
        exact h.1.1.1 ht.1
      | cons d s =>
        simp only [List.cons_append, List.take, List.cons.injEq] at ht
        exact h.1.1.1 ht.1

theorem quote_not {q : Char} (hq : isQuote q = true) : q ≠ ' ' ∧ stopOk q = true ∧ startOk q = true := by
  simp only [isQuote, Bool.or_eq_true, beq_iff_eq] at hq
  rcases hq with rfl | rfl <;> decide

/-- A string. -/
theorem GoodP.str {q : Char} (hq : isQuote q = true) {s : Str} (h : (s.all fun d => d != q && d != '\\' && d != '\n') = true) :
    GoodP (quoted q s) (.str s) := by
  obtain ⟨hb, hstop, hstart⟩ := quote_not hq
  refine ⟨⟨q, rfl, hstart⟩, ⟨q, ?_, hstop⟩, rfl, [.str s], ⟨1, ?_⟩, .str s⟩
  · show (([q] ++ s) ++ [q]).getLast? = _
    exact getLast_append rfl
  · rw [quoted, tokens, if_neg hb]
    have : next q (s ++ [q]) = some (.str s, []) := by
      unfold next
      rw [if_pos hq, string_plain h]
    rw [this]
    rfl

/-- A string with a letter before it. -/
theorem GoodP.prefixed {c q : Char} (hc : isPrefix c = true) (hq : isQuote q = true) {s : Str}
    (h : (s.all fun d => d != q && d != '\\' && d != '\n') = true) : GoodP (c :: quoted q s) (.str s) := by
  obtain ⟨hb, hstop, hstart⟩ := quote_not hq
  have hcs : nameStart c = true ∧ c ≠ ' ' ∧ isQuote c = false ∧ startOk c = true := by
    simp only [isPrefix, Bool.or_eq_true, beq_iff_eq] at hc
    rcases hc with ((rfl | rfl) | rfl) | rfl <;> decide
  refine ⟨⟨c, rfl, hcs.2.2.2⟩, ⟨q, ?_, hstop⟩, rfl, [.str s], ⟨1, ?_⟩, .str s⟩
  · show (([c, q] ++ s) ++ [q]).getLast? = _
    exact getLast_append rfl
  · rw [quoted, tokens, if_neg hcs.2.1]
    have : next c (q :: (s ++ [q])) = some (.str s, []) := by
      unfold next
      rw [if_neg (by rw [hcs.2.2.1]; simp), if_pos hcs.1]
      dsimp only
      rw [hc, hq, if_pos (by rfl), string_plain h]
    rw [this]
    rfl

end PyText
end Verif
