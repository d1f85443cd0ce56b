import Verif.Spec.Transform
import Verif.Props.DrelLex
namespace Verif
namespace Drel
open LR
set_option linter.unusedSectionVars false

/-! ## Counting parentheses -/

/-- One for an opening parenthesis. -/
def opn (k : Nat) : Nat := if k = K.openParen then 1 else 0
/-- One for a closing parenthesis. -/
def cls (k : Nat) : Nat := if k = K.closeParen then 1 else 0

/-- The number of opening parentheses. -/
def opens : List (Tok Val) → Nat
  | [] => 0
  | t :: r => opn t.1 + opens r
/-- The number of closing parentheses. -/
def closes : List (Tok Val) → Nat
  | [] => 0
  | t :: r => cls t.1 + closes r

theorem opens_append (a b : List (Tok Val)) : opens (a ++ b) = opens a + opens b := by
  induction a with
  | nil => simp [opens]
  | cons t r ih => simp only [List.cons_append, opens, ih]; omega

theorem closes_append (a b : List (Tok Val)) : closes (a ++ b) = closes a + closes b := by
  induction a with
  | nil => simp [closes]
  | cons t r ih => simp only [List.cons_append, closes, ih]; omega

/-- Parentheses on the right hand side of a production. -/
def symOpens : List Sym → Nat
  | [] => 0
  | .t k :: r => opn k + symOpens r
  | .n _ :: r => symOpens r
/-- Parentheses on the right hand side of a production. -/
def symCloses : List Sym → Nat
  | [] => 0
  | .t k :: r => cls k + symCloses r
  | .n _ :: r => symCloses r

theorem grammar_balanced : ∀ r ∈ grammar, symOpens r.rhs = symCloses r.rhs := by
  have : (grammar.map fun r => decide (symOpens r.rhs = symCloses r.rhs)).all id = true := by decide +kernel
  intro r hr
  rw [List.all_map, List.all_eq_true] at this
  simpa using this r hr

theorem derives_balanced {xs : List Sym} {w : List (Tok Val)} {vs : List Val} (h : Derives grammar xs w vs) :
    opens w + symCloses xs = closes w + symOpens xs := by
  induction h with
  | nil => rfl
  | tok k v _ ih => simp only [opens, closes, symOpens, symCloses]; omega
  | rule hm _ _ ih₁ ih₂ =>
    have := grammar_balanced _ hm
    rw [opens_append, closes_append]
    simp only [symOpens, symCloses]
    omega

/-! ## The lexer -/

/-- What a rule may do. -/
def Todo.fine : Lex.Todo → Bool
  | .give k => k != 0 && k != K.openParen && k != K.closeParen
  | .number k _ => k != 0 && k != K.openParen && k != K.closeParen
  | _ => true

theorem initial_fine : ∀ x ∈ Lex.initial, Todo.fine x.2 = true ∧ x.2 ≠ .closes := by
  intro x hx
  have : (Lex.initial.map fun x => Todo.fine x.2 && decide (x.2 ≠ .closes)).all id = true := by decide +kernel
  rw [List.all_map, List.all_eq_true] at this
  simpa using this x hx

theorem pick_mem {s : Str} : ∀ {l : List (Rx × Lex.Todo)} {a : Lex.Todo} {k : Nat}, Lex.pick s l = some (a, k) → ∃ r, (r, a) ∈ l
  | [], _, _, h => by cases h
  | (r, b) :: rest, a, k, h => by
    rw [Lex.pick] at h
    split at h
    · cases h; exact ⟨r, by simp⟩
    · obtain ⟨q, hq⟩ := pick_mem h
      exact ⟨q, by simp [hq]⟩

theorem pick_fine {d : Nat} {s : Str} {a : Lex.Todo} {k : Nat} (h : Lex.pick s (Lex.rules d) = some (a, k)) :
    Todo.fine a = true ∧ (a = .closes → 0 < d) := by
  obtain ⟨r, hr⟩ := pick_mem h
  cases d with
  | zero => exact ⟨(initial_fine _ hr).1, fun e => absurd e (initial_fine _ hr).2⟩
  | succ d =>
    refine ⟨?_, fun _ => Nat.succ_pos _⟩
    rcases List.mem_cons.1 hr with h | h
    · cases h; rfl
    · rcases List.mem_cons.1 h with h | h
      · cases h; rfl
      · exact (initial_fine _ h).1

theorem dget_all {α β : Type} [DecidableEq α] {p : β → Bool} : ∀ {l : Dict α β} {k : α} {v : β}, (l.all fun x => p x.2) = true → dget l k = some v → p v = true
  | [], _, _, _, h => by cases h
  | (a, b) :: r, k, v, hl, h => by
    rw [List.all_cons, Bool.and_eq_true] at hl
    rw [dget] at h
    split at h
    · cases h; exact hl.1
    · exact dget_all hl.2 h

/-- A kind that is no parenthesis and not the end. -/
def plainKind (k : Nat) : Bool := k != 0 && k != K.openParen && k != K.closeParen

theorem plainKind_counts {k : Nat} (h : plainKind k = true) : k ≠ 0 ∧ opn k = 0 ∧ cls k = 0 := by
  simp only [plainKind, Bool.and_eq_true, bne_iff_ne] at h
  exact ⟨h.1.1, if_neg h.1.2, if_neg h.2⟩

theorem round_counts {d : Nat} {s : Str} :
    (∀ d' r, Lex.round d s = .skip d' r → d' = d) ∧
    (∀ t d' r, Lex.round d s = .tok t d' r → t.1 ≠ 0 ∧ d' + cls t.1 = d + opn t.1) := by
  cases s with
  | nil => exact ⟨fun _ _ h => (nomatch h), fun _ _ _ h => (nomatch h)⟩
  | cons c u =>
    simp only [Lex.round]
    by_cases hi : Lex.ignored d c = true
    · rw [if_pos hi]
      exact ⟨fun d' r h => by cases h; rfl, fun _ _ _ h => (nomatch h)⟩
    · rw [if_neg hi]
      cases hp : Lex.pick (c :: u) (Lex.rules d) with
      | none =>
        simp only [Lex.single]
        cases hl : dget Lex.literals c with
        | none => exact ⟨fun _ _ h => (nomatch h), fun _ _ _ h => (nomatch h)⟩
        | some n =>
          refine ⟨fun _ _ h => (nomatch h), fun t d' r h => ?_⟩
          cases h
          obtain ⟨h0, h1, h2⟩ := plainKind_counts (dget_all (p := plainKind) (by decide +kernel) hl)
          exact ⟨h0, by simp only [h1, h2]⟩
      | some x =>
        obtain ⟨a, k⟩ := x
        obtain ⟨hf, hcl⟩ := pick_fine hp
        cases a with
        | give n =>
          refine ⟨fun _ _ h => (nomatch h), fun t d' r h => ?_⟩
          simp only [Lex.act] at h
          cases h
          obtain ⟨h0, h1, h2⟩ := plainKind_counts (k := n) hf
          exact ⟨h0, by simp only [h1, h2]⟩
        | number n b =>
          refine ⟨fun _ _ h => (nomatch h), fun t d' r h => ?_⟩
          simp only [Lex.act] at h
          cases h
          obtain ⟨h0, h1, h2⟩ := plainKind_counts (k := n) hf
          exact ⟨h0, by simp only [h1, h2]⟩
        | opens =>
          refine ⟨fun _ _ h => (nomatch h), fun t d' r h => ?_⟩
          simp only [Lex.act] at h
          cases h
          have e1 : opn K.openParen = 1 := by decide
          have e2 : cls K.openParen = 0 := by decide
          exact ⟨show K.openParen ≠ 0 by decide, by simp only [e1, e2]⟩
        | closes =>
          refine ⟨fun _ _ h => (nomatch h), fun t d' r h => ?_⟩
          simp only [Lex.act] at h
          cases h
          have := hcl rfl
          have e1 : opn K.closeParen = 0 := by decide
          have e2 : cls K.closeParen = 1 := by decide
          exact ⟨show K.closeParen ≠ 0 by decide, by simp only [e1, e2]; omega⟩
        | word =>
          refine ⟨fun _ _ h => (nomatch h), fun t d' r h => ?_⟩
          simp only [Lex.act] at h
          cases h
          have : plainKind ((dget Lex.reserved ((c :: u).take k)).getD K.id) = true := by
            cases hw : dget Lex.reserved ((c :: u).take k) with
            | none => decide
            | some n => exact dget_all (p := plainKind) (by decide +kernel) hw
          obtain ⟨h0, h1, h2⟩ := plainKind_counts this
          exact ⟨h0, by simp only [h1, h2]⟩
        | skip =>
          refine ⟨fun d' r h => ?_, fun _ _ _ h => (nomatch h)⟩
          simp only [Lex.act] at h
          cases h
          rfl

theorem lexed_facts : ∀ (n d : Nat) (s : Str),
    (Lex.tokens n d s = if (lexed n d s).2.2 then some ((lexed n d s).1.map (·.1)) else none) ∧
    (∀ t ∈ (lexed n d s).1, t.1.1 ≠ 0) ∧
    (lexed n d s).2.1 + closes ((lexed n d s).1.map (·.1)) = d + opens ((lexed n d s).1.map (·.1))
  | 0, d, s => ⟨rfl, by simp [lexed], rfl⟩
  | n + 1, d, s => by
    rw [Lex.tokens, lexed]
    cases hr : Lex.round d s with
    | stop => exact ⟨rfl, by simp, rfl⟩
    | error => exact ⟨rfl, by simp, rfl⟩
    | skip d' r =>
      have := round_counts.1 d' r hr
      rw [this]
      exact lexed_facts n d r
    | tok t d' r =>
      obtain ⟨h1, h2, h3⟩ := lexed_facts n d' r
      obtain ⟨h0, h4⟩ := round_counts.2 t d' r hr
      simp only [h1]
      generalize lexed n d' r = x at h2 h3 ⊢
      obtain ⟨ts, e, b⟩ := x
      simp only at h2 h3 ⊢
      refine ⟨?_, ?_, ?_⟩
      · cases b <;> simp
      · intro x hx
        rcases List.mem_cons.1 hx with e | e
        · rw [e]; exact h0
        · exact h2 x e
      · simp only [List.map_cons, opens, closes]
        omega

/-! ## The parser -/

theorem trace_run {V : Type} {G : List (Rule V)} {T : Table} : ∀ (n : Nat) (c : Cfg V), (trace G T n c).map (·.1) = run G T n c
  | 0, _ => rfl
  | n + 1, c => by
    rw [trace, run]
    cases step G T c with
    | error => rfl
    | done v => rfl
    | next c' => exact trace_run n c'

theorem trace_more {V : Type} {G : List (Rule V)} {T : Table} {a : Option V × Nat} : ∀ (n m : Nat) (c : Cfg V),
    trace G T n c = some a → trace G T (n + m) c = some a
  | 0, _, _, h => nomatch h
  | n + 1, m, c, h => by
    rw [Nat.succ_add]
    unfold trace at h ⊢
    cases hs : step G T c with
    | error => rw [hs] at h; exact h
    | done v => rw [hs] at h; exact h
    | next c' => rw [hs] at h; exact trace_more n m c' h

theorem step_done {c : Cfg Val} {v : Val} (hk : ∀ t ∈ c.input, t.1 ≠ 0) (h : step grammar table c = .done v) : c.input = [] := by
  unfold step at h
  cases ha : table.act (top c.stack) (look c.input) with
  | none => rw [ha] at h; cases h
  | some a =>
    rw [ha] at h
    cases a with
    | shift s => simp only at h; split at h <;> cases h
    | reduce p =>
      simp only at h
      split at h
      · cases h
      · unfold reduceBy at h; split at h <;> cases h
    | accept =>
      obtain ⟨e, he, h1, h2⟩ := Table.act_mem ha
      obtain ⟨-, -, -, -, hc5⟩ := check_parts sound_ok
      have h3 := (hc5 _ (check_act ha)).2 e he
      rw [h2] at h3
      obtain ⟨-, h4⟩ := h3
      cases hi : c.input with
      | nil => rfl
      | cons k r =>
        exfalso
        refine hk k (hi ▸ List.mem_cons_self) ?_
        have : look c.input = k.1 := by rw [hi]; rfl
        rw [← this, ← h1, h4]

theorem step_next {c c' : Cfg Val} (hk : ∀ t ∈ c.input, t.1 ≠ 0) (h : step grammar table c = .next c') : ∀ t ∈ c'.input, t.1 ≠ 0 := by
  unfold step at h
  cases ha : table.act (top c.stack) (look c.input) with
  | none => rw [ha] at h; cases h
  | some a =>
    rw [ha] at h
    cases a with
    | shift s =>
      simp only at h
      split at h
      · cases h
      · rename_i tok r hi
        cases h
        intro t ht
        exact hk t (by rw [hi]; exact List.mem_cons_of_mem _ ht)
    | reduce p =>
      simp only at h
      split at h
      · cases h
      · unfold reduceBy at h
        split at h
        · cases h
        · cases h; exact hk
    | accept => simp only at h; split at h <;> cases h

theorem trace_value {v : Val} {k : Nat} : ∀ (n : Nat) (c : Cfg Val), (∀ t ∈ c.input, t.1 ≠ 0) →
    trace grammar table n c = some (some v, k) → k = 0
  | 0, _, _, h => nomatch h
  | n + 1, c, hk, h => by
    rw [trace] at h
    cases hs : step grammar table c with
    | error => rw [hs] at h; cases h
    | done w =>
      rw [hs] at h
      simp only [Option.some.injEq, Prod.mk.injEq] at h
      rw [← h.2, step_done hk hs]
      rfl
    | next c' => rw [hs] at h; exact trace_value n c' (step_next hk hs) h

theorem parseN_more {n d : Nat} {s : Str} {a : Option Val × Nat} (m : Nat) (h : parseN n d s = some a) : parseN (n + m) d s = some a := by
  unfold parseN at h ⊢
  generalize lexed (s.length + 1) d s = x at h ⊢
  obtain ⟨ts, e, b⟩ := x
  simp only at h ⊢
  cases ht : trace grammar table n ⟨[], ts.map (·.1)⟩ with
  | none => rw [ht] at h; cases h
  | some r => rw [ht] at h; rw [trace_more n m _ ht]; exact h

theorem parseN_halts (d : Nat) (s : Str) : ∃ n a, parseN n d s = some a := by
  unfold parseN
  generalize lexed (s.length + 1) d s = x
  obtain ⟨ts, e, b⟩ := x
  obtain ⟨n, hn⟩ := C105_halts (ts.map (·.1))
  refine ⟨n, ?_⟩
  simp only
  rw [← trace_run] at hn
  cases ht : trace grammar table n ⟨[], ts.map (·.1)⟩ with
  | none => rw [ht] at hn; exact absurd rfl hn
  | some r =>
    obtain ⟨r, k⟩ := r
    cases k with
    | zero => exact ⟨_, rfl⟩
    | succ k => exact ⟨_, rfl⟩

/-- From the initial state, a program is read as its tree, and the initial state is reached again. -/
theorem parseN_some {n : Nat} {s : Str} {v : Val} {d' : Nat} (h : parseN n 0 s = some (some v, d')) : Reads s v ∧ d' = 0 := by
  unfold parseN at h
  obtain ⟨h1, h2, h3⟩ := lexed_facts (s.length + 1) 0 s
  generalize lexed (s.length + 1) 0 s = x at h h1 h2 h3
  obtain ⟨ts, e, b⟩ := x
  simp only at h h1 h2 h3
  cases ht : trace grammar table n ⟨[], ts.map (·.1)⟩ with
  | none => rw [ht] at h; cases h
  | some r =>
    obtain ⟨r, k⟩ := r
    rw [ht] at h
    cases k with
    | succ k => simp only [Option.some.injEq, Prod.mk.injEq] at h; exact nomatch h.1
    | zero =>
      simp only [Option.some.injEq, Prod.mk.injEq] at h
      obtain ⟨hr, he⟩ := h
      cases b with
      | false => cases hr
      | true =>
        simp only [if_true] at hr h1
        have hrun := trace_run (G := grammar) (T := table) n ⟨[], ts.map (·.1)⟩
        rw [ht, hr] at hrun
        have hp : Parses grammar table (ts.map (·.1)) v := ⟨n, hrun.symm⟩
        have hk : ∀ t ∈ ts.map (·.1), t.1 ≠ 0 := by
          intro t hm
          obtain ⟨x, hx, rfl⟩ := List.mem_map.1 hm
          exact h2 x hx
        have hb := derives_balanced (C105_sound _ _ hk hp)
        simp only [symOpens, symCloses] at hb
        exact ⟨⟨_, h1, hp⟩, by omega⟩

theorem parseN_reads {n : Nat} {s : Str} {o : Option Val} {d' : Nat} (h : parseN n 0 s = some (o, d')) (v : Val) (hr : Reads s v) : o = some v := by
  obtain ⟨toks, hl, m, hm⟩ := hr
  unfold parseN at h
  obtain ⟨h1, h2, h3⟩ := lexed_facts (s.length + 1) 0 s
  rw [Lex.lex] at hl
  rw [hl] at h1
  generalize lexed (s.length + 1) 0 s = x at h h1 h2 h3
  obtain ⟨ts, e, b⟩ := x
  simp only at h h1 h2 h3
  cases b with
  | false => cases h1
  | true =>
    simp only [if_true, Option.some.injEq] at h1
    have hk : ∀ t ∈ ts.map (·.1), t.1 ≠ 0 := by
      intro t hm
      obtain ⟨x, hx, rfl⟩ := List.mem_map.1 hm
      exact h2 x hx
    rw [h1, ← trace_run] at hm
    cases hm' : trace grammar table m ⟨[], ts.map (·.1)⟩ with
    | none => rw [hm'] at hm; cases hm
    | some r =>
      obtain ⟨r, k⟩ := r
      rw [hm'] at hm
      simp only [Option.map_some, Option.some.injEq] at hm
      rw [hm] at hm'
      have hk0 := trace_value m _ hk hm'
      rw [hk0] at hm'
      cases ht : trace grammar table n ⟨[], ts.map (·.1)⟩ with
      | none => rw [ht] at h; cases h
      | some q =>
        have e1 := trace_more n m _ ht
        have e2 := trace_more m n _ hm'
        rw [Nat.add_comm, e1] at e2
        simp only [Option.some.injEq] at e2
        rw [ht, e2] at h
        simp only [if_true, Option.some.injEq, Prod.mk.injEq] at h
        exact h.1.symm

/-! ## Methods and definitions -/

section
variable {Py : Type}

theorem methodN_more {n d : Nat} {make : Val → Except PyErr Py} {s : Str} {a : Except PyErr (Option Py) × Nat} (m : Nat)
    (h : methodN n make d s = some a) : methodN (n + m) make d s = some a := by
  unfold methodN at h ⊢
  cases hp : parseN n d (unixLines s ++ ['\n']) with
  | none => rw [hp] at h; cases h
  | some x => rw [hp] at h; rw [parseN_more m hp]; exact h

theorem methodN_halts (make : Val → Except PyErr Py) (d : Nat) (s : Str) : ∃ n a, methodN n make d s = some a := by
  obtain ⟨n, ⟨o, d'⟩, hn⟩ := parseN_halts d (unixLines s ++ ['\n'])
  refine ⟨n, ?_⟩
  unfold methodN
  rw [hn]
  cases o with
  | none => exact ⟨_, rfl⟩
  | some v =>
    simp only
    cases make v with
    | error e => exact ⟨_, rfl⟩
    | ok p => exact ⟨_, rfl⟩

theorem methodN_zero {n : Nat} {make : Val → Except PyErr Py} {s : Str} {res : Except PyErr (Option Py)} {d' : Nat}
    (h : methodN n make 0 s = some (res, d')) :
    d' = 0 ∧ ((∃ v, Reads (unixLines s ++ ['\n']) v ∧ res = (make v).map some) ∨
      ((¬ ∃ v, Reads (unixLines s ++ ['\n']) v) ∧ res = .ok none)) := by
  unfold methodN at h
  cases hp : parseN n 0 (unixLines s ++ ['\n']) with
  | none => rw [hp] at h; cases h
  | some x =>
    obtain ⟨o, k⟩ := x
    rw [hp] at h
    cases o with
    | none =>
      simp only [Option.some.injEq, Prod.mk.injEq] at h
      refine ⟨h.2.symm, .inr ⟨?_, h.1.symm⟩⟩
      rintro ⟨v, hv⟩
      cases parseN_reads hp v hv
    | some v =>
      obtain ⟨hv, hk⟩ := parseN_some hp
      simp only at h
      cases hm : make v with
      | error e =>
        rw [hm] at h
        simp only [Option.some.injEq, Prod.mk.injEq] at h
        exact ⟨by rw [← h.2, hk], .inl ⟨v, hv, by rw [hm, ← h.1]; rfl⟩⟩
      | ok p =>
        rw [hm] at h
        simp only [Option.some.injEq, Prod.mk.injEq] at h
        exact ⟨by rw [← h.2, hk], .inl ⟨v, hv, by rw [hm, ← h.1]; rfl⟩⟩

theorem methodsN_more {n : Nat} {make : Val → Except PyErr Py} (m : Nat) : ∀ {ms : List (PyVal × PyVal)} {d : Nat} {a : Except PyErr (List Py) × Nat},
    methodsN n make d ms = some a → methodsN (n + m) make d ms = some a
  | [], d, a, h => h
  | (p, e) :: r, d, a, h => by
    rw [methodsN] at h ⊢
    by_cases hp : p = .str "Evaluation".toList
    · rw [if_pos hp] at h ⊢
      cases ht : textOf e with
      | some s =>
        rw [ht] at h
        simp only at h ⊢
        cases hm : methodN n make d s with
        | none => rw [hm] at h; cases h
        | some x =>
          obtain ⟨x, d'⟩ := x
          rw [hm] at h
          rw [methodN_more m hm]
          cases x with
          | error e => exact h
          | ok o =>
            simp only at h ⊢
            cases hr : methodsN n make d' r with
            | none => rw [hr] at h; cases h
            | some y => rw [hr] at h; rw [methodsN_more m hr]; exact h
      | none => rw [ht] at h; exact h
    · rw [if_neg hp] at h ⊢
      exact methodsN_more m h

theorem methodsN_halts (make : Val → Except PyErr Py) : ∀ (ms : List (PyVal × PyVal)) (d : Nat), ∃ n a, methodsN n make d ms = some a
  | [], d => ⟨0, _, rfl⟩
  | (p, e) :: r, d => by
    by_cases hp : p = .str "Evaluation".toList
    · cases ht : textOf e with
      | some s =>
        obtain ⟨n, ⟨x, d'⟩, hn⟩ := methodN_halts make d s
        cases x with
        | error e => exact ⟨n, (.error e, d'), by rw [methodsN, if_pos hp]; simp only [ht, hn]⟩
        | ok o =>
          obtain ⟨m, ⟨y, d''⟩, hm⟩ := methodsN_halts make r d'
          have h1 := methodN_more m hn
          have h2 := methodsN_more n hm
          rw [Nat.add_comm] at h2
          cases y with
          | error e => exact ⟨n + m, (.error e, d''), by rw [methodsN, if_pos hp]; simp only [ht, h1, h2]⟩
          | ok l => exact ⟨n + m, (.ok (o.toList ++ l), d''), by rw [methodsN, if_pos hp]; simp only [ht, h1, h2]⟩
      | none => exact ⟨0, (.error .attribute, d), by rw [methodsN, if_pos hp, ht]⟩
    · obtain ⟨n, a, h⟩ := methodsN_halts make r d
      exact ⟨n, a, by rw [methodsN, if_neg hp]; exact h⟩

theorem methodsN_zero {n : Nat} {make : Val → Except PyErr Py} : ∀ {ms : List (PyVal × PyVal)} {res : Except PyErr (List Py)} {d' : Nat},
    methodsN n make 0 ms = some (res, d') → d' = 0
  | [], res, d', h => by
    rw [methodsN] at h
    simp only [Option.some.injEq, Prod.mk.injEq] at h
    exact h.2.symm
  | (p, e) :: r, res, d', h => by
    rw [methodsN] at h
    by_cases hp : p = .str "Evaluation".toList
    · rw [if_pos hp] at h
      cases ht : textOf e with
      | some s =>
        rw [ht] at h
        simp only at h
        cases hm : methodN n make 0 s with
        | none => rw [hm] at h; cases h
        | some x =>
          obtain ⟨x, k⟩ := x
          rw [hm] at h
          have hk := (methodN_zero hm).1
          cases x with
          | error e =>
            simp only [Option.some.injEq, Prod.mk.injEq] at h
            rw [← h.2, hk]
          | ok o =>
            simp only at h
            rw [hk] at h
            cases hr : methodsN n make 0 r with
            | none => rw [hr] at h; cases h
            | some y =>
              obtain ⟨y, k'⟩ := y
              rw [hr] at h
              have hk' := methodsN_zero hr
              cases y with
              | error e =>
                simp only [Option.some.injEq, Prod.mk.injEq] at h
                rw [← h.2, hk']
              | ok l =>
                simp only [Option.some.injEq, Prod.mk.injEq] at h
                rw [← h.2, hk']
      | none =>
        rw [ht] at h
        simp only [Option.some.injEq, Prod.mk.injEq] at h
        exact h.2.symm
    · rw [if_neg hp] at h
      exact methodsN_zero h

theorem methodsN_taken {n : Nat} {make : Val → Except PyErr Py} : ∀ {ms : List (Str × Str)} {l : List Py} {d' : Nat},
    methodsN n make 0 (ms.map fun m => (.str m.1, .str m.2)) = some (.ok l, d') → Taken make ms l
  | [], l, d', h => by
    rw [List.map_nil, methodsN] at h
    simp only [Option.some.injEq, Prod.mk.injEq, Except.ok.injEq] at h
    exact h.1.symm
  | (p, s) :: ms, l, d', h => by
    rw [List.map_cons, methodsN] at h
    simp only [PyVal.str.injEq, textOf] at h
    rw [Taken]
    by_cases hp : p = "Evaluation".toList
    · rw [if_pos hp] at h
      cases hm : methodN n make 0 s with
      | none => rw [hm] at h; cases h
      | some x =>
        obtain ⟨x, k⟩ := x
        rw [hm] at h
        obtain ⟨hk, hcase⟩ := methodN_zero hm
        cases x with
        | error e => cases h
        | ok o =>
          simp only at h
          rw [hk] at h
          cases hr : methodsN n make 0 (ms.map fun m => (.str m.1, .str m.2)) with
          | none => rw [hr] at h; cases h
          | some y =>
            obtain ⟨y, k'⟩ := y
            rw [hr] at h
            cases y with
            | error e => cases h
            | ok l' =>
              have ih := methodsN_taken hr
              simp only [Option.some.injEq, Prod.mk.injEq, Except.ok.injEq] at h
              rcases hcase with ⟨v, hv, hres⟩ | ⟨hno, hres⟩
              · cases hmk : make v with
                | error e => rw [hmk] at hres; cases hres
                | ok t =>
                  rw [hmk] at hres
                  simp only [Except.map, Except.ok.injEq] at hres
                  refine .inl ⟨hp, v, t, l', hv, hmk, ?_, ih⟩
                  rw [← h.1, hres]; rfl
              · simp only [Except.ok.injEq] at hres
                refine .inr ⟨.inr hno, ?_⟩
                rw [← h.1, hres]
                exact ih
    · rw [if_neg hp] at h
      exact .inr ⟨.inl hp, methodsN_taken h⟩

theorem methodsN_ok {n : Nat} {make : Val → Except PyErr Py} (hmake : ∀ v, ∃ p, make v = .ok p) :
    ∀ {ms : List (Str × Str)} {res : Except PyErr (List Py)} {d d' : Nat},
    methodsN n make d (ms.map fun m => (.str m.1, .str m.2)) = some (res, d') → ∃ l, res = .ok l
  | [], res, d, d', h => by
    rw [List.map_nil, methodsN] at h
    simp only [Option.some.injEq, Prod.mk.injEq] at h
    exact ⟨[], h.1.symm⟩
  | (p, s) :: ms, res, d, d', h => by
    rw [List.map_cons, methodsN] at h
    simp only [PyVal.str.injEq, textOf] at h
    by_cases hp : p = "Evaluation".toList
    · rw [if_pos hp] at h
      cases hm : methodN n make d s with
      | none => rw [hm] at h; cases h
      | some x =>
        obtain ⟨x, k⟩ := x
        rw [hm] at h
        cases x with
        | error e =>
          exfalso
          unfold methodN at hm
          cases hq : parseN n d (unixLines s ++ ['\n']) with
          | none => rw [hq] at hm; cases hm
          | some y =>
            obtain ⟨y, k2⟩ := y
            rw [hq] at hm
            cases y with
            | none => cases hm
            | some v =>
              obtain ⟨t, ht⟩ := hmake v
              simp only [ht] at hm
              cases hm
        | ok o =>
          simp only at h
          cases hr : methodsN n make k (ms.map fun m => (.str m.1, .str m.2)) with
          | none => rw [hr] at h; cases h
          | some y =>
            obtain ⟨y, k'⟩ := y
            rw [hr] at h
            obtain ⟨l, hl⟩ := methodsN_ok hmake hr
            rw [hl] at h
            simp only [Option.some.injEq, Prod.mk.injEq] at h
            exact ⟨_, h.1.symm⟩
    · rw [if_neg hp] at h
      exact methodsN_ok hmake h

variable [CaseFold]

theorem transformN_more {n : Nat} {make : Str → Bool → Val → Except PyErr Py} (m : Nat) :
    ∀ {defs : List (Str × Block)} {d : Nat} {a : Except PyErr (List (Str × List Py)) × Nat},
    transformN n make d defs = some a → transformN (n + m) make d defs = some a
  | [], d, a, h => h
  | (name, b) :: r, d, a, h => by
    rw [transformN] at h ⊢
    by_cases hd : derivable b = true
    · rw [if_pos hd] at h ⊢
      cases hp : pairsOf b with
      | error e => rw [hp] at h; exact h
      | ok ms =>
        rw [hp] at h
        simp only at h ⊢
        cases hm : methodsN n (make name (isCatDef b)) d ms with
        | none => rw [hm] at h; cases h
        | some x =>
          obtain ⟨x, d'⟩ := x
          rw [hm] at h
          rw [methodsN_more m hm]
          cases x with
          | error e => exact h
          | ok l =>
            simp only at h ⊢
            cases hr : transformN n make d' r with
            | none => rw [hr] at h; cases h
            | some y => rw [hr] at h; rw [transformN_more m hr]; exact h
    · rw [if_neg hd] at h ⊢
      exact transformN_more m h

theorem transformN_halts (make : Str → Bool → Val → Except PyErr Py) : ∀ (defs : List (Str × Block)) (d : Nat), ∃ n a, transformN n make d defs = some a
  | [], d => ⟨0, _, rfl⟩
  | (name, b) :: r, d => by
    by_cases hd : derivable b = true
    · cases hp : pairsOf b with
      | error e => exact ⟨0, (.error e, d), by rw [transformN, if_pos hd]; simp only [hp]⟩
      | ok ms =>
        obtain ⟨n, ⟨x, d'⟩, hn⟩ := methodsN_halts (make name (isCatDef b)) ms d
        cases x with
        | error e => exact ⟨n, (.error e, d'), by rw [transformN, if_pos hd]; simp only [hp, hn]⟩
        | ok l =>
          obtain ⟨m, ⟨y, d''⟩, hm⟩ := transformN_halts make r d'
          have h1 := methodsN_more m hn
          have h2 := transformN_more n hm
          rw [Nat.add_comm] at h2
          cases y with
          | error e => exact ⟨n + m, (.error e, d''), by rw [transformN, if_pos hd]; simp only [hp, h1, h2]⟩
          | ok out => exact ⟨n + m, (.ok (if l.isEmpty then out else (name, l) :: out), d''), by rw [transformN, if_pos hd]; simp only [hp, h1, h2]⟩
    · obtain ⟨n, a, h⟩ := transformN_halts make r d
      exact ⟨n, a, by rw [transformN, if_neg hd]; exact h⟩

theorem transforms_cons {n : Nat} {make : Str → Bool → Val → Except PyErr Py} {x : Str × Block} {r : List (Str × Block)}
    {out : List (Str × List Py)} {d' : Nat} (h : transformN n make 0 (x :: r) = some (.ok out, d')) :
    ∃ o1 o2, transformN n make 0 [x] = some (.ok o1, 0) ∧ transformN n make 0 r = some (.ok o2, d') ∧ out = o1 ++ o2 := by
  obtain ⟨name, b⟩ := x
  rw [transformN] at h
  by_cases hd : derivable b = true
  · rw [if_pos hd] at h
    cases hp : pairsOf b with
    | error e => rw [hp] at h; cases h
    | ok ms =>
      rw [hp] at h
      simp only at h
      cases hm : methodsN n (make name (isCatDef b)) 0 ms with
      | none => rw [hm] at h; cases h
      | some x =>
        obtain ⟨x, k⟩ := x
        have hk := methodsN_zero hm
        rw [hk] at hm
        rw [hm] at h
        cases x with
        | error e => cases h
        | ok l =>
          simp only at h
          cases hr : transformN n make 0 r with
          | none => rw [hr] at h; cases h
          | some y =>
            obtain ⟨y, k'⟩ := y
            rw [hr] at h
            cases y with
            | error e => cases h
            | ok o2 =>
              simp only [Option.some.injEq, Prod.mk.injEq, Except.ok.injEq] at h
              refine ⟨if l.isEmpty then [] else [(name, l)], o2, ?_, by rw [h.2], ?_⟩
              · rw [transformN, if_pos hd]
                simp only [hp, hm, transformN]
              · rw [← h.1]
                cases l <;> rfl
  · rw [if_neg hd] at h
    exact ⟨[], out, by rw [transformN, if_neg hd]; rfl, h, rfl⟩

theorem zip_methods : ∀ ms : List (Str × Str),
    (ms.map fun m => PyVal.str m.1).zip (ms.map fun m => PyVal.str m.2) = ms.map fun m => (PyVal.str m.1, PyVal.str m.2)
  | [] => rfl
  | m :: r => by rw [List.map_cons, List.map_cons, List.map_cons, List.zip_cons_cons, zip_methods r]

theorem pairsOf_has {b : Block} {ms : List (Str × Str)} (h : HasMethods b ms) : pairsOf b = .ok (ms.map fun m => (.str m.1, .str m.2)) := by
  unfold pairsOf
  rcases h.2 with ⟨h1, h2⟩ | ⟨p, e, h0, h1, h2⟩
  · have hz : (ms.map fun m => PyVal.str m.1).zip (ms.map fun m => PyVal.str m.2) = ms.map fun m => (PyVal.str m.1, PyVal.str m.2) := by
      exact zip_methods ms
    simp only [h1, h2, bind, Except.bind, isPyList, if_true, Block.pyIter, hz]
  · simp only [h1, h2, bind, Except.bind, isPyList, h0]
    rfl

end

/-! ## Lines -/

theorem splitLines_line {l : Str} (hl : ∀ c ∈ l, lineEnd c = false) : ∀ (cur r : Str), splitLinesFrom cur (l ++ r) = splitLinesFrom (l.reverse ++ cur) r := by
  induction l with
  | nil => intro cur r; rfl
  | cons c u ih =>
    intro cur r
    have hc : lineEnd c = false := hl c (by simp)
    have hcr : c ≠ '\r' := by
      intro e; rw [e] at hc; revert hc; decide
    rw [List.cons_append, splitLinesFrom]
    · rw [hc]
      simp only [Bool.false_eq_true, if_false]
      rw [ih (fun c h => hl c (by simp [h]))]
      simp
    · intro r' e
      exact absurd e hcr

theorem splitLines_text {ls : List Str} {s : Str} (h : TextOf ls s) : splitLinesFrom [] s = ls := by
  induction h with
  | nil => rfl
  | @last l hne hl =>
    have := splitLines_line hl [] []
    rw [List.append_nil] at this
    rw [this, List.append_nil]
    cases hr : l.reverse with
    | nil => exact absurd (List.reverse_eq_nil_iff.1 hr) hne
    | cons c u =>
      rw [splitLinesFrom]
      · rw [← hr, List.reverse_reverse]
      · intro e; cases e
  | @line l e ls s hl he _ ih =>
    rw [List.append_assoc, splitLines_line hl, List.append_nil]
    rcases he with rfl | rfl
    · rw [List.cons_append, List.nil_append, splitLinesFrom]
      · have : lineEnd '\n' = true := by decide
        rw [this, if_pos rfl, List.reverse_reverse, ih]
      · intro r' e
        exact absurd e (by decide)
    · rw [List.cons_append, List.cons_append, List.nil_append, splitLinesFrom, List.reverse_reverse, ih]

end Drel
end Verif
