import Verif.Spec.Scan
/-! # Lemmas about the scanner -/
set_option linter.unusedSectionVars false
namespace Verif.Scanner
variable {N : Type} [DecidableEq N]

theorem mem_accepted {lx : Lexer N} {R : List N} {p : N × Pattern} :
    p ∈ accepted lx R ↔ p ∈ lx.patterns ∧ Permitted lx R p.1 := by
  unfold accepted Permitted
  by_cases h : R = []
  · simp [h]
  · rw [if_pos h, List.mem_filter]
    simp only [h, false_or]
    constructor
    · rintro ⟨h1, h2⟩
      refine ⟨h1, ?_⟩
      by_cases h3 : p.1 ∈ R
      · exact .inl h3
      · by_cases h4 : p.1 ∈ lx.ignore
        · exact .inr h4
        · simp [h3, h4] at h2
    · rintro ⟨h1, h2⟩
      refine ⟨h1, ?_⟩
      rcases h2 with h2 | h2 <;> simp [h2]

/-- `accepted` is the filter by permission. -/
theorem accepted_eq (lx : Lexer N) (R : List N) :
    ∃ f : N → Bool, accepted lx R = lx.patterns.filter (fun p => f p.1) ∧ ∀ n, f n = true ↔ Permitted lx R n := by
  unfold accepted Permitted
  by_cases h : R = []
  · refine ⟨fun _ => true, ?_, by simp [h]⟩
    rw [if_neg (by simpa using h)]
    exact (List.filter_eq_self.2 (by simp)).symm
  · refine ⟨fun n => !(decide (n ∉ R) && decide (n ∉ lx.ignore)), ?_, ?_⟩
    · rw [if_pos h]
    · intro n
      by_cases h3 : n ∈ R <;> by_cases h4 : n ∈ lx.ignore <;> simp [h, h3, h4]

/-- What `search` returns, given what has been found before. -/
def Found (input : Str) (pos : Nat) (L : List (N × Pattern)) (best : Option (N × Nat)) : Option (N × Nat) → Prop
  | none => best = none ∧ ∀ q ∈ L, q.2 input pos = none
  | some (n, k) =>
    (best = some (n, k) ∧ ∀ q ∈ L, ∀ j, q.2 input pos = some j → j ≤ k) ∨
    (∃ (pre : List (N × Pattern)) (p : Pattern) (post : List (N × Pattern)), L = pre ++ (n, p) :: post ∧
      p input pos = some k ∧ (∀ m b, best = some (m, b) → b < k) ∧
      (∀ q ∈ pre, ∀ j, q.2 input pos = some j → j < k) ∧ (∀ q ∈ post, ∀ j, q.2 input pos = some j → j ≤ k))

theorem Found.skip {input : Str} {pos : Nat} {L : List (N × Pattern)} {best out : Option (N × Nat)} {m : N} {p : Pattern}
    (h : Found input pos L best out)
    (hp : ∀ j, p input pos = some j → ∃ m b, best = some (m, b) ∧ j ≤ b) : Found input pos ((m, p) :: L) best out := by
  match out with
  | none =>
    refine ⟨h.1, ?_⟩
    intro q hq
    rcases List.mem_cons.1 hq with rfl | hq
    · cases hv : p input pos with
      | none => exact hv
      | some j =>
        obtain ⟨_, _, e, _⟩ := hp j hv
        rw [h.1] at e
        cases e
    · exact h.2 q hq
  | some (n, k) =>
    rcases h with ⟨h1, h2⟩ | ⟨pre, p', post, h1, h2, h3, h4, h5⟩
    · refine .inl ⟨h1, ?_⟩
      intro q hq j hj
      rcases List.mem_cons.1 hq with rfl | hq
      · obtain ⟨_, b, e, hb⟩ := hp j hj
        rw [h1] at e
        cases e
        exact hb
      · exact h2 q hq j hj
    · refine .inr ⟨(m, p) :: pre, p', post, by rw [h1]; rfl, h2, h3, ?_, h5⟩
      intro q hq j hj
      rcases List.mem_cons.1 hq with rfl | hq
      · obtain ⟨m', b, e, hb⟩ := hp j hj
        have := h3 m' b e
        omega
      · exact h4 q hq j hj

theorem Found.take {input : Str} {pos : Nat} {L : List (N × Pattern)} {best out : Option (N × Nat)} {m : N} {p : Pattern} {k0 : Nat}
    (h : Found input pos L (some (m, k0)) out) (hp : p input pos = some k0)
    (hb : ∀ m b, best = some (m, b) → b < k0) : Found input pos ((m, p) :: L) best out := by
  match out with
  | none => cases h.1
  | some (n, k) =>
    right
    rcases h with ⟨h1, h2⟩ | ⟨pre, p', post, h1, h2, h3, h4, h5⟩
    · cases h1
      exact ⟨[], p, L, rfl, hp, hb, by simp, h2⟩
    · have h6 := h3 m k0 rfl
      refine ⟨(m, p) :: pre, p', post, by rw [h1]; rfl, h2, ?_, ?_, h5⟩
      · intro m' b e
        have := hb m' b e
        omega
      · intro q hq j hj
        rcases List.mem_cons.1 hq with rfl | hq
        · have hj' : p input pos = some j := hj
          rw [hp] at hj'; cases hj'; exact h6
        · exact h4 q hq j hj

theorem search_spec (input : Str) (pos : Nat) : ∀ (L : List (N × Pattern)) (best : Option (N × Nat)),
    Found input pos L best (search input pos best L)
  | [], best => by
    unfold search
    match best with
    | none => exact ⟨rfl, by simp⟩
    | some (n, k) => exact .inl ⟨rfl, by simp⟩
  | (m, p) :: r, best => by
    unfold search
    cases hp : p input pos with
    | none => exact (search_spec input pos r best).skip (by simp [hp])
    | some k0 =>
      simp only
      match best with
      | none => exact (search_spec input pos r (some (m, k0))).take hp (by simp)
      | some (m0, b0) =>
        simp only
        by_cases hk : k0 > b0
        · rw [if_pos hk]
          exact (search_spec input pos r (some (m, k0))).take hp (by intro _ _ e; cases e; exact hk)
        · rw [if_neg hk]
          refine (search_spec input pos r (some (m0, b0))).skip ?_
          intro j hj
          rw [hp] at hj
          cases hj
          exact ⟨m0, b0, rfl, by omega⟩

/-- A decomposition of a filtered list comes from one of the whole list. -/
theorem filter_split {α : Type} (f : α → Bool) : ∀ (L pre post : List α) (x : α), L.filter f = pre ++ x :: post →
    ∃ pre' post', L = pre' ++ x :: post' ∧ pre'.filter f = pre ∧ post'.filter f = post
  | [], pre, post, x, h => by simp at h
  | a :: L, pre, post, x, h => by
    by_cases ha : f a = true
    · rw [List.filter_cons_of_pos ha] at h
      cases pre with
      | nil =>
        simp only [List.nil_append, List.cons.injEq] at h
        exact ⟨[], L, by simp [h.1], rfl, h.2⟩
      | cons b pre =>
        simp only [List.cons_append, List.cons.injEq] at h
        obtain ⟨pre', post', h1, h2, h3⟩ := filter_split f L pre post x h.2
        exact ⟨a :: pre', post', by simp [h1], by rw [List.filter_cons_of_pos ha, h2, h.1], h3⟩
    · rw [List.filter_cons_of_neg ha] at h
      obtain ⟨pre', post', h1, h2, h3⟩ := filter_split f L pre post x h
      exact ⟨a :: pre', post', by simp [h1], by rw [List.filter_cons_of_neg ha, h2], h3⟩

theorem search_wins {lx : Lexer N} {R : List N} {input : Str} {pos : Nat} {n : N} {k : Nat}
    (h : search input pos none (accepted lx R) = some (n, k)) : Wins lx R input pos n k := by
  have hs := search_spec input pos (accepted lx R) none
  rw [h] at hs
  simp only [Found, reduceCtorEq, false_and, false_or] at hs
  obtain ⟨pre, p, post, h1, h2, -, h4, h5⟩ := hs
  obtain ⟨f, hf, hp⟩ := accepted_eq lx R
  rw [hf] at h1
  obtain ⟨pre', post', e1, e2, e3⟩ := filter_split _ _ _ _ _ h1
  refine ⟨pre', p, post', e1, ?_, h2, ?_, ?_⟩
  · have : (n, p) ∈ lx.patterns.filter (fun p => f p.1) := by rw [h1]; simp
    exact (hp n).1 (List.mem_filter.1 this).2
  · intro q hq hq' j hj
    exact h4 q (e2 ▸ List.mem_filter.2 ⟨hq, (hp _).2 hq'⟩) j hj
  · intro q hq hq' j hj
    exact h5 q (e3 ▸ List.mem_filter.2 ⟨hq, (hp _).2 hq'⟩) j hj

theorem search_none {lx : Lexer N} {R : List N} {input : Str} {pos : Nat}
    (h : search input pos none (accepted lx R) = none) : NoMatch lx R input pos := by
  have hs := search_spec input pos (accepted lx R) none
  rw [h] at hs
  exact fun q hq hq' => hs.2 q (mem_accepted.2 ⟨hq, hq'⟩)

/-- At most one winner. -/
theorem Wins.unique {lx : Lexer N} {R : List N} {input : Str} {pos : Nat} {n m : N} {k j : Nat}
    (h : Wins lx R input pos n k) (h' : Wins lx R input pos m j) : n = m ∧ k = j := by
  obtain ⟨pre, p, post, e, hn, hp, h1, h2⟩ := h
  obtain ⟨pre', p', post', e', hm, hp', h1', h2'⟩ := h'
  rw [e] at e'
  rcases List.append_eq_append_iff.1 e' with ⟨a, ha, hb⟩ | ⟨a, ha, hb⟩
  · cases a with
    | nil =>
      simp only [List.nil_append, List.cons.injEq, Prod.mk.injEq] at hb
      obtain ⟨⟨rfl, rfl⟩, -⟩ := hb
      rw [hp] at hp'; cases hp'; exact ⟨rfl, rfl⟩
    | cons x a =>
      simp only [List.cons_append, List.cons.injEq] at hb
      have := h1' (n, p) (by rw [ha, hb.1]; simp) hn k hp
      have := h2 (m, p') (by rw [hb.2]; simp) hm j hp'
      omega
  · cases a with
    | nil =>
      simp only [List.nil_append, List.cons.injEq, Prod.mk.injEq] at hb
      obtain ⟨⟨rfl, rfl⟩, -⟩ := hb
      rw [hp] at hp'; cases hp'; exact ⟨rfl, rfl⟩
    | cons x a =>
      simp only [List.cons_append, List.cons.injEq] at hb
      have := h1 (m, p') (by rw [ha, hb.1]; simp) hm j hp'
      have := h2' (n, p) (by rw [hb.2]; simp) hn k hp
      omega

theorem wins_search {lx : Lexer N} {R : List N} {input : Str} {pos : Nat} {n : N} {k : Nat}
    (h : Wins lx R input pos n k) : search input pos none (accepted lx R) = some (n, k) := by
  cases hs : search input pos none (accepted lx R) with
  | none =>
    obtain ⟨pre, p, post, e, hn, hp, -⟩ := h
    have : p input pos = none := search_none hs (n, p) (by rw [e]; simp) hn
    rw [hp] at this
    cases this
  | some q =>
    obtain ⟨m, j⟩ := q
    obtain ⟨rfl, rfl⟩ := h.unique (search_wins hs)
    rfl

theorem noMatch_search {lx : Lexer N} {R : List N} {input : Str} {pos : Nat}
    (h : NoMatch lx R input pos) : search input pos none (accepted lx R) = none := by
  cases hs : search input pos none (accepted lx R) with
  | none => rfl
  | some q =>
    obtain ⟨m, j⟩ := q
    obtain ⟨pre, p, post, e, hn, hp, -⟩ := search_wins hs
    have : p input pos = none := h (m, p) (by rw [e]; simp) hn
    rw [hp] at this
    cases this

/-- How the scanning loop ends. -/
theorem scanLoop_spec (lx : Lexer N) (R : List N) : ∀ (fuel : Nat) (s : Scanner N) (s' : Scanner N) (r : Except PyErr Unit),
    scanLoop lx R fuel s = (s', r) →
    ∃ p, Skipped lx R s.input s.pos p ∧
      ((r = .ok () ∧ ∃ n k, Wins lx R s.input p n k ∧ n ∉ lx.ignore ∧
        s' = { s with pos := p + k }.push ⟨p, p + k, n, slice s.input p (p + k)⟩ R) ∨
      (r = .error .syntax ∧ NoMatch lx R s.input p ∧ s' = { s with pos := p }) ∨
      (r = .error .depth ∧ s' = { s with pos := p }))
  | 0, s, s', r, h => by
    simp only [scanLoop, Prod.mk.injEq] at h
    exact ⟨s.pos, .nil _, .inr (.inr ⟨h.2.symm, h.1.symm⟩)⟩
  | fuel + 1, s, s', r, h => by
    unfold scanLoop at h
    split at h
    · rename_i hs
      simp only [Prod.mk.injEq] at h
      exact ⟨s.pos, .nil _, .inr (.inl ⟨h.2.symm, search_none hs, h.1.symm⟩)⟩
    · rename_i n k hs
      have hw := search_wins hs
      split at h
      · rename_i hn
        simp only [Prod.mk.injEq] at h
        exact ⟨s.pos, .nil _, .inl ⟨h.2.symm, n, k, hw, hn, h.1.symm⟩⟩
      · rename_i hn
        obtain ⟨p, hp, hr⟩ := scanLoop_spec lx R fuel _ s' r h
        exact ⟨p, .cons n k hw (Classical.not_not.1 hn) hp, hr⟩

theorem push_input (s : Scanner N) (t : Token N) (R : List N) : (s.push t R).input = s.input := by
  unfold push; split <;> rfl

theorem push_pos (s : Scanner N) (t : Token N) (R : List N) : (s.push t R).pos = s.pos := by
  unfold push; split <;> rfl

theorem Skipped.blank {lx : Lexer N} {R : List N} {input : Str} {p q : Nat} (h : Skipped lx R input p q) :
    Blank lx input p q := by
  induction h with
  | nil p => exact .nil p
  | cons n k hw hn _ ih =>
    obtain ⟨pre, f, post, e, -, hf, -⟩ := hw
    exact .cons n f k (by rw [e]; simp) hn hf ih

theorem Blank.le {lx : Lexer N} {input : Str} {p q : Nat} (h : Blank lx input p q) : p ≤ q := by
  induction h with
  | nil p => exact Nat.le_refl _
  | cons _ _ _ _ _ _ _ ih => omega

theorem Blank.trans {lx : Lexer N} {input : Str} {p q r : Nat} (h : Blank lx input p q) (h' : Blank lx input q r) :
    Blank lx input p r := by
  induction h with
  | nil p => exact h'
  | cons n f k h1 h2 h3 _ ih => exact .cons n f k h1 h2 h3 (ih h')

theorem Tiled.blank {lx : Lexer N} {input : Str} : ∀ {p : Nat} {ts : List (Token N)} {q r : Nat},
    Tiled lx input p ts q → Blank lx input q r → Tiled lx input p ts r
  | _, [], _, _, h, h' => Blank.trans h h'
  | _, _ :: _, _, _, h, h' => ⟨h.1, h.2.1, h.2.2.1, h.2.2.2.blank h'⟩

theorem Tiled.snoc {lx : Lexer N} {input : Str} : ∀ {p : Nat} {ts : List (Token N)} {q : Nat} {t : Token N},
    Tiled lx input p ts q → Blank lx input q t.start → t.start ≤ t.stop → t.text = slice input t.start t.stop →
    Tiled lx input p (ts ++ [t]) t.stop
  | _, [], _, _, h, h1, h2, h3 => ⟨Blank.trans h h1, h2, h3, .nil _⟩
  | _, _ :: _, _, _, h, h1, h2, h3 => ⟨h.1, h.2.1, h.2.2.1, h.2.2.2.snoc h1 h2 h3⟩

theorem Tiled.last {lx : Lexer N} {input : Str} : ∀ {p : Nat} {ts : List (Token N)} {q : Nat} {t : Token N},
    Tiled lx input p ts q → ts.getLast? = some t → t.start ≤ t.stop ∧ Blank lx input t.stop q
  | _, [], _, _, _, h => by simp at h
  | _, [a], _, _, h, h' => by
    simp at h'
    subst h'
    exact ⟨h.2.1, h.2.2.2⟩
  | _, a :: b :: ts, _, t, h, h' => by
    have : (b :: ts).getLast? = some t := by rw [← h']; simp [List.getLast?_cons_cons]
    exact Tiled.last h.2.2.2 this

theorem Tiled.le {lx : Lexer N} {input : Str} : ∀ {p : Nat} {ts : List (Token N)} {q : Nat},
    Tiled lx input p ts q → p ≤ q
  | _, [], _, h => Blank.le h
  | _, _ :: _, _, h => by
    have h1 := h.1.le
    have h2 := h.2.1
    have h3 := h.2.2.2.le
    omega

/-- What holds of a scanner at all times. -/
structure Inv (lx : Lexer N) (input : Str) (s : Scanner N) : Prop where
  inp : s.input = input
  len : s.restrictions.length = s.tokens.length
  tiled : Tiled lx input 0 s.tokens s.pos

theorem inv_start (lx : Lexer N) (input : Str) : Inv lx input { input := input } :=
  ⟨rfl, rfl, .nil _⟩

/-- One more scan keeps the invariant; tokens are only added. -/
theorem inv_scan {lx : Lexer N} {input : Str} {s s' : Scanner N} {R : List N} {r : Except PyErr Unit} (hi : Inv lx input s)
    (h : s.scan lx R = (s', r)) : Inv lx input s' ∧ s.tokens <+: s'.tokens := by
  obtain ⟨p, hsk, hr⟩ := scanLoop_spec lx R _ s s' r h
  have hb : Blank lx input s.pos p := hi.inp ▸ hsk.blank
  rcases hr with ⟨-, n, k, hw, hn, rfl⟩ | ⟨-, -, rfl⟩ | ⟨-, rfl⟩
  · by_cases hc : s.tokens = [] ∨ s.tokens.getLast? ≠ some ⟨p, p + k, n, slice s.input p (p + k)⟩
    · unfold push
      rw [if_pos hc]
      refine ⟨⟨hi.inp, by simp [hi.len], ?_⟩, List.prefix_append _ _⟩
      have := hi.tiled.snoc (t := ⟨p, p + k, n, slice s.input p (p + k)⟩) hb (Nat.le_add_right _ _) (by rw [hi.inp])
      exact this
    · unfold push
      rw [if_neg hc]
      refine ⟨⟨hi.inp, hi.len, ?_⟩, List.prefix_refl _⟩
      have hc' : s.tokens.getLast? = some ⟨p, p + k, n, slice s.input p (p + k)⟩ := by
        by_cases h2 : s.tokens.getLast? = some ⟨p, p + k, n, slice s.input p (p + k)⟩
        · exact h2
        · exact absurd (.inr h2) hc
      have hl := hi.tiled.last hc'
      have h1 := hl.2.le
      have h2 := hb.le
      simp only at h1
      have hk : k = 0 := by omega
      subst hk
      exact hi.tiled.blank hb
  · exact ⟨⟨hi.inp, hi.len, hi.tiled.blank hb⟩, List.prefix_refl _⟩
  · exact ⟨⟨hi.inp, hi.len, hi.tiled.blank hb⟩, List.prefix_refl _⟩

theorem inv_token {lx : Lexer N} {input : Str} {s : Scanner N} {R : List N} {i : Nat} (hi : Inv lx input s) :
    Inv lx input (s.token lx i R).1 ∧ s.tokens <+: (s.token lx i R).1.tokens := by
  unfold token
  split
  · obtain ⟨s', r, h⟩ : ∃ s' r, s.scan lx R = (s', r) := ⟨_, _, rfl⟩
    rw [h]
    cases r with
    | error e => exact inv_scan hi h
    | ok u => exact inv_scan hi h
  · exact ⟨hi, List.prefix_refl _⟩

theorem Reachable.inv {lx : Lexer N} {input : Str} {s : Scanner N} (h : Reachable lx input s) : Inv lx input s := by
  induction h with
  | start => exact inv_start _ _
  | request s i R _ ih => exact (inv_token ih).1

theorem slice_append (input : Str) {a b c : Nat} (h1 : a ≤ b) (h2 : b ≤ c) :
    slice input a b ++ slice input b c = slice input a c := by
  unfold slice
  have e : (input.take c).drop a = ((input.take b).drop a) ++ ((input.take c).drop b) := by
    have h3 : input.take b = (input.take c).take b := by rw [List.take_take, Nat.min_eq_left h2]
    rw [h3]
    by_cases hb : b ≤ (input.take c).length
    · conv => lhs; rw [← List.take_append_drop b (input.take c)]
      rw [List.drop_append_of_le_length]
      rw [List.length_take, Nat.min_eq_left hb]; exact h1
    · have hb' : (input.take c).length ≤ b := by omega
      rw [List.take_of_length_le hb', List.drop_eq_nil_of_le hb', List.append_nil]
  exact e.symm

theorem slice_zero (input : Str) (q : Nat) : slice input 0 q = input.take q := by simp [slice]

/-- The skipped stretches of text. -/
def gaps (input : Str) : Nat → List (Token N) → Nat → List Str
  | p, [], q => [slice input p q]
  | p, t :: ts, q => slice input p t.start :: gaps input t.stop ts q

theorem gaps_length (input : Str) : ∀ (p : Nat) (ts : List (Token N)) (q : Nat), (gaps input p ts q).length = ts.length + 1
  | _, [], _ => rfl
  | _, t :: ts, q => by simp [gaps, gaps_length input t.stop ts q]

theorem Tiled.weave {lx : Lexer N} {input : Str} : ∀ {p : Nat} {ts : List (Token N)} {q : Nat}, Tiled lx input p ts q →
    slice input p q = weave (gaps input p ts q) (ts.map (·.text))
  | _, [], _, _ => by simp [gaps, Scanner.weave]
  | p, t :: ts, q, h => by
    simp only [gaps, List.map_cons, Scanner.weave]
    rw [← h.2.2.2.weave, h.2.2.1, slice_append _ h.1.le h.2.1, slice_append _ (Nat.le_trans h.1.le h.2.1) h.2.2.2.le]

theorem Tiled.pairwise {lx : Lexer N} {input : Str} : ∀ {p : Nat} {ts : List (Token N)} {q : Nat}, Tiled lx input p ts q →
    (∀ t ∈ ts, p ≤ t.start ∧ t.start ≤ t.stop ∧ t.stop ≤ q) ∧ ts.Pairwise fun t u => t.stop ≤ u.start
  | _, [], _, _ => by simp
  | p, t :: ts, q, h => by
    have ih := h.2.2.2.pairwise
    have h1 := h.1.le
    have h2 := h.2.1
    have h3 := h.2.2.2.le
    refine ⟨?_, List.pairwise_cons.2 ⟨fun u hu => (ih.1 u hu).1, ih.2⟩⟩
    intro u hu
    rcases List.mem_cons.1 hu with rfl | hu
    · exact ⟨h1, h2, h3⟩
    · have := ih.1 u hu
      exact ⟨by omega, this.2⟩

theorem Skipped.inside {lx : Lexer N} {R : List N} {input : Str} {p q : Nat} (hin : Inside lx) (h : Skipped lx R input p q)
    (hp : p ≤ input.length) : q ≤ input.length := by
  induction h with
  | nil p => exact hp
  | cons n k hw _ _ ih =>
    obtain ⟨pre, f, post, e, -, hf, -⟩ := hw
    exact ih (hin (n, f) (by rw [e]; simp) _ _ _ hf hp)

theorem scanLoop_fuel {lx : Lexer N} {R : List N} (hin : Inside lx) (hs : Solid lx) : ∀ (fuel : Nat) (s : Scanner N),
    s.pos ≤ s.input.length → s.input.length - s.pos < fuel → (scanLoop lx R fuel s).2 ≠ .error .depth
  | 0, s, _, h => by omega
  | fuel + 1, s, hp, h => by
    unfold scanLoop
    split
    · simp
    · rename_i n k hk
      split
      · simp
      · rename_i hn
        obtain ⟨pre, f, post, e, -, hf, -⟩ := search_wins hk
        have hm : (n, f) ∈ lx.patterns := by rw [e]; simp
        have h1 := hin _ hm _ _ _ hf hp
        have h2 : k ≠ 0 := by
          rintro rfl
          exact hs _ hm (Classical.not_not.1 hn) _ _ hf
        apply scanLoop_fuel hin hs fuel { s with pos := s.pos + k }
        · exact h1
        · simp only; omega

theorem skipped_unique {lx : Lexer N} {R : List N} {input : Str} {p q q' : Nat} (h : Skipped lx R input p q)
    (h' : Skipped lx R input p q')
    (hq : NoMatch lx R input q ∨ ∃ n k, Wins lx R input q n k ∧ n ∉ lx.ignore)
    (hq' : NoMatch lx R input q' ∨ ∃ n k, Wins lx R input q' n k ∧ n ∉ lx.ignore) : q = q' := by
  have clash : ∀ {p : Nat} {n : N} {k : Nat}, Wins lx R input p n k → n ∈ lx.ignore →
      (NoMatch lx R input p ∨ ∃ n k, Wins lx R input p n k ∧ n ∉ lx.ignore) → False := by
    intro p n k hw hn h
    rcases h with h | ⟨m, j, hw', hm⟩
    · obtain ⟨pre, f, post, e, hp, hf, -⟩ := hw
      have : f input p = none := h (n, f) (by rw [e]; simp) hp
      rw [hf] at this
      cases this
    · exact hm ((hw.unique hw').1 ▸ hn)
  induction h with
  | nil p =>
    cases h' with
    | nil => rfl
    | cons n k hw hn _ => exact (clash hw hn hq).elim
  | cons n k hw hn _ ih =>
    cases h' with
    | nil => exact (clash hw hn hq').elim
    | cons m j hw' hm h2 =>
      obtain ⟨rfl, rfl⟩ := hw.unique hw'
      exact ih h2 hq

end Verif.Scanner
