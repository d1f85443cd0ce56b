import Verif.Model.TypeContents
import Verif.Lemmas.Regex
import Verif.Lemmas.Scan
/-! # Tokens asked for by a parser, in terms of the text still to be read -/
set_option linter.unusedSectionVars false
namespace Verif.Yapps
open Scanner
variable {N : Type} [DecidableEq N]

theorem search_drop (input : Str) (pos : Nat) : ∀ (L : List (N × Pattern)) (best : Option (N × Nat)),
    (∀ p ∈ L, p.2 input pos = p.2 (input.drop pos) 0) → search input pos best L = search (input.drop pos) 0 best L
  | [], _, _ => rfl
  | (n, p) :: r, best, h => by
    have h0 := h (n, p) (by simp)
    simp only at h0
    have ih := fun b => search_drop input pos r b (fun q hq => h q (by simp [hq]))
    simp only [search, h0, ih]

theorem search_text (tb : List (N × Rx)) (ign R : List N) (input : Str) (pos : Nat) :
    search input pos none (accepted (lexer tb ign) R) = search (input.drop pos) 0 none (accepted (lexer tb ign) R) := by
  apply search_drop
  intro p hp
  have hp' : p ∈ (lexer tb ign).patterns := by
    unfold accepted at hp
    split at hp
    · exact (List.mem_filter.1 hp).1
    · exact hp
  obtain ⟨q, -, rfl⟩ := List.mem_map.1 hp'
  simp [Rx.pattern]

theorem search_le (tb : List (N × Rx)) (ign R : List N) (text : Str) {n : N} {k : Nat}
    (h : search text 0 none (accepted (lexer tb ign) R) = some (n, k)) : k ≤ text.length := by
  have hw := search_wins h
  obtain ⟨pre, p, post, e, -, hm, -⟩ := hw
  have : (n, p) ∈ (lexer tb ign).patterns := by rw [e]; simp
  obtain ⟨q, -, hq⟩ := List.mem_map.1 this
  injection hq with h1 h2
  rw [← h2, Rx.pattern] at hm
  exact Rx.lens_le _ _ _ (Rx.mem_of_matchLen (by simpa using hm))

/-- The next token of a text and what follows it. -/
def next (tb : List (N × Rx)) (ign R : List N) : Nat → Str → Except PyErr (N × Str × Str)
  | 0, _ => .error .depth
  | fuel + 1, text =>
    match search text 0 none (accepted (lexer tb ign) R) with
    | none => .error .syntax
    | some (n, k) => if n ∉ ign then .ok (n, text.take k, text.drop k) else next tb ign R fuel (text.drop k)

theorem slice_take' (input : Str) (a k : Nat) : slice input a (a + k) = (input.drop a).take k := by
  rw [slice, List.drop_take]
  congr 1
  omega

theorem scanLoop_error {tb : List (N × Rx)} {ign R : List N} : ∀ (fuel : Nat) (s : Scanner N) {e : PyErr},
    next tb ign R fuel (s.input.drop s.pos) = .error e → ∃ s', scanLoop (lexer tb ign) R fuel s = (s', .error e)
  | 0, s, e, h => by
    simp only [next, Except.error.injEq] at h
    exact ⟨s, by rw [scanLoop, h]⟩
  | fuel + 1, s, e, h => by
    rw [next] at h
    rw [scanLoop, search_text]
    cases hs : search (s.input.drop s.pos) 0 none (accepted (lexer tb ign) R) with
    | none =>
      simp only [hs, Except.error.injEq] at h
      exact ⟨s, by simp [h]⟩
    | some nk =>
      obtain ⟨n, k⟩ := nk
      simp only [hs] at h ⊢
      by_cases hn : n ∉ ign
      · simp [hn] at h
      · rw [if_neg hn, List.drop_drop] at h
        rw [if_neg (by exact hn)]
        exact scanLoop_error fuel { s with pos := s.pos + k } h

theorem scanLoop_ok {tb : List (N × Rx)} {ign R : List N} : ∀ (fuel : Nat) (s : Scanner N) {n : N} {w rest : Str},
    s.pos ≤ s.input.length → next tb ign R fuel (s.input.drop s.pos) = .ok (n, w, rest) →
    ∃ a, s.pos ≤ a ∧ a + w.length ≤ s.input.length ∧ s.input.drop (a + w.length) = rest ∧
      scanLoop (lexer tb ign) R fuel s = ({ s with pos := a + w.length }.push ⟨a, a + w.length, n, w⟩ R, .ok ())
  | 0, s, n, w, rest, _, h => by simp [next] at h
  | fuel + 1, s, n, w, rest, hp, h => by
    rw [next] at h
    rw [scanLoop, search_text]
    cases hs : search (s.input.drop s.pos) 0 none (accepted (lexer tb ign) R) with
    | none => simp [hs] at h
    | some nk =>
      obtain ⟨m, k⟩ := nk
      have hk := search_le tb ign R _ hs
      simp only [List.length_drop] at hk
      simp only [hs] at h ⊢
      by_cases hn : m ∉ ign
      · rw [if_pos hn] at h
        simp only [Except.ok.injEq, Prod.mk.injEq] at h
        obtain ⟨rfl, rfl, rfl⟩ := h
        have hl : ((s.input.drop s.pos).take k).length = k := by simp; omega
        refine ⟨s.pos, Nat.le_refl _, by omega, by rw [hl, List.drop_drop], ?_⟩
        rw [if_pos (by exact hn), slice_take', hl]
      · rw [if_neg hn, List.drop_drop] at h
        rw [if_neg (by exact hn)]
        obtain ⟨a, h1, h2, h3, h4⟩ := scanLoop_ok fuel { s with pos := s.pos + k } (by simp only; omega) h
        exact ⟨a, by simp only at h1; omega, h2, h3, h4⟩

/-- Nothing has been looked at beyond what was consumed; `rest` is still to be read. -/
structure Ready (p : State N) (rest : Str) : Prop where
  tokens : p.scan.tokens.length = p.pos
  restr : p.scan.restrictions.length = p.pos
  inside : p.scan.pos ≤ p.scan.input.length
  rest : p.scan.input.drop p.scan.pos = rest
  last : ∀ t, p.scan.tokens.getLast? = some t → t.start < p.scan.pos

/-- The token `w`, of the name `n`, has been looked at on a request for `R`, but not consumed; `rest` follows it. -/
structure Peeked (p : State N) (R : List N) (n : N) (w rest : Str) : Prop where
  tokens : ∃ a, p.scan.tokens[p.pos]? = some ⟨a, a + w.length, n, w⟩ ∧ (w ≠ [] → a < p.scan.pos)
  restr : p.scan.restrictions[p.pos]? = some R
  tlen : p.scan.tokens.length = p.pos + 1
  rlen : p.scan.restrictions.length = p.pos + 1
  inside : p.scan.pos ≤ p.scan.input.length
  rest : p.scan.input.drop p.scan.pos = rest

theorem ready_start (text : Str) : Ready ({ scan := { input := text } } : State N) text :=
  ⟨rfl, rfl, Nat.zero_le _, rfl, by simp⟩

/-- The bound on the rounds of the scanner for a text. -/
def bound (p : State N) : Nat := p.scan.input.length + 1

theorem bound_gt {p : State N} {text : Str} (h : Ready p text) : text.length < bound p := by
  rw [← h.rest, bound]
  simp
  omega

theorem peek_error {tb : List (N × Rx)} {ign R : List N} {p : State N} {text : Str} {e : PyErr} (hr : Ready p text)
    (h : next tb ign R (bound p) text = .error e) : peek (lexer tb ign) R p = .error e := by
  rw [← hr.rest] at h
  obtain ⟨s', hs⟩ := scanLoop_error _ p.scan h
  rw [bound] at hs
  rw [peek, token, if_pos hr.tokens.symm, Scanner.scan, hs]

theorem peek_ok {tb : List (N × Rx)} {ign R : List N} {p : State N} {text : Str} {n : N} {w rest : Str} (hr : Ready p text)
    (h : next tb ign R (bound p) text = .ok (n, w, rest)) :
    ∃ p', peek (lexer tb ign) R p = .ok (n, p') ∧ Peeked p' R n w rest := by
  rw [← hr.rest] at h
  obtain ⟨a, h1, h2, h3, h4⟩ := scanLoop_ok _ p.scan hr.inside h
  have hpush : ({ p.scan with pos := a + w.length } : Scanner N).push ⟨a, a + w.length, n, w⟩ R =
      { p.scan with pos := a + w.length, tokens := p.scan.tokens ++ [⟨a, a + w.length, n, w⟩],
                    restrictions := p.scan.restrictions ++ [R] } := by
    rw [push, if_pos]
    right
    intro hl
    have := hr.last _ hl
    simp only at this
    omega
  rw [hpush] at h4
  refine ⟨{ p with scan := { p.scan with pos := a + w.length, tokens := p.scan.tokens ++ [⟨a, a + w.length, n, w⟩],
                                         restrictions := p.scan.restrictions ++ [R] } }, ?_, ?_⟩
  · rw [bound] at h4
    rw [peek, token, if_pos hr.tokens.symm, Scanner.scan, h4]
    have e1 : (p.scan.tokens ++ [(⟨a, a + w.length, n, w⟩ : Token N)])[p.pos]? = some ⟨a, a + w.length, n, w⟩ := by
      simp [← hr.tokens]
    have e2 : (p.scan.restrictions ++ [R])[p.pos]? = some R := by simp [← hr.restr]
    have e3 : R.any (fun x => decide (x ∉ R)) = false := by simp
    simp only [fetch, e1, e2, e3]
    simp
  · refine ⟨⟨a, ?_, ?_⟩, ?_, ?_, ?_, ?_, ?_⟩
    · simp [← hr.tokens]
    · intro hw
      have : 0 < w.length := List.length_pos_iff.2 hw
      simp only
      omega
    · simp [← hr.restr]
    · simp [hr.tokens]
    · simp [hr.restr]
    · exact h2
    · exact h3

theorem token_peeked {lx : Lexer N} {R R' : List N} {p : State N} {n : N} {w rest : Str} (hp : Peeked p R n w rest)
    (hs : R' = [] ∨ R' ⊆ R) : ∃ a, p.scan.token lx p.pos R' = (p.scan, .ok ⟨a, a + w.length, n, w⟩) := by
  obtain ⟨a, ha, -⟩ := hp.tokens
  refine ⟨a, ?_⟩
  rw [token, if_neg (by rw [hp.tlen]; omega), fetch, ha, hp.restr]
  simp only
  rcases hs with rfl | hs
  · simp
  · rw [if_neg (c := (R'.any _ = true))]
    · simp
    · simp only [List.any_eq_true, decide_eq_true_eq]
      rintro ⟨x, hx, hx'⟩
      exact hx' (hs hx)

theorem take_peeked {lx : Lexer N} {R : List N} {p : State N} {n : N} {w rest : Str} (hp : Peeked p R n w rest)
    (hs : n ∈ R) : take lx n p = .ok (w, { p with pos := p.pos + 1 }) := by
  obtain ⟨a, h⟩ := token_peeked (lx := lx) (R' := [n]) hp (.inr (by simpa using hs))
  rw [take, h]
  simp

theorem ready_of_peeked {p : State N} {R : List N} {n : N} {w rest : Str} (hp : Peeked p R n w rest) (hw : w ≠ []) :
    Ready { p with pos := p.pos + 1 } rest := by
  refine ⟨hp.tlen, hp.rlen, hp.inside, hp.rest, ?_⟩
  intro t ht
  obtain ⟨a, ha, hlt⟩ := hp.tokens
  rw [List.getLast?_eq_getElem?] at ht
  have : p.scan.tokens.length - 1 = p.pos := by rw [hp.tlen]; omega
  simp only [this] at ht
  rw [ha] at ht
  cases ht
  exact hlt hw

theorem afterStar_peeked {lx : Lexer N} {R F : List N} {p : State N} {n : N} {w rest : Str} (hp : Peeked p R n w rest)
    (hs : n ∈ F) : afterStar lx F p = .ok p := by
  obtain ⟨a, h⟩ := token_peeked (lx := lx) (R' := []) hp (.inl rfl)
  rw [afterStar, peek, h]
  simp [hs]

end Verif.Yapps
