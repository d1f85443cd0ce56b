import Verif.Model.Reader
import Verif.Lemmas.Regex
import Verif.Lemmas.Scan
/-! # Tokens of a given text

What the parser's requests for tokens yield, in terms of the text that is still to be read. -/
set_option linter.unusedSectionVars false
namespace Verif.Lex
open Rx Scanner

/-- Names the scanner considers when asked for one of `R`. -/
def Asked (R : List Tk) (n : Tk) : Prop := R = [] ∨ n ∈ R ∨ n ∈ Pat.ignored

/-- At the start of the text the pattern called `n` wins with `k` characters. -/
def Best (tb : Pat.Table) (R : List Tk) (text : Str) (n : Tk) (k : Nat) : Prop :=
  ∃ (pre : Pat.Table) (r : Rx) (post : Pat.Table), tb = pre ++ (n, r) :: post ∧ Asked R n ∧ matchLen r text = some k ∧
    (∀ q ∈ pre, Asked R q.1 → ∀ j, matchLen q.2 text = some j → j < k) ∧
    (∀ q ∈ post, Asked R q.1 → ∀ j, matchLen q.2 text = some j → j ≤ k)

/-- The next token of the text and what is left after it. -/
inductive Lexes (tb : Pat.Table) (R : List Tk) : Str → Tk → Str → Str → Prop
  | tok {text : Str} {n : Tk} {k : Nat} : Best tb R text n k → n ∉ Pat.ignored → Lexes tb R text n (text.take k) (text.drop k)
  | skip {text : Str} {i : Tk} {k : Nat} {n : Tk} {w rest : Str} : Best tb R text i k → i ∈ Pat.ignored → 0 < k →
      Lexes tb R (text.drop k) n w rest → Lexes tb R text n w rest

theorem Best.wins {tb : Pat.Table} {R : List Tk} {text : Str} {n : Tk} {k : Nat} (h : Best tb R text n k) {input : Str} {pos : Nat}
    (he : input.drop pos = text) : Wins (Pat.lexer tb) R input pos n k := by
  obtain ⟨pre, r, post, e, ha, hm, h1, h2⟩ := h
  refine ⟨pre.map fun p => (p.1, p.2.pattern), r.pattern, post.map fun p => (p.1, p.2.pattern), ?_, ha, ?_, ?_, ?_⟩
  · simp [Pat.lexer, e]
  · rw [Rx.pattern, he]; exact hm
  · intro q hq hp j hj
    obtain ⟨q', hq', rfl⟩ := List.mem_map.1 hq
    exact h1 q' hq' hp j (by rw [← he]; exact hj)
  · intro q hq hp j hj
    obtain ⟨q', hq', rfl⟩ := List.mem_map.1 hq
    exact h2 q' hq' hp j (by rw [← he]; exact hj)

theorem slice_take (input : Str) (a k : Nat) : slice input a (a + k) = (input.drop a).take k := by
  rw [slice, List.drop_take]
  congr 1
  omega

theorem Best.le {tb : Pat.Table} {R : List Tk} {text : Str} {n : Tk} {k : Nat} (h : Best tb R text n k) : k ≤ text.length := by
  obtain ⟨pre, r, post, e, ha, hm, h1, h2⟩ := h
  exact lens_le _ _ _ (mem_of_matchLen hm)

theorem drop_take_length (text : Str) (k : Nat) (h : k ≤ text.length) : (text.take k).length + (text.drop k).length = text.length := by
  simp; omega

theorem Lexes.length {tb : Pat.Table} {R : List Tk} {text : Str} {n : Tk} {w rest : Str} (h : Lexes tb R text n w rest) :
    w.length + rest.length ≤ text.length := by
  induction h with
  | tok hb hn => exact Nat.le_of_eq (drop_take_length _ _ hb.le)
  | skip hb hi hk hl ih =>
    refine Nat.le_trans ih ?_
    simp

/-- The state of the scanner after the next token. -/
theorem scanLoop_lexes {tb : Pat.Table} {R : List Tk} {text : Str} {n : Tk} {w rest : Str} (h : Lexes tb R text n w rest) :
    ∀ (fuel : Nat) (s : Scanner Tk), s.input.drop s.pos = text → s.pos ≤ s.input.length → text.length < fuel →
    ∃ a, s.pos ≤ a ∧ a + w.length ≤ s.input.length ∧ s.input.drop (a + w.length) = rest ∧
      scanLoop (Pat.lexer tb) R fuel s = ({ s with pos := a + w.length }.push ⟨a, a + w.length, n, w⟩ R, .ok ()) := by
  induction h with
  | @tok text n k hb hn =>
    intro fuel s he hp hf
    cases fuel with
    | zero => omega
    | succ fuel =>
      have hk := hb.le
      have hl : (text.take k).length = k := by simp; omega
      have hlen : text.length = s.input.length - s.pos := by rw [← he]; simp
      refine ⟨s.pos, Nat.le_refl _, by omega, by rw [hl, ← he, List.drop_drop], ?_⟩
      rw [scanLoop, wins_search (hb.wins he)]
      simp only
      rw [if_pos (by exact hn), slice_take, he, hl]
  | @skip text i k n w rest hb hi hk hl ih =>
    intro fuel s he hp hf
    cases fuel with
    | zero => omega
    | succ fuel =>
      have hkl := hb.le
      have hlen : text.length = s.input.length - s.pos := by rw [← he]; simp
      obtain ⟨a, h1, h2, h3, h4⟩ := ih fuel { s with pos := s.pos + k } (by rw [← he, List.drop_drop])
        (by simp only; omega) (by simp; omega)
      refine ⟨a, by simp only at h1; omega, h2, h3, ?_⟩
      rw [scanLoop, wins_search (hb.wins he)]
      simp only
      rw [if_neg (by simpa [Pat.lexer] using hi), h4]

/-- Nothing has been looked at beyond what was consumed; `rest` is still to be read. -/
structure Ready (p : PState) (rest : Str) : Prop where
  tokens : p.scan.tokens.length = p.pos
  restr : p.scan.restrictions.length = p.pos
  inside : p.scan.pos ≤ p.scan.input.length
  rest : p.scan.input.drop p.scan.pos = rest
  last : ∀ t, p.scan.tokens.getLast? = some t → t.start < p.scan.pos

/-- The token `w`, of the name `n`, has been looked at on a request for `R`, but not consumed; `rest` follows it. -/
structure Peeked (p : PState) (R : List Tk) (n : Tk) (w rest : Str) : Prop where
  tokens : ∃ a, p.scan.tokens[p.pos]? = some ⟨a, a + w.length, n, w⟩ ∧ (w ≠ [] → a < p.scan.pos)
  restr : p.scan.restrictions[p.pos]? = some R
  tlen : p.scan.tokens.length = p.pos + 1
  rlen : p.scan.restrictions.length = p.pos + 1
  inside : p.scan.pos ≤ p.scan.input.length
  rest : p.scan.input.drop p.scan.pos = rest

theorem ready_start (text : Str) : Ready { scan := { input := text } } text :=
  ⟨rfl, rfl, Nat.zero_le _, rfl, by simp⟩

variable [CaseFold]

/-- The request for a token that has not been looked at. -/
theorem token_ready {tb : Pat.Table} {R : List Tk} {p : PState} {text : Str} {n : Tk} {w rest : Str} (hr : Ready p text)
    (h : Lexes tb R text n w rest) :
    ∃ s a, p.scan.token (Pat.lexer tb) p.pos R = (s, .ok ⟨a, a + w.length, n, w⟩) ∧
      Peeked { p with scan := s } R n w rest := by
  obtain ⟨a, h1, h2, h3, h4⟩ := scanLoop_lexes h (p.scan.input.length + 1) p.scan hr.rest hr.inside
    (by rw [← hr.rest]; simp; omega)
  have hpush : ({ p.scan with pos := a + w.length } : Scanner Tk).push ⟨a, a + w.length, n, w⟩ R =
      { p.scan with pos := a + w.length, tokens := p.scan.tokens ++ [⟨a, a + w.length, n, w⟩],
                    restrictions := p.scan.restrictions ++ [R] } := by
    rw [push, if_pos]
    right
    intro hl
    have := hr.last _ hl
    simp only at this
    omega
  rw [hpush] at h4
  refine ⟨{ p.scan with pos := a + w.length, tokens := p.scan.tokens ++ [⟨a, a + w.length, n, w⟩],
                        restrictions := p.scan.restrictions ++ [R] }, a, ?_, ?_⟩
  · rw [token, if_pos hr.tokens.symm, Scanner.scan, h4]
    have e1 : (p.scan.tokens ++ [(⟨a, a + w.length, n, w⟩ : Token Tk)])[p.pos]? = some ⟨a, a + w.length, n, w⟩ := by
      simp [← hr.tokens]
    have e2 : (p.scan.restrictions ++ [R])[p.pos]? = some R := by simp [← hr.restr]
    simp only [fetch, e1, e2]
    have e3 : R.any (fun x => decide (x ∉ R)) = false := by simp
    rw [e3]
    simp
  · refine ⟨⟨a, ?_, ?_⟩, ?_, ?_, ?_, ?_, ?_⟩
    · simp [← hr.tokens]
    · intro hw
      have : 0 < w.length := List.length_pos_iff.2 hw
      simp only
      omega
    · simp [← hr.restr]
    · simp [hr.tokens]
    · simp [hr.restr]
    · exact h2
    · exact h3

/-- The request for a token that has been looked at. -/
theorem token_peeked {tb : Pat.Table} {R R' : List Tk} {p : PState} {n : Tk} {w rest : Str} (hp : Peeked p R n w rest)
    (hs : R' = [] ∨ R' ⊆ R) : ∃ a, p.scan.token (Pat.lexer tb) p.pos R' = (p.scan, .ok ⟨a, a + w.length, n, w⟩) := by
  obtain ⟨a, ha, -⟩ := hp.tokens
  refine ⟨a, ?_⟩
  rw [token, if_neg (by rw [hp.tlen]; omega), fetch, ha, hp.restr]
  simp only
  rcases hs with rfl | hs
  · simp
  · rw [if_neg (c := (R'.any _ = true))]
    · simp
    · simp only [List.any_eq_true, decide_eq_true_eq]
      rintro ⟨x, hx, hx'⟩
      exact hx' (hs hx)

open Reader

theorem peek_ready {tb : Pat.Table} {R : List Tk} {p : PState} {text : Str} {n : Tk} {w rest : Str} (hr : Ready p text)
    (h : Lexes tb R text n w rest) : ∃ p', peek (Pat.lexer tb) R p = .ok (n, p') ∧ Peeked p' R n w rest := by
  obtain ⟨s, a, h1, h2⟩ := token_ready hr h
  exact ⟨_, by rw [peek, h1], h2⟩

/-- A text has one next token. -/
theorem Lexes.unique {tb : Pat.Table} {R : List Tk} {text : Str} {n n' : Tk} {w w' rest rest' : Str} (h : Lexes tb R text n w rest)
    (h' : Lexes tb R text n' w' rest') : n = n' ∧ w = w' ∧ rest = rest' := by
  obtain ⟨p, h1, h2⟩ := peek_ready (ready_start text) h
  obtain ⟨p', h1', h2'⟩ := peek_ready (ready_start text) h'
  rw [h1] at h1'
  simp only [Except.ok.injEq, Prod.mk.injEq] at h1'
  obtain ⟨rfl, rfl⟩ := h1'
  obtain ⟨a, ha, -⟩ := h2.tokens
  obtain ⟨a', ha', -⟩ := h2'.tokens
  rw [ha] at ha'
  simp only [Option.some.injEq, Token.mk.injEq, true_and] at ha'
  exact ⟨rfl, ha'.2.2, h2.rest.symm.trans h2'.rest⟩

theorem peek_peeked {tb : Pat.Table} {R R' : List Tk} {p : PState} {n : Tk} {w rest : Str} (hp : Peeked p R n w rest)
    (hs : R' = [] ∨ R' ⊆ R) : peek (Pat.lexer tb) R' p = .ok (n, p) := by
  obtain ⟨a, h⟩ := token_peeked (tb := tb) hp hs
  rw [peek, h]

theorem ready_of_peeked {p : PState} {R : List Tk} {n : Tk} {w rest : Str} (hp : Peeked p R n w rest) (hw : w ≠ []) :
    Ready { p with pos := p.pos + 1 } rest := by
  refine ⟨hp.tlen, hp.rlen, hp.inside, hp.rest, ?_⟩
  intro t ht
  obtain ⟨a, ha, hlt⟩ := hp.tokens
  rw [List.getLast?_eq_getElem?] at ht
  have : p.scan.tokens.length - 1 = p.pos := by rw [hp.tlen]; omega
  simp only [this] at ht
  rw [ha] at ht
  cases ht
  exact hlt hw

theorem take_peeked {tb : Pat.Table} {R : List Tk} {p : PState} {n : Tk} {w rest : Str} (hp : Peeked p R n w rest)
    (hs : n ∈ R) : take (Pat.lexer tb) n p = .ok (w, { p with pos := p.pos + 1 }) := by
  obtain ⟨a, h⟩ := token_peeked (tb := tb) (R' := [n]) hp (.inr (by simpa using hs))
  rw [take, h]
  simp

theorem take_ready {tb : Pat.Table} {p : PState} {text : Str} {n : Tk} {w rest : Str} (hr : Ready p text)
    (h : Lexes tb [n] text n w rest) (hw : w ≠ []) : ∃ p', take (Pat.lexer tb) n p = .ok (w, p') ∧ Ready p' rest := by
  obtain ⟨s, a, h1, h2⟩ := token_ready hr h
  refine ⟨_, ?_, ready_of_peeked h2 hw⟩
  rw [take, h1]
  simp

theorem afterStar_peeked {tb : Pat.Table} {R F : List Tk} {p : PState} {n : Tk} {w rest : Str} (hp : Peeked p R n w rest)
    (hs : n ∈ F) : afterStar (Pat.lexer tb) F p = .ok p := by
  rw [afterStar, peek_peeked hp (.inl rfl)]
  simp [hs]

end Verif.Lex
