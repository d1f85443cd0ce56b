import Verif.Lemmas.Regex
import Verif.Lemmas.Scan
import Verif.Model.ReadStar
/-! # Every rule of the parsers consumes text, and what it may raise -/
set_option linter.unusedSectionVars false

namespace Verif
open Scanner

/-- A sufficient condition for a pattern not to match the empty text. -/
def Rx.solid : Rx → Bool
  | .cls _ => true
  | .seq a b => a.solid || b.solid
  | .alt a b => a.solid && b.solid
  | _ => false

theorem Rx.solid_pos : ∀ {r : Rx}, r.solid = true → ∀ s, (0 : Nat) ∉ Rx.lens r s
  | .cls p, _, s, h => by have := cls_pos h; omega
  | .seq a b, h, s, h0 => by
    simp only [Rx.lens, List.mem_flatMap, List.mem_map] at h0
    obtain ⟨k, hk, j, hj, e⟩ := h0
    have h1 : k = 0 := by omega
    have h2 : j = 0 := by omega
    subst h1
    subst h2
    simp only [Rx.solid, Bool.or_eq_true] at h
    rcases h with h | h
    · exact Rx.solid_pos h _ hk
    · exact Rx.solid_pos h _ hj
  | .alt a b, h, s, h0 => by
    simp only [Rx.solid, Bool.and_eq_true] at h
    simp only [Rx.lens, List.mem_append] at h0
    rcases h0 with h0 | h0
    · exact Rx.solid_pos h.1 _ h0
    · exact Rx.solid_pos h.2 _ h0

/-- Of the patterns of a scanner, only the one for the end may match the empty text. -/
structure Sound (lx : Lexer Tk) : Prop where
  inside : Inside lx
  solid : Solid lx
  firm : ∀ p ∈ lx.patterns, p.1 ≠ .fin → ∀ input pos, p.2 input pos ≠ some 0

theorem sound_table {t : Pat.Table} (hu : Pat.Usual t) (h : (t.all fun p => decide (p.1 = .fin) || p.2.solid) = true) :
    Sound (Pat.lexer t) := by
  refine ⟨Pat.lexer_inside t, Pat.lexer_solid hu, ?_⟩
  intro p hp hn input pos hz
  simp only [Pat.lexer, List.mem_map] at hp
  obtain ⟨q, hq, rfl⟩ := hp
  rw [List.all_eq_true] at h
  have := h q hq
  simp only [Bool.or_eq_true, decide_eq_true_eq] at this
  rcases this with h' | h'
  · exact hn h'
  · exact Rx.solid_pos h' _ (Rx.mem_of_matchLen hz)

theorem sound_table1 (f : Char → Bool) : Sound (Pat.lexer (Pat.table1 f)) := sound_table (Pat.usual_table1 f) rfl

theorem sound_table2 (b : Bool) : Sound (Pat.lexer (Pat.table2 b)) := by
  cases b
  · exact sound_table (Pat.usual_table2 false) rfl
  · exact sound_table (Pat.usual_table2 true) rfl

namespace Reader

/-- The text is what the pattern called `ty` matches somewhere in the input. -/
def Matched (lx : Lexer Tk) (input : Str) (ty : Tk) (x : Str) : Prop :=
  ∃ f pos k, (ty, f) ∈ lx.patterns ∧ f input pos = some k ∧ x = slice input pos (pos + k)

/-- What holds of a parser at all times: at most one token has been looked at and not consumed. -/
structure Ok (lx : Lexer Tk) (input : Str) (p : PState) : Prop where
  inp : p.scan.input = input
  pos : p.scan.pos ≤ input.length
  len : p.scan.restrictions.length = p.scan.tokens.length
  cnt : p.scan.tokens.length = p.pos ∨ ∃ t f, p.scan.tokens.length = p.pos + 1 ∧ p.scan.tokens[p.pos]? = some t ∧
    (t.name, f) ∈ lx.patterns ∧ t.start ≤ t.stop ∧ t.stop = p.scan.pos ∧ f input t.start = some (t.stop - t.start) ∧
    t.text = slice input t.start t.stop

/-- The number of characters still to be consumed. -/
def rest (p : PState) : Nat :=
  match p.scan.tokens[p.pos]? with
  | some t => p.scan.input.length - t.start
  | none => p.scan.input.length - p.scan.pos

/-- A request for `L` is no wider than the one that has been made for the next token. -/
def Wide (p : PState) (L : List Tk) : Prop := ∀ R, p.scan.restrictions[p.pos]? = some R → R = [] ∨ ∀ x ∈ L, x ∈ R

/-- Nothing has been looked at beyond what was consumed. -/
def Clean (p : PState) : Prop := p.scan.tokens.length = p.pos

theorem Wide.sub {p : PState} {L L' : List Tk} (h : Wide p L) (hs : ∀ x ∈ L', x ∈ L) : Wide p L' := by
  intro R hR
  rcases h R hR with h | h
  · exact .inl h
  · exact .inr fun x hx => h x (hs x hx)

theorem Clean.wide {lx : Lexer Tk} {input : Str} {p : PState} (h : Clean p) (ho : Ok lx input p) (L : List Tk) : Wide p L := by
  intro R hR
  have : p.pos < p.scan.restrictions.length := by
    rw [List.getElem?_eq_some_iff] at hR
    exact hR.1
  rw [ho.len, h] at this
  omega

theorem ok_start (lx : Lexer Tk) (text : Str) : Ok lx text { scan := { input := text } } :=
  ⟨rfl, Nat.zero_le _, rfl, .inl rfl⟩

/-- Errors of the scanner that the caller expects. -/
def Syn (e : PyErr) : Prop := e = .syntax ∨ e = .tokens

theorem fetch_good {s : Scanner Tk} {i : Nat} {R : List Tk} (hw : ∀ L, s.restrictions[i]? = some L → L = [] ∨ ∀ x ∈ R, x ∈ L) :
    (s.fetch i R = .error .tokens) ∨ ∃ t, s.tokens[i]? = some t ∧ s.fetch i R = .ok t := by
  unfold fetch
  cases h1 : s.tokens[i]? with
  | none => exact .inl rfl
  | some t =>
    cases h2 : s.restrictions[i]? with
    | none => exact .inl rfl
    | some L =>
      right
      refine ⟨t, rfl, ?_⟩
      simp only
      split
      · rename_i hc
        rw [if_neg]
        rcases hw L h2 with h | h
        · exact absurd h hc.2
        · simpa using h
      · rfl

/-- A request for the next token. -/
theorem token_good {lx : Lexer Tk} (hs : Sound lx) {input : Str} {p : PState} (hp : Ok lx input p) {R : List Tk} (hw : Wide p R)
    {s : Scanner Tk} {r : Except PyErr (Token Tk)} (h : p.scan.token lx p.pos R = (s, r)) :
    (∃ e, r = .error e ∧ Syn e) ∨ ∃ t, r = .ok t ∧ s.tokens[p.pos]? = some t ∧ s.tokens.length = p.pos + 1 ∧
      Ok lx input { p with scan := s } ∧ rest { p with scan := s } ≤ rest p ∧ Wide { p with scan := s } R ∧
      (R = [] → ∀ L, Wide p L → Wide { p with scan := s } L) := by
  obtain ⟨hinp, hpos, hlen, hcnt⟩ := hp
  unfold token at h
  by_cases hi : p.pos = p.scan.tokens.length
  · rw [if_pos hi] at h
    cases hsc : p.scan.scan lx R with
    | mk s1 r1 =>
      rw [hsc] at h
      have hfuel : (p.scan.scan lx R).2 ≠ .error .depth :=
        scanLoop_fuel hs.inside hs.solid _ _ (by rw [hinp]; exact hpos) (by omega)
      obtain ⟨q, hsk, hr⟩ := scanLoop_spec lx R _ p.scan s1 r1 hsc
      have hq : q ≤ input.length := hinp ▸ hsk.inside hs.inside (by rw [hinp]; exact hpos)
      have hle : p.scan.pos ≤ q := hsk.blank.le
      rcases hr with ⟨rfl, n, k, hw', hn, he⟩ | ⟨rfl, -, -⟩ | ⟨rfl, -⟩
      · obtain ⟨pre, f, post, e, -, hf, -⟩ := hw'
        have hm : (n, f) ∈ lx.patterns := by rw [e]; simp
        rw [hinp] at hf
        have hk := hs.inside _ hm _ _ _ hf hq
        simp only [Prod.mk.injEq] at h
        obtain ⟨rfl, rfl⟩ := h
        by_cases hc : p.scan.tokens = [] ∨ p.scan.tokens.getLast? ≠ some ⟨q, q + k, n, slice p.scan.input q (q + k)⟩
        · have he' : s1 = { p.scan with pos := q + k, tokens := p.scan.tokens ++ [⟨q, q + k, n, slice p.scan.input q (q + k)⟩],
                                        restrictions := p.scan.restrictions ++ [R] } := by
            rw [he, push, if_pos hc]
          have e1 : s1.tokens[p.pos]? = some ⟨q, q + k, n, slice p.scan.input q (q + k)⟩ := by
            rw [he']; simp [hi]
          have e2 : s1.restrictions[p.pos]? = some R := by
            rw [he']; simp [hi, hlen]
          have hww : ∀ L, s1.restrictions[p.pos]? = some L → L = [] ∨ ∀ x ∈ R, x ∈ L := by
            intro L hL
            rw [e2] at hL
            cases hL
            exact .inr fun x hx => hx
          have hl1 : s1.tokens.length = p.pos + 1 := by rw [he', hi]; simp
          rcases fetch_good hww with hf' | ⟨t, ht, hf'⟩
          · exact .inl ⟨_, hf', .inr rfl⟩
          · right
            refine ⟨t, hf', ht, hl1, ⟨?_, ?_, ?_, ?_⟩, ?_, hww, ?_⟩
            · rw [he']; exact hinp
            · rw [he']; exact hk
            · rw [he']; simp [hlen]
            · right
              refine ⟨_, f, hl1, e1, hm, ?_, ?_, ?_, ?_⟩
              · simp
              · rw [he']
              · simpa using hf
              · simp [hinp]
            · unfold rest
              have e0 : p.scan.tokens[p.pos]? = none := by rw [hi]; simp
              simp only [e1, e0]
              rw [he']
              simp only
              omega
            · intro hR L _ L' hL'
              simp only at hL'
              rw [e2] at hL'
              cases hL'
              exact .inl hR
        · have he' : s1.tokens = p.scan.tokens ∧ s1.restrictions = p.scan.restrictions := by
            rw [he, push, if_neg hc]
            exact ⟨rfl, rfl⟩
          left
          refine ⟨.tokens, ?_, .inr rfl⟩
          unfold fetch
          rw [he'.1, hi]
          simp
      · simp only [Prod.mk.injEq] at h
        exact .inl ⟨_, h.2.symm, .inl rfl⟩
      · rw [hsc] at hfuel
        exact absurd rfl hfuel
  · rw [if_neg hi] at h
    simp only [Prod.mk.injEq] at h
    obtain ⟨rfl, rfl⟩ := h
    rcases fetch_good hw with hf' | ⟨t, ht, hf'⟩
    · exact .inl ⟨_, hf', .inr rfl⟩
    · right
      refine ⟨t, hf', ht, ?_, ⟨hinp, hpos, hlen, hcnt⟩, Nat.le_refl _, hw, fun _ _ h => h⟩
      rcases hcnt with h | ⟨_, _, h, _⟩
      · exact absurd h.symm hi
      · exact h

/-- How a rule of a parser ends: with an error of one kind, or having consumed at least `k` characters. -/
def Out {α : Type} (lx : Lexer Tk) (input : Str) (E : PyErr → Prop) (k : Nat) (p : PState) (Q : α → PState → Prop)
    (r : Except PyErr (α × PState)) : Prop :=
  (∃ e, r = .error e ∧ E e) ∨ ∃ a p', r = .ok (a, p') ∧ Ok lx input p' ∧ rest p' + k ≤ rest p ∧ Q a p'

@[elab_as_elim]
theorem Out.elim {α : Type} {lx : Lexer Tk} {input : Str} {E : PyErr → Prop} {k : Nat} {p : PState} {Q : α → PState → Prop}
    {G : Except PyErr (α × PState) → Prop} {r : Except PyErr (α × PState)} (h : Out lx input E k p Q r)
    (he : ∀ e, E e → G (.error e)) (ho : ∀ a p', Ok lx input p' → rest p' + k ≤ rest p → Q a p' → G (.ok (a, p'))) : G r := by
  rcases h with ⟨e, rfl, h⟩ | ⟨a, p', rfl, h1, h2, h3⟩
  · exact he e h
  · exact ho a p' h1 h2 h3

theorem Out.err {α : Type} {lx : Lexer Tk} {input : Str} {E : PyErr → Prop} {k : Nat} {p : PState} {Q : α → PState → Prop} (e : PyErr)
    (h : E e) : Out lx input E k p Q (.error e : Except PyErr (α × PState)) := .inl ⟨e, rfl, h⟩

theorem Out.ok {α : Type} {lx : Lexer Tk} {input : Str} {E : PyErr → Prop} {k : Nat} {p : PState} {Q : α → PState → Prop} {a : α}
    {p' : PState} (h1 : Ok lx input p') (h2 : rest p' + k ≤ rest p) (h3 : Q a p') :
    Out lx input E k p Q (.ok (a, p') : Except PyErr (α × PState)) := .inr ⟨a, p', rfl, h1, h2, h3⟩

theorem Out.mono {α : Type} {lx : Lexer Tk} {input : Str} {E E' : PyErr → Prop} {k k' : Nat} {p p0 : PState} {Q Q' : α → PState → Prop}
    {r : Except PyErr (α × PState)} (h : Out lx input E k p Q r) (hE : ∀ e, E e → E' e) (hk : rest p + k' ≤ rest p0 + k)
    (hQ : ∀ a p', Ok lx input p' → Q a p' → Q' a p') : Out lx input E' k' p0 Q' r := by
  refine h.elim (fun e he => .err e (hE e he)) fun a p' h1 h2 h3 => .ok h1 (by omega) (hQ a p' h1 h3)

section
variable {lx : Lexer Tk} (hs : Sound lx) {input : Str}
include hs

theorem peek_out {p : PState} (hp : Ok lx input p) {R : List Tk} (hw : Wide p R) :
    Out lx input Syn 0 p (fun _ p' => Wide p' R) (peek lx R p) := by
  unfold peek
  cases h : p.scan.token lx p.pos R with
  | mk s r =>
    rcases token_good hs hp hw h with ⟨e, rfl, he⟩ | ⟨t, rfl, -, -, h1, h2, h3, -⟩
    · exact .err e he
    · exact .ok h1 h2 h3

theorem afterStar_out {p : PState} (hp : Ok lx input p) {F : List Tk} {L : List Tk} (hw : Wide p L) :
    (∃ e, afterStar lx F p = .error e ∧ Syn e) ∨ ∃ p', afterStar lx F p = .ok p' ∧ Ok lx input p' ∧ rest p' ≤ rest p ∧ Wide p' L := by
  have hn : Wide p [] := fun R _ => .inr (by simp)
  unfold afterStar peek
  cases h : p.scan.token lx p.pos [] with
  | mk s r =>
    rcases token_good hs hp hn h with ⟨e, rfl, he⟩ | ⟨t, rfl, -, -, h1, h2, -, h3⟩
    · exact .inl ⟨e, rfl, he⟩
    · simp only
      split
      · exact .inr ⟨_, rfl, h1, h2, h3 rfl L hw⟩
      · exact .inl ⟨_, rfl, .inl rfl⟩

theorem take_any {p : PState} (hp : Ok lx input p) {ty : Tk} (hw : Wide p [ty]) :
    Out lx input Syn 0 p (fun x p' => Clean p' ∧ Matched lx input ty x ∧ (ty ≠ .fin → rest p' + 1 ≤ rest p)) (take lx ty p) := by
  unfold take
  cases h : p.scan.token lx p.pos [ty] with
  | mk s r =>
    rcases token_good hs hp hw h with ⟨e, rfl, he⟩ | ⟨t, rfl, ht, hl, h1, h2, -, -⟩
    · exact .err e he
    · simp only
      split
      · exact .err _ (.inl rfl)
      · rename_i hn
        have hn : t.name = ty := Classical.not_not.1 hn
        obtain ⟨hinp, hpos, hlen, hcnt⟩ := h1
        simp only at hinp hpos hlen hcnt
        have hclean : Clean { scan := s, pos := p.pos + 1 } := hl
        have hnone : s.tokens[p.pos + 1]? = none := by
          rw [List.getElem?_eq_none_iff]; omega
        rcases hcnt with hc | ⟨t', f, -, ht', hm, hle, hst, hf, htx⟩
        · omega
        · rw [ht] at ht'
          cases ht'
          have hr : rest { p with scan := s } = input.length - t.start := by
            unfold rest; simp only [ht, hinp]
          have hr' : rest { scan := s, pos := p.pos + 1 } = input.length - s.pos := by
            unfold rest; simp only [hnone, hinp]
          have hfirm : ty ≠ .fin → t.start < t.stop := by
            intro hf'
            have := hs.firm _ hm (by simp only; rw [hn]; exact hf') input t.start
            rcases Nat.lt_or_ge t.start t.stop with h | h
            · exact h
            · have e : t.stop - t.start = 0 := by omega
              rw [e] at hf
              exact absurd hf this
          refine .ok ⟨hinp, hpos, hlen, .inl hl⟩ (by omega) ⟨hclean, ?_, ?_⟩
          · refine ⟨f, t.start, t.stop - t.start, hn ▸ hm, hf, ?_⟩
            rw [htx]
            congr 1
            omega
          · intro h'
            have := hfirm h'
            omega

theorem take_out {p : PState} (hp : Ok lx input p) {ty : Tk} (hw : Wide p [ty]) (hf : ty ≠ .fin) :
    Out lx input Syn 1 p (fun x p' => Clean p' ∧ Matched lx input ty x) (take lx ty p) := by
  refine (take_any hs hp hw).elim (fun e he => .err e he) fun x p' h1 _ h3 => .ok h1 (h3.2.2 hf) ⟨h3.1, h3.2.1⟩

end
end Reader
end Verif
