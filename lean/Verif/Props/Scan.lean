import Verif.Lemmas.Scan
import Verif.Lemmas.Regex
/-! # C06, C07: the scanner -/
set_option linter.unusedSectionVars false
namespace Verif.Scanner
variable {N : Type} [DecidableEq N]

/-! ## C06 -/

theorem fetch_last {s : Scanner N} {t : Token N} {R : List N} {i : Nat} (hl : s.restrictions.length = s.tokens.length)
    (hi : i = s.tokens.length) :
    fetch { s with tokens := s.tokens ++ [t], restrictions := s.restrictions ++ [R] } i R = .ok t := by
  subst hi
  unfold fetch
  have h1 : (s.tokens ++ [t])[s.tokens.length]? = some t := by simp
  have h2 : (s.restrictions ++ [R])[s.tokens.length]? = some R := by rw [← hl]; simp
  simp only [h1, h2]
  by_cases hR : R = []
  · rw [if_neg (by simp [hR])]
  · rw [if_pos ⟨hR, hR⟩, if_neg]
    simp

/-- **C06.** After any history, a token delivered for a new position is the winner among the permitted patterns: the text
skipped before it is a row of ignored winners, no permitted pattern matches more at its place, and those listed earlier
match less. The name is one of those asked for, and the text is what stands there. -/
theorem C06_longest {lx : Lexer N} {input : Str} {s s' : Scanner N} {R : List N} {t : Token N} (hs : Reachable lx input s)
    (h : s.token lx s.tokens.length R = (s', .ok t)) :
    Skipped lx R input s.pos t.start ∧ Wins lx R input t.start t.name (t.stop - t.start) ∧ t.start ≤ t.stop ∧
    (R = [] ∨ t.name ∈ R) ∧ t.name ∉ lx.ignore ∧ t.text = slice input t.start t.stop ∧ s'.pos = t.stop ∧
    s'.tokens = s.tokens ++ [t] := by
  have hi := hs.inv
  unfold token at h
  rw [if_pos rfl] at h
  obtain ⟨s1, r, h1⟩ : ∃ s1 r, s.scan lx R = (s1, r) := ⟨_, _, rfl⟩
  rw [h1] at h
  obtain ⟨p, hsk, hr⟩ := scanLoop_spec lx R _ s s1 r h1
  rcases hr with ⟨rfl, n, k, hw, hn, rfl⟩ | ⟨rfl, -⟩ | ⟨rfl, -⟩
  · simp only [Prod.mk.injEq] at h
    obtain ⟨rfl, h⟩ := h
    by_cases hc : s.tokens = [] ∨ s.tokens.getLast? ≠ some ⟨p, p + k, n, slice s.input p (p + k)⟩
    · have e : ({ s with pos := p + k } : Scanner N).push ⟨p, p + k, n, slice s.input p (p + k)⟩ R =
        { input := s.input, pos := p + k, tokens := s.tokens ++ [⟨p, p + k, n, slice s.input p (p + k)⟩],
          restrictions := s.restrictions ++ [R] } := by
        unfold push
        rw [if_pos hc]
      rw [e] at h ⊢
      have hf := fetch_last (s := { s with pos := p + k }) (t := ⟨p, p + k, n, slice s.input p (p + k)⟩) (R := R) hi.len rfl
      rw [hf] at h
      cases h
      rw [← hi.inp]
      refine ⟨hsk, ?_, Nat.le_add_right _ _, ?_, hn, rfl, rfl, rfl⟩
      · simp only [Nat.add_sub_cancel_left]
        exact hw
      · obtain ⟨_, _, _, _, hp, _⟩ := hw
        rcases hp with hp | hp | hp
        · exact .inl hp
        · exact .inr hp
        · exact absurd hp hn
    · unfold push at h
      rw [if_neg hc] at h
      unfold fetch at h
      simp at h
  · simp at h
  · simp at h

/-- **C06.** Conversely the winner after the ignored text is delivered, whatever the history, unless it is the token delivered
last over again (then there are no more tokens). -/
theorem C06_delivered {lx : Lexer N} {input : Str} {s : Scanner N} {R : List N} {p k : Nat} {n : N} (hs : Reachable lx input s)
    (hin : Inside lx) (hso : Solid lx) (hsk : Skipped lx R input s.pos p) (hw : Wins lx R input p n k) (hn : n ∉ lx.ignore)
    (hpos : s.pos ≤ input.length) :
    (s.token lx s.tokens.length R).2 =
      if s.tokens.getLast? = some ⟨p, p + k, n, slice input p (p + k)⟩ then .error .tokens
      else .ok ⟨p, p + k, n, slice input p (p + k)⟩ := by
  have hi := hs.inv
  unfold token
  rw [if_pos rfl]
  obtain ⟨s1, r, h1⟩ : ∃ s1 r, s.scan lx R = (s1, r) := ⟨_, _, rfl⟩
  rw [h1]
  have hd : (s.scan lx R).2 ≠ .error .depth := by
    apply scanLoop_fuel hin hso
    · rw [hi.inp]; exact hpos
    · rw [hi.inp]; omega
  obtain ⟨p', hsk', hr⟩ := scanLoop_spec lx R _ s s1 r h1
  rw [hi.inp] at hsk' hr
  rcases hr with ⟨rfl, m, j, hw', hm, rfl⟩ | ⟨rfl, hno, -⟩ | ⟨rfl, -⟩
  · obtain rfl := skipped_unique hsk hsk' (.inr ⟨n, k, hw, hn⟩) (.inr ⟨m, j, hw', hm⟩)
    obtain ⟨rfl, rfl⟩ := hw.unique hw'
    by_cases hc : s.tokens.getLast? = some ⟨p, p + k, n, slice input p (p + k)⟩
    · rw [if_pos hc]
      have hne : s.tokens ≠ [] := by
        intro e
        rw [e] at hc
        simp at hc
      unfold push
      rw [if_neg (by simp only; rintro (h | h); exact hne h; exact h hc)]
      unfold fetch
      simp
    · rw [if_neg hc]
      unfold push
      rw [if_pos (.inr hc)]
      exact fetch_last (s := { s with pos := p + k }) hi.len rfl
  · have := skipped_unique hsk hsk' (.inr ⟨n, k, hw, hn⟩) (.inl hno)
    subst this
    obtain ⟨pre, f, post, e, hp, hf, -⟩ := hw
    have hz : f input p = none := hno (n, f) (by rw [e]; simp) hp
    rw [hf] at hz
    cases hz
  · rw [h1] at hd
    exact absurd rfl hd

/-- **C06.** When nothing permitted matches after the ignored text, a syntax error is raised. -/
theorem C06_error {lx : Lexer N} {input : Str} {s : Scanner N} {R : List N} {p : Nat} (hs : Reachable lx input s)
    (hin : Inside lx) (hso : Solid lx) (hsk : Skipped lx R input s.pos p) (hno : NoMatch lx R input p)
    (hpos : s.pos ≤ input.length) : (s.token lx s.tokens.length R).2 = .error .syntax := by
  have hi := hs.inv
  unfold token
  rw [if_pos rfl]
  obtain ⟨s1, r, h1⟩ : ∃ s1 r, s.scan lx R = (s1, r) := ⟨_, _, rfl⟩
  rw [h1]
  have hd : (s.scan lx R).2 ≠ .error .depth := by
    apply scanLoop_fuel hin hso
    · rw [hi.inp]; exact hpos
    · rw [hi.inp]; omega
  obtain ⟨p', hsk', hr⟩ := scanLoop_spec lx R _ s s1 r h1
  rw [hi.inp] at hsk' hr
  rcases hr with ⟨rfl, m, j, hw', hm, rfl⟩ | ⟨rfl, hno', -⟩ | ⟨rfl, -⟩
  · have := skipped_unique hsk hsk' (.inl hno) (.inr ⟨m, j, hw', hm⟩)
    subst this
    obtain ⟨pre, f, post, e, hp, hf, -⟩ := hw'
    have hz : f input p = none := hno (m, f) (by rw [e]; simp) hp
    rw [hf] at hz
    cases hz
  · rfl
  · rw [h1] at hd
    exact absurd rfl hd

/-- **C06.** The scanning loop always ends, if no ignored pattern matches the empty text. -/
theorem C06_terminates {lx : Lexer N} {input : Str} {s : Scanner N} {R : List N} {i : Nat} (hs : Reachable lx input s)
    (hin : Inside lx) (hso : Solid lx) (hpos : s.pos ≤ input.length) : (s.token lx i R).2 ≠ .error .depth := by
  have hi := hs.inv
  have hf : ∀ s' : Scanner N, s'.fetch i R ≠ .error .depth := by
    intro s'
    unfold fetch
    split
    · split
      · split <;> simp
      · simp
    · simp
  unfold token
  split
  · have hd : (s.scan lx R).2 ≠ .error .depth := by
      apply scanLoop_fuel hin hso
      · rw [hi.inp]; exact hpos
      · rw [hi.inp]; omega
    obtain ⟨s1, r, h1⟩ : ∃ s1 r, s.scan lx R = (s1, r) := ⟨_, _, rfl⟩
    rw [h1] at hd ⊢
    cases r with
    | error e => simpa using hd
    | ok u => exact hf s1
  · exact hf s

/-- **C06.** A token that has been delivered is delivered again for the same position, without any effect, however often it is
asked for and however narrow the later question (never wider than the first one). -/
theorem C06_again {lx : Lexer N} {input : Str} {s : Scanner N} {R R' : List N} {t : Token N} {i : Nat} (_ : Reachable lx input s)
    (ht : s.tokens[i]? = some t) (hR : s.restrictions[i]? = some R) (hsub : R = [] ∨ ∀ r ∈ R', r ∈ R) :
    s.token lx i R' = (s, .ok t) := by
  have hlt : i < s.tokens.length := by
    rw [List.getElem?_eq_some_iff] at ht
    exact ht.1
  unfold token
  rw [if_neg (by omega)]
  unfold fetch
  rw [ht, hR]
  simp only
  split
  · rename_i hc
    rw [if_neg]
    rcases hsub with h | h
    · exact absurd h hc.2
    · simpa using h
  · rfl

/-- The lexers of the four grammars have the properties used above. -/
theorem grammars_ok (t : Pat.Table) (ht : t ∈ [Pat.table10, Pat.table11, Pat.table2 false, Pat.table2 true]) :
    Inside (Pat.lexer t) ∧ Solid (Pat.lexer t) := by
  refine ⟨Pat.lexer_inside t, Pat.lexer_solid ?_⟩
  simp only [List.mem_cons, List.not_mem_nil, or_false] at ht
  rcases ht with rfl | rfl | rfl | rfl
  · exact Pat.usual_table1 _
  · exact Pat.usual_table1 _
  · exact Pat.usual_table2 _
  · exact Pat.usual_table2 _

/-! ## C07 -/

/-- **C07.** After any sequence of requests for tokens, the text read so far is the delivered tokens in their order with the
skipped text between them, every skipped stretch being a row of matches of ignored patterns. -/
theorem C07_tiled {lx : Lexer N} {input : Str} {s : Scanner N} (hs : Reachable lx input s) :
    Tiled lx input 0 s.tokens s.pos := hs.inv.tiled

/-- **C07.** As an equation between texts. -/
theorem C07_text {lx : Lexer N} {input : Str} {s : Scanner N} (hs : Reachable lx input s) :
    ∃ skipped : List Str, skipped.length = s.tokens.length + 1 ∧
      input.take s.pos = weave skipped (s.tokens.map (·.text)) := by
  refine ⟨gaps input 0 s.tokens s.pos, gaps_length _ _ _ _, ?_⟩
  rw [← hs.inv.tiled.weave, slice_zero]

/-- **C07.** Token positions never decrease. -/
theorem C07_positions {lx : Lexer N} {input : Str} {s : Scanner N} (hs : Reachable lx input s) :
    (∀ t ∈ s.tokens, t.start ≤ t.stop ∧ t.stop ≤ s.pos ∧ t.text = slice input t.start t.stop) ∧
    s.tokens.Pairwise fun t u => t.stop ≤ u.start := by
  have h := hs.inv.tiled.pairwise
  refine ⟨fun t ht => ⟨(h.1 t ht).2.1, (h.1 t ht).2.2, ?_⟩, h.2⟩
  have : ∀ {p : Nat} {ts : List (Token N)} {q : Nat}, Tiled lx input p ts q → ∀ t ∈ ts, t.text = slice input t.start t.stop := by
    intro p ts
    induction ts generalizing p with
    | nil => simp
    | cons a ts ih =>
      intro q h t ht
      rcases List.mem_cons.1 ht with rfl | ht
      · exact h.2.2.1
      · exact ih h.2.2.2 t ht
  exact this hs.inv.tiled t ht

/-- **C07.** A request never takes back a token or moves backwards. -/
theorem C07_grows {lx : Lexer N} {input : Str} {s : Scanner N} (hs : Reachable lx input s) (i : Nat) (R : List N) :
    s.tokens <+: (s.token lx i R).1.tokens ∧ s.pos ≤ (s.token lx i R).1.pos := by
  refine ⟨(inv_token hs.inv).2, ?_⟩
  unfold token
  split
  · obtain ⟨s1, r, h1⟩ : ∃ s1 r, s.scan lx R = (s1, r) := ⟨_, _, rfl⟩
    rw [h1]
    have hp : s.pos ≤ s1.pos := by
      obtain ⟨p, hsk, hr⟩ := scanLoop_spec lx R _ s s1 r h1
      have := hsk.blank.le
      rcases hr with ⟨-, n, k, -, -, rfl⟩ | ⟨-, -, rfl⟩ | ⟨-, rfl⟩
      · rw [push_pos]; simp only; omega
      · exact this
      · exact this
    cases r <;> exact hp
  · exact Nat.le_refl _

/-! ## The hypotheses can be met -/

/-- A file with a comment. -/
def sample : Str := "data_a # c\n_x 'b c'\n".toList

/-- The state after three tokens. -/
def sampleState : Scanner Tk :=
  let lx := Pat.lexer Pat.table11
  let s0 : Scanner Tk := { input := sample }
  let s1 := (s0.token lx 0 [.fin, .dataHeading]).1
  let s2 := (s1.token lx 1 [.loop, .dataName, .saveHeading, .fin, .dataHeading]).1
  (s2.token lx 2 [.value, .startSc]).1

theorem sampleState_reachable : Reachable (Pat.lexer Pat.table11) sample sampleState :=
  .request _ 2 _ (.request _ 1 _ (.request _ 0 _ .start))

example : sampleState.tokens = [⟨0, 6, .dataHeading, "data_a".toList⟩, ⟨11, 13, .dataName, "_x".toList⟩,
    ⟨14, 19, .value, "'b c'".toList⟩] ∧ sampleState.pos = 19 := by decide +kernel

example : sample.take 19 = weave [[], " # c\n".toList, " ".toList, []] (sampleState.tokens.map (·.text)) := by decide +kernel

/-- A delivery, an error and the end. -/
example : (sampleState.token (Pat.lexer Pat.table11) 3 [.fin, .dataName]).2 = .ok ⟨20, 20, .fin, []⟩ := by decide +kernel

example : ((Scanner.mk "_a".toList 0 [] [] : Scanner Tk).token (Pat.lexer Pat.table11) 0 [.loop]).2 = .error .syntax := by
  decide +kernel

/-- Of two patterns with the same longest match the first one wins: `loop_` as a value is taken for the keyword. -/
example : ((Scanner.mk "loop_ x".toList 0 [] [] : Scanner Tk).token (Pat.lexer Pat.table11) 0 [.loop, .value]).2 =
    .ok ⟨0, 5, .loop, "loop_".toList⟩ := by decide +kernel

example : ((Scanner.mk "loop_a x".toList 0 [] [] : Scanner Tk).token (Pat.lexer Pat.table11) 0 [.loop, .value]).2 =
    .ok ⟨0, 6, .value, "loop_a".toList⟩ := by decide +kernel

end Verif.Scanner
