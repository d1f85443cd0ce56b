import Verif.Spec.DrelLayout
import Verif.Lemmas.DrelLexPut
import Verif.Lemmas.DrelProgram
/-! # Other spellings and layouts -/
namespace Verif
namespace Drel
open LR DrelPy

/-! ## Spellings -/

/-- What may be written for a token. -/
def Instead (k : Nat) (v : Val) (w : List (Tok Val)) : Prop :=
  w = [(k, v)] ∨ (k = K.and_ ∧ w = [tk K.badAnd "&&"]) ∨ (k = K.or_ ∧ w = [tk K.badOr "||"]) ∨
    (k = K.newline ∧ ∃ us : List Val, us ≠ [] ∧ w = us.map fun u => (K.newline, u))

theorem respelled_cons {k : Nat} {v : Val} {r w : List (Tok Val)} (h : Respelled ((k, v) :: r) w) : ∃ w₁ w₂, w = w₁ ++ w₂ ∧ Instead k v w₁ ∧ Respelled r w₂ := by
  cases h with
  | same _ h => exact ⟨[(k, v)], _, rfl, .inl rfl, h⟩
  | conj h => exact ⟨[_], _, rfl, .inr (.inl ⟨rfl, rfl⟩), h⟩
  | disj h => exact ⟨[_], _, rfl, .inr (.inr (.inl ⟨rfl, rfl⟩)), h⟩
  | lines _ us hu h => exact ⟨_, _, rfl, .inr (.inr (.inr ⟨rfl, us, hu, rfl⟩)), h⟩

theorem respelled_append : ∀ (a : List (Tok Val)) {b w : List (Tok Val)}, Respelled (a ++ b) w → ∃ w₁ w₂, w = w₁ ++ w₂ ∧ Respelled a w₁ ∧ Respelled b w₂
  | [], _, w, h => ⟨[], w, rfl, .nil, h⟩
  | (k, v) :: a, b, w, h => by
    cases h with
    | same _ h =>
      obtain ⟨w₁, w₂, rfl, h1, h2⟩ := respelled_append a h
      exact ⟨_ :: w₁, w₂, rfl, .same _ h1, h2⟩
    | conj h =>
      obtain ⟨w₁, w₂, rfl, h1, h2⟩ := respelled_append a h
      exact ⟨_ :: w₁, w₂, rfl, .conj h1, h2⟩
    | disj h =>
      obtain ⟨w₁, w₂, rfl, h1, h2⟩ := respelled_append a h
      exact ⟨_ :: w₁, w₂, rfl, .disj h1, h2⟩
    | lines _ us hu h =>
      obtain ⟨w₁, w₂, rfl, h1, h2⟩ := respelled_append a h
      exact ⟨_ ++ w₁, w₂, by rw [List.append_assoc], .lines v us hu h1, h2⟩

/-- The symbols derive the tokens when tokens are replaced. -/
def Alt : List Sym → List (Tok Val) → List Val → Prop
  | [], w, vs => w = [] ∧ vs = []
  | .t k :: xs, w, vs => ∃ v us w₁ w₂, vs = v :: us ∧ w = w₁ ++ w₂ ∧ Instead k v w₁ ∧ Alt xs w₂ us
  | .n a :: xs, w, vs => ∃ v us w₁ w₂, vs = v :: us ∧ w = w₁ ++ w₂ ∧ Phrase fineGrammar a w₁ v ∧ Alt xs w₂ us

/-- No token that may be replaced. -/
def firm : List Sym → Bool
  | [] => true
  | .t k :: xs => k != K.and_ && k != K.or_ && k != K.newline && firm xs
  | .n _ :: xs => firm xs

theorem alt_firm : ∀ {xs : List Sym} {w : List (Tok Val)} {vs : List Val}, firm xs = true → Alt xs w vs → Derives fineGrammar xs w vs
  | [], w, vs, _, h => by
    obtain ⟨rfl, rfl⟩ := h
    exact .nil
  | .t k :: xs, w, vs, hf, h => by
    obtain ⟨v, us, w₁, w₂, rfl, rfl, hi, h⟩ := h
    simp only [firm, Bool.and_eq_true, bne_iff_ne] at hf
    rcases hi with rfl | ⟨e, -⟩ | ⟨e, -⟩ | ⟨e, -⟩
    · exact tok_cons k v (alt_firm hf.2 h)
    · exact absurd e hf.1.1.1
    · exact absurd e hf.1.1.2
    · exact absurd e hf.1.2
  | .n a :: xs, w, vs, hf, h => by
    obtain ⟨v, us, w₁, w₂, rfl, rfl, hp, h⟩ := h
    exact phrase_cons hp (alt_firm hf h)

/-- The productions with such tokens. -/
def loose : List Fine :=
  [⟨N.orTest, [.n N.orTest, .t K.or_, .n N.andTest], 25⟩, ⟨N.andTest, [.n N.andTest, .t K.and_, .n N.notTest], 28⟩, ⟨N.newlines, [.t K.newline], 156⟩,
   ⟨N.newlines, [.n N.newlines, .t K.newline], 157⟩]

theorem fine_loose : fine.all (fun f => firm f.rhs || decide (f ∈ loose)) = true := by decide +kernel

theorem newlines_more {w : List (Tok Val)} (h : Phrase fineGrammar N.newlines w .none) : ∀ us : List Val,
    Phrase fineGrammar N.newlines (w ++ us.map fun u => (K.newline, u)) .none
  | [] => by simpa using h
  | u :: us => by
    have h1 : Phrase fineGrammar N.newlines (w ++ [(K.newline, u)]) .none := fine_newlines2 (phrase_cons h (tok_cons K.newline u .nil))
    have h2 := newlines_more h1 us
    simpa using h2

theorem newlines_phrase {us : List Val} (h : us ≠ []) : Phrase fineGrammar N.newlines (us.map fun u => (K.newline, u)) .none := by
  cases us with
  | nil => exact absurd rfl h
  | cons u us =>
    have h1 : Phrase fineGrammar N.newlines [(K.newline, u)] .none := fine_newlines1 (tok_cons K.newline u .nil)
    have := newlines_more h1 us
    simpa using this

theorem instead_newline {v : Val} {w : List (Tok Val)} (h : Instead K.newline v w) : ∃ us : List Val, us ≠ [] ∧ w = us.map fun u => (K.newline, u) := by
  rcases h with rfl | ⟨e, -⟩ | ⟨e, -⟩ | ⟨-, h⟩
  · exact ⟨[v], by simp, rfl⟩
  · cases e
  · cases e
  · exact h

theorem alt_one {a : Nat} {w : List (Tok Val)} {v : Val} : Alt [.n a] w [v] ↔ Phrase fineGrammar a w v := by
  constructor
  · rintro ⟨v', us, w₁, w₂, e, rfl, hp, rfl, rfl⟩
    injection e with e
    subst e
    rwa [List.append_nil]
  · intro h
    exact ⟨v, [], w, [], rfl, (List.append_nil w).symm, h, rfl, rfl⟩

/-- A production with tokens replaced. -/
theorem alt_rule {f : Fine} (hf : f ∈ fine) {w : List (Tok Val)} {us : List Val} (h : Alt f.rhs w us) : Phrase fineGrammar f.lhs w ((f.rule grammar).act us) := by
  have hl := List.all_eq_true.mp fine_loose f hf
  rw [Bool.or_eq_true, decide_eq_true_eq] at hl
  rcases hl with hl | hl
  · have hm : f.rule grammar ∈ fineGrammar := List.mem_map.mpr ⟨f, hf, rfl⟩
    have hd := Derives.rule (G := fineGrammar) hm (alt_firm hl h) .nil
    rw [List.append_nil] at hd
    exact hd
  · simp only [loose, List.mem_cons, List.not_mem_nil, or_false] at hl
    rcases hl with rfl | rfl | rfl | rfl
    · obtain ⟨a, us, w₁, w', rfl, rfl, h1, o, us, w₂, w', rfl, rfl, h2, b, us, w₃, w', rfl, rfl, h3, rfl, rfl⟩ := h
      show Phrase fineGrammar N.orTest _ (Act.binary .or [a, o, b])
      rcases h2 with rfl | ⟨e, -⟩ | ⟨-, rfl⟩ | ⟨e, -⟩
      · exact fine_orTest2 (phrase_cons h1 (tok_cons _ _ (phrase_cons (w' := []) h3 .nil)))
      · cases e
      · exact fine_orTest3 (us := [a, .str "||".toList, b]) (phrase_cons h1 (tok_cons _ _ (phrase_cons (w' := []) h3 .nil)))
      · cases e
    · obtain ⟨a, us, w₁, w', rfl, rfl, h1, o, us, w₂, w', rfl, rfl, h2, b, us, w₃, w', rfl, rfl, h3, rfl, rfl⟩ := h
      show Phrase fineGrammar N.andTest _ (Act.binary .and [a, o, b])
      rcases h2 with rfl | ⟨-, rfl⟩ | ⟨e, -⟩ | ⟨e, -⟩
      · exact fine_andTest2 (phrase_cons h1 (tok_cons _ _ (phrase_cons (w' := []) h3 .nil)))
      · exact fine_andTest3 (us := [a, .str "&&".toList, b]) (phrase_cons h1 (tok_cons _ _ (phrase_cons (w' := []) h3 .nil)))
      · cases e
      · cases e
    · obtain ⟨v, us, w₁, w', rfl, rfl, h1, rfl, rfl⟩ := h
      obtain ⟨us, hu, rfl⟩ := instead_newline h1
      rw [List.append_nil]
      exact newlines_phrase hu
    · obtain ⟨a, us, w₁, w', rfl, rfl, h0, v, us, w₂, w', rfl, rfl, h1, rfl, rfl⟩ := h
      obtain ⟨us, hu, rfl⟩ := instead_newline h1
      obtain ⟨u, us, rfl⟩ := List.exists_cons_of_ne_nil hu
      rw [List.append_nil]
      have h2 : Phrase fineGrammar N.newlines (w₁ ++ [(K.newline, u)]) .none := fine_newlines2 (phrase_cons h0 (tok_cons K.newline u .nil))
      have h3 := newlines_more h2 us
      rw [List.append_assoc] at h3
      exact h3

theorem alt_of {xs : List Sym} {toks : List (Tok Val)} {vs : List Val} (h : Derives fineGrammar xs toks vs) : ∀ w, Respelled toks w → Alt xs w vs := by
  induction h with
  | nil =>
    intro w hw
    cases hw
    exact ⟨rfl, rfl⟩
  | tok k v _ ih =>
    intro w hw
    obtain ⟨w₁, w₂, rfl, h1, h2⟩ := respelled_cons hw
    exact ⟨v, _, w₁, w₂, rfl, rfl, h1, ih w₂ h2⟩
  | rule hm _ _ ih₁ ih₂ =>
    intro w hw
    obtain ⟨w₁, w₂, rfl, h1, h2⟩ := respelled_append _ hw
    obtain ⟨f, hf, rfl⟩ := List.mem_map.mp hm
    exact ⟨_, _, w₁, w₂, rfl, rfl, alt_rule hf (ih₁ w₁ h1), ih₂ w₂ h2⟩

theorem respelled_phrase {a : Nat} {toks toks' : List (Tok Val)} {v : Val} (h : Phrase fineGrammar a toks v) (hr : Respelled toks toks') :
    Phrase fineGrammar a toks' v := alt_one.mp (alt_of h _ hr)

/-! ## Ends of lines at the start -/

/-- Nonterminals that may begin with ends of lines. -/
def leaders : List Nat := [N.input, N.maybeNline, N.newlines]

/-- Productions for these begin with one of them, or are of single ends of lines or of none. -/
theorem fine_leaders : fine.all (fun f => decide (f.lhs ∉ leaders) || leaders.any (fun a => f.rhs.head? == some (.n a)) ||
    decide (f ∈ [⟨N.maybeNline, [.n N.empty], 155⟩, ⟨N.newlines, [.t K.newline], 156⟩])) = true := by
  decide +kernel

theorem fine_empties : fine.all (fun f => f.lhs != N.empty || decide (f = ⟨N.empty, [], 158⟩)) = true := by
  decide +kernel

theorem empty_inv {xs : List Sym} {w : List (Tok Val)} {vs : List Val} (h : Derives fineGrammar xs w vs) (he : xs = [.n N.empty]) : w = [] := by
  cases h with
  | nil => cases he
  | tok k v h => cases he
  | rule hm h1 h2 =>
    obtain ⟨f, hf, rfl⟩ := List.mem_map.mp hm
    injection he with e1 e2
    subst e2
    cases h2
    have := List.all_eq_true.mp fine_empties f hf
    have e1 : f.lhs = N.empty := by injection e1
    rw [e1, Bool.or_eq_true, decide_eq_true_eq] at this
    rcases this with this | this
    · cases this
    · subst this
      cases h1
      rfl

theorem leading {us : List Val} (hu : us ≠ []) {xs : List Sym} {toks : List (Tok Val)} {vs : List Val} (h : Derives fineGrammar xs toks vs) :
    ∀ a ∈ leaders, xs.head? = some (.n a) → Derives fineGrammar xs (us.map (fun u => (K.newline, u)) ++ toks) vs := by
  induction h with
  | nil => intro a _ e; cases e
  | tok k v _ _ => intro a _ e; cases e
  | @rule r w₁ us' xs w₂ vs hm h1 h2 ih₁ ih₂ =>
    intro a ha e
    obtain ⟨f, hf, rfl⟩ := List.mem_map.mp hm
    have e : f.lhs = a := by
      simp only [List.head?_cons, Option.some.injEq, Sym.n.injEq] at e
      exact e
    rw [← List.append_assoc]
    have hl := List.all_eq_true.mp fine_leaders f hf
    rw [Bool.or_eq_true, Bool.or_eq_true, decide_eq_true_eq, decide_eq_true_eq, List.any_eq_true] at hl
    rcases hl with (hl | ⟨b, hb, hh⟩) | hl
    · exact absurd (e ▸ ha) hl
    · exact .rule hm (ih₁ b hb (beq_iff_eq.mp hh)) h2
    · simp only [List.mem_cons, List.not_mem_nil, or_false] at hl
      rcases hl with rfl | rfl
      · have := empty_inv h1 rfl
        subst this
        rw [List.append_nil]
        have h3 : Phrase fineGrammar N.maybeNline (us.map fun u => (K.newline, u)) .none := fine_maybeNline1 (phrase_one (newlines_phrase hu))
        exact phrase_cons h3 h2
      · change Derives fineGrammar [.t K.newline] w₁ us' at h1
        cases h1 with
        | tok k v h1 =>
          cases h1
          have h3 := newlines_phrase (us := us ++ [v]) (by simp)
          rw [List.map_append] at h3
          exact phrase_cons h3 h2

/-! ## Layout -/
namespace Lex
open Rx

theorem noIf_drop : ∀ {r : Str}, startsIf (r.dropWhile isSpace) = false → NoIfText r
  | [], _ => by
    intro k _
    simp [lens, two]
  | c :: r, h => by
    by_cases hc : isSpace c = true
    · rw [List.dropWhile_cons_of_pos hc] at h
      have ih := noIf_drop h
      intro k hall
      cases k with
      | zero =>
        refine seq_two_none fun e => ?_
        rcases e with rfl | rfl <;> exact absurd hc (by decide)
      | succ k => exact ih k fun x hx => hall x (by simp only [List.take_succ_cons]; exact List.mem_cons_of_mem _ hx)
    · rw [List.dropWhile_cons_of_neg hc] at h
      intro k hall
      cases k with
      | zero =>
        refine seq_two_none fun e => ?_
        cases r with
        | nil => rfl
        | cons b r =>
          refine two_none (fun e' => ?_) (fun e' => ?_) <;> subst e' <;> rcases e with rfl | rfl <;> simp [startsIf] at h
      | succ k => exact absurd (hall c (by simp)) hc

theorem round_tab (d : Nat) (r : Str) : round d ('\t' :: r) = .skip d r := rfl

theorem round_line (d : Nat) (r : Str) : round (d + 1) ('\n' :: r) = .skip (d + 1) r := by simp [round, ignored]

theorem round_continued (d : Nat) (r : Str) : round d ('\\' :: '\n' :: r) = .skip d r := by cases d <;> rfl

theorem round_comment {s : Str} (hs : '\n' ∉ s) (d : Nat) (r : Str) : round d ('#' :: (s ++ '\n' :: r)) = .skip d ('\n' :: r) := by
  have hn : (lens comment ('#' :: (s ++ '\n' :: r))).head? = some (1 + s.length) :=
    seq_head (cls_head (by decide)) (starCls_head (p := (· != '\n')) (s := s) (t := '\n' :: r) (fun c hc => by
      simp only [bne_iff_ne]
      rintro rfl
      exact hs hc) (by simp))
  have hp : pick ('#' :: (s ++ '\n' :: r)) initial = some (.skip, 1 + s.length) := by
    have := pick_starts (c := '#') (t := s ++ '\n' :: r) (initial.take 16) (rest := initial.drop 16) (by decide)
    rw [List.take_append_drop] at this
    rw [this]
    exact pick_take hn
  rw [round_of (d := d) (by decide) (by decide) (ignored_false (by decide) (by decide) (by decide)) hp]
  have h2 : ('#' :: (s ++ '\n' :: r)).drop (1 + s.length) = '\n' :: r := by rw [Nat.add_comm]; simp
  simp only [act, h2]

theorem round_ends {s r : Str} (hs : ∀ c ∈ s, c = '\n' ∨ c = ' ' ∨ c = '\t') (hr : ∀ c ∈ r.head?, c ≠ '\n' ∧ c ≠ ' ' ∧ c ≠ '\t') :
    round 0 ('\n' :: (s ++ r)) = .tok (K.newline, .str ('\n' :: s)) 0 r := by
  have hn : (lens newline ('\n' :: (s ++ r))).head? = some (1 + s.length) :=
    seq_head (cls_head (by decide)) (starCls_head (p := fun c => c == '\n' || c == ' ' || c == '\t') (s := s) (t := r) (fun c hc => by
      simpa [or_assoc] using hs c hc) (fun c hc => by
      have := hr c hc
      simp [this.1, this.2.1, this.2.2]))
  have hp : pick ('\n' :: (s ++ r)) initial = some (.give K.newline, 1 + s.length) := by
    have := pick_starts (c := '\n') (t := s ++ r) (initial.take 15) (rest := initial.drop 15) (by decide)
    rw [List.take_append_drop] at this
    rw [this]
    exact pick_take hn
  rw [round_of (d := 0) (by decide) (by decide) (by decide) hp]
  have h1 : ('\n' :: (s ++ r)).take (1 + s.length) = '\n' :: s := by rw [Nat.add_comm]; simp
  have h2 : ('\n' :: (s ++ r)).drop (1 + s.length) = r := by rw [Nat.add_comm]; simp
  simp only [act, h1, h2]

theorem round_solo {k : Nat} {c : Char} (h : (k, c) ∈ solos) (d : Nat) (r : Str) : round d (c :: r) = .tok (k, .str [c]) d r := by
  simp only [solos, List.mem_cons, Prod.mk.injEq, List.not_mem_nil, or_false] at h
  rcases h with ⟨rfl, rfl⟩ | ⟨rfl, rfl⟩ | ⟨rfl, rfl⟩ | ⟨rfl, rfl⟩ | ⟨rfl, rfl⟩ | ⟨rfl, rfl⟩ | ⟨rfl, rfl⟩ | ⟨rfl, rfl⟩ | ⟨rfl, rfl⟩ <;> cases d <;> rfl

theorem tokens_skip {n d d' : Nat} {s r : Str} {ts : List (Tok Val)} (h : round d s = .skip d' r) (hs : s.length < n) (ih : ∀ m, r.length < m → tokens m d' r = some ts) :
    tokens n d s = some ts := by
  cases n with
  | zero => cases hs
  | succ n =>
    have := round_less.1 h
    simp only [tokens, h]
    exact ih n (by omega)

theorem tokens_tok {n d d' : Nat} {s r : Str} {t : Tok Val} {ts : List (Tok Val)} (h : round d s = .tok t d' r) (hs : s.length < n)
    (ih : ∀ m, r.length < m → tokens m d' r = some ts) : tokens n d s = some (t :: ts) := by
  cases n with
  | zero => cases hs
  | succ n =>
    have := round_less.2 t h
    simp only [tokens, h, ih n (by omega), Option.map_some]

theorem laid_tokens {d : Nat} {ts : List (Tok Val)} {s : Str} (h : Laid d ts s) : ∀ n, s.length < n → tokens n d s = some ts := by
  induction h with
  | stop d =>
    intro n hn
    cases n with
    | zero => cases hn
    | succ n => rfl
  | blank c hc _ ih =>
    intro n hn
    rcases hc with rfl | rfl
    · exact tokens_skip (round_blank _ _) hn ih
    · exact tokens_skip (round_tab _ _) hn ih
  | line _ ih => exact fun n hn => tokens_skip (round_line _ _) hn ih
  | continued _ ih => exact fun n hn => tokens_skip (round_continued _ _) hn ih
  | comment s hs _ ih => exact fun n hn => tokens_skip (round_comment hs _ _) hn ih
  | opens _ ih => exact fun n hn => tokens_tok (round_open _ _) hn ih
  | closes _ ih => exact fun n hn => tokens_tok (round_close _ _) hn ih
  | ends s hs hr _ ih => exact fun n hn => tokens_tok (round_ends hs hr) hn ih
  | solo k c hc _ ih => exact fun n hn => tokens_tok (round_solo hc _ _) hn ih
  | @token d ts r k s hk hs x hx he _ ih =>
    intro n hn
    simp only [List.mem_cons, List.not_mem_nil, or_false, not_or] at hk
    have h1 := round_written hx hs hk.2.2 d (fun e => absurd e hk.2.1) r (fun e hsp => noIf_drop (by
      have := he e
      rwa [List.dropWhile_cons_of_pos hsp] at this))
    rw [after, if_neg hk.1, if_neg hk.2.1] at h1
    exact tokens_tok h1 hn ih

end Lex
end Drel
end Verif
