import Verif.Lemmas.DrelLexNum
import Verif.Lemmas.Dict
/-! # Reading the text of tokens -/
namespace Verif
namespace Drel
namespace Lex
open LR Rx

/-- The first character of a token is not white space and not a control character. -/
theorem written_first {k : Nat} {s : Str} (h : Written k s) (hk : k ≠ K.newline) : ∃ c t, s = c :: t ∧ isSpace c = false := by
  rcases h with ⟨w, hw, rfl⟩ | ⟨-, rfl⟩ | ⟨-, rfl⟩ | ⟨rfl, -⟩ | ⟨-, rfl⟩ | ⟨-, h⟩ | ⟨-, h⟩ | ⟨-, h⟩ | ⟨-, h⟩ | ⟨-, h⟩ | ⟨-, h⟩
  · have : signs.all (fun p => match p.2.toList with | c :: _ => !isSpace c | [] => false) = true := by decide +kernel
    have := List.all_eq_true.mp this _ hw
    dsimp only at this
    split at this
    · rename_i c t e
      exact ⟨c, t, e, by simpa using this⟩
    · cases this
  · exact ⟨_, _, rfl, by decide⟩
  · exact ⟨_, _, rfl, by decide⟩
  · exact absurd rfl hk
  · exact ⟨_, _, rfl, by decide⟩
  · cases s with
    | nil => exact h.elim
    | cons c t => exact ⟨c, t, rfl, idChar_space (idChar_iff.mpr (.inl h.1))⟩
  · match s, h with
    | [], h => exact h.elim
    | c :: t, h =>
      by_cases hc : c = '_'
      · subst hc
        exact ⟨_, _, rfl, by decide⟩
      · exfalso
        simp [IsTag, hc] at h
  · obtain ⟨hn, h⟩ := h
    obtain ⟨c, t, rfl⟩ := List.exists_cons_of_ne_nil hn
    exact ⟨c, t, rfl, idChar_space (idChar_iff.mpr (.inr (.inl (h c (by simp)))))⟩
  · obtain ⟨c, t, rfl, hc⟩ := real_first h
    refine ⟨c, t, rfl, ?_⟩
    rcases hc with hc | rfl
    · exact idChar_space (idChar_iff.mpr (.inr (.inl (digit_iff.mp hc))))
    · decide
  · obtain ⟨a, j, ha, -, rfl⟩ := h
    rcases ha with ⟨hn, ha⟩ | ha
    · obtain ⟨c, t, rfl⟩ := List.exists_cons_of_ne_nil hn
      exact ⟨c, t ++ [j], rfl, idChar_space (idChar_iff.mpr (.inr (.inl (ha c (by simp)))))⟩
    · obtain ⟨c, t, rfl, hc⟩ := real_first ha
      refine ⟨c, t ++ [j], rfl, ?_⟩
      rcases hc with hc | rfl
      · exact idChar_space (idChar_iff.mpr (.inr (.inl (digit_iff.mp hc))))
      · decide
  · obtain ⟨q, m, hq, -, rfl⟩ := h
    exact ⟨q, _, rfl, by rcases hq with rfl | rfl <;> decide⟩

/-- A name is read as a name. -/
theorem round_name {x : Char} (hx : x ∈ separators) {s : Str} (h : IsName s) (d : Nat) (r : Str) : round d (s ++ x :: r) = .tok (K.id, .str s) d (x :: r) := by
  cases s with
  | nil => exact h.elim
  | cons c w =>
    obtain ⟨hc, hw, hr, he⟩ := h
    have h1 := round_word hx (alpha_iff.mpr hc) (fun x hx => idChar_iff.mpr (hw x hx)) he d r
    have h2 : dget reserved (c :: w) = none := by
      rw [dget_eq_none]
      intro hm
      have hall : reserved.all (fun p => reservedWords.any (fun w => w.toList == p.1)) = true := by decide +kernel
      obtain ⟨p, hp, hpe⟩ := List.mem_map.mp hm
      have h3 := List.all_eq_true.mp hall _ hp
      rw [List.any_eq_true] at h3
      obtain ⟨x, hx, hxe⟩ := h3
      exact hr x hx (by rw [beq_iff_eq] at hxe; rw [hxe, hpe])
    rw [h1, h2]
    rfl

/-- The number of open parentheses after a token. -/
def after (k d : Nat) : Nat := if k = K.openParen then d + 1 else if k = K.closeParen then d - 1 else d

theorem round_written {x : Char} (hx : x ∈ separators) {k : Nat} {s : Str} (h : Written k s) (hk : k ≠ K.newline) (d : Nat) (hd : k = K.closeParen → 0 < d) (r : Str) (hr : k = K.else_ → isSpace x = true → NoIfText r) :
    round d (s ++ x :: r) = .tok (k, .str s) (after k d) (x :: r) := by
  rcases h with ⟨w, hw, rfl⟩ | ⟨rfl, rfl⟩ | ⟨rfl, rfl⟩ | ⟨rfl, rfl⟩ | ⟨rfl, rfl⟩ | ⟨rfl, h⟩ | ⟨rfl, h⟩ | ⟨rfl, h⟩ | ⟨rfl, h⟩ | ⟨rfl, h⟩ | ⟨rfl, h⟩
  · have : signs.all (fun p => p.1 != K.openParen && p.1 != K.closeParen) = true := by decide +kernel
    have := List.all_eq_true.mp this _ hw
    simp only [Bool.and_eq_true, bne_iff_ne] at this
    rw [round_sign hx hw, after, if_neg this.1, if_neg this.2]
  · exact round_open d _
  · obtain ⟨d, rfl⟩ := Nat.exists_eq_add_of_lt (hd rfl)
    rw [Nat.zero_add]
    exact round_close d _
  · exact absurd rfl hk
  · exact round_else hx (hr rfl) d
  · exact round_name hx h d r
  · match s, h with
    | [], h => exact h.elim
    | c :: t, h =>
      by_cases hc : c = '_'
      · subst hc
        exact round_tag hx h.1 (fun x hx => tagChar_iff.mpr (h.2 x hx)) d r
      · exfalso
        simp [IsTag, hc] at h
  · rw [isInt_iff] at h
    exact round_int hx h.1 h.2 d r
  · exact round_real hx h d r
  · exact round_imaginary hx h d r
  · exact round_short hx h d r

/-- After what is written there is no `if`. -/
theorem noIf_text : ∀ (toks : List (Tok Val)) (d : Nat), Writable d toks → NoIf toks → NoIfText (write toks)
  | [], _, _, _ => by
    intro k _
    simp [write, lens, two]
  | (k, v) :: r, d, hw, hn => by
    obtain ⟨⟨s, rfl, hs⟩, -, hrest⟩ := hw
    by_cases hk : k = K.newline
    · subst hk
      have hs' : s = ['\n'] := by
        rcases hs with ⟨w, hw, rfl⟩ | ⟨h, -⟩ | ⟨h, -⟩ | ⟨-, h⟩ | ⟨h, -⟩ | ⟨h, -⟩ | ⟨h, -⟩ | ⟨h, -⟩ | ⟨h, -⟩ | ⟨h, -⟩ | ⟨h, -⟩
        · have : signs.all (fun p => p.1 != K.newline) = true := by decide +kernel
          have := List.all_eq_true.mp this _ hw
          simp at this
        · exact absurd h (by decide)
        · exact absurd h (by decide)
        · exact h
        all_goals exact absurd h (by decide)
      subst hs'
      have hr : Writable d r := by
        rw [if_neg (by decide), if_neg (by decide)] at hrest
        exact hrest.2
      have ih := noIf_text r d hr (by simpa [NoIf] using hn)
      intro k hall
      cases k with
      | zero => exact starts_none _ (by decide)
      | succ k => exact ih k (fun c hc => hall c (by simp only [write, text, if_pos, List.cons_append, List.nil_append, List.take_succ_cons]; exact List.mem_cons_of_mem _ hc))
    · obtain ⟨c, t, rfl, hc⟩ := written_first hs hk
      have hn : startsIf (c :: t) = false := by simpa [NoIf, hk, text] using hn
      intro n hall
      have e : write ((k, .str (c :: t)) :: r) = c :: (t ++ ' ' :: write r) := by simp [write, text, hk]
      rw [e] at hall ⊢
      cases n with
      | succ n =>
        have := hall c (by simp)
        rw [hc] at this
        cases this
      | zero =>
        refine seq_two_none fun h1 => ?_
        cases t with
        | nil => exact starts_none _ (by decide)
        | cons b t =>
          refine two_none ?_ ?_
          · rintro rfl
            rcases h1 with rfl | rfl <;> simp [startsIf] at hn
          · rintro rfl
            rcases h1 with rfl | rfl <;> simp [startsIf] at hn

theorem tokens_written : ∀ (toks : List (Tok Val)) (d n : Nat), Writable d toks → (write toks).length < n → tokens n d (write toks) = some toks
  | [], d, n, _, hn => by
    cases n with
    | zero => cases hn
    | succ n => rfl
  | (k, v) :: r, d, n, hw, hn => by
    obtain ⟨⟨s, rfl, hs⟩, hap, hrest⟩ := hw
    obtain ⟨n, rfl⟩ := Nat.exists_eq_add_of_lt hn
    by_cases hk : k = K.newline
    · subst hk
      rw [if_neg (by decide), if_neg (by decide)] at hrest
      have hd : d = 0 := hrest.1 rfl
      subst hd
      have hs' : s = ['\n'] := by
        rcases hs with ⟨w, hw, rfl⟩ | ⟨h, -⟩ | ⟨h, -⟩ | ⟨-, h⟩ | ⟨h, -⟩ | ⟨h, -⟩ | ⟨h, -⟩ | ⟨h, -⟩ | ⟨h, -⟩ | ⟨h, -⟩ | ⟨h, -⟩
        · have : signs.all (fun p => p.1 != K.newline) = true := by decide +kernel
          have := List.all_eq_true.mp this _ hw
          simp at this
        · exact absurd h (by decide)
        · exact absurd h (by decide)
        · exact h
        all_goals exact absurd h (by decide)
      subst hs'
      have e : write ((K.newline, .str ['\n']) :: r) = '\n' :: write r := rfl
      rw [e] at hn ⊢
      have hfirst : ∀ c ∈ (write r).head?, c ≠ '\n' ∧ c ≠ ' ' ∧ c ≠ '\t' := by
        cases r with
        | nil => intro c hc; cases hc
        | cons u r =>
          obtain ⟨k', v'⟩ := u
          obtain ⟨⟨s', rfl, hs'⟩, -, -⟩ := hrest.2
          have hk' : k' ≠ K.newline := hap.1 rfl (k', .str s') (by simp)
          obtain ⟨c', t', rfl, hc'⟩ := written_first hs' hk'
          intro c hc
          have : c' = c := by simpa [write, text, hk'] using hc
          subst this
          refine ⟨?_, ?_, ?_⟩ <;> (rintro rfl; revert hc'; decide)
      have ih := tokens_written r 0 ((write r).length + 1 + n) hrest.2 (by omega)
      have e2 : ('\n' :: write r).length + n + 1 = (write r).length + 1 + n + 1 := by simp only [List.length_cons]
      rw [e2, tokens, round_newline hfirst]
      simp only [ih, Option.map_some]
    · obtain ⟨c, t, rfl, hc⟩ := written_first hs hk
      have e : write ((k, .str (c :: t)) :: r) = c :: t ++ ' ' :: write r := by simp [write, text, hk]
      have hrest' : Writable (after k d) r ∧ (k = K.closeParen → 0 < d) := by
        unfold after
        by_cases h1 : k = K.openParen
        · subst h1
          rw [if_pos rfl] at hrest
          exact ⟨by simpa using hrest, fun h => absurd h (by decide)⟩
        · rw [if_neg h1] at hrest ⊢
          by_cases h2 : k = K.closeParen
          · rw [if_pos h2] at hrest ⊢
            exact ⟨hrest.2, fun _ => hrest.1⟩
          · rw [if_neg h2] at hrest ⊢
            exact ⟨hrest.2, fun h => absurd h h2⟩
      have hround := round_written (x := ' ') (by decide) hs hk d hrest'.2 (write r) (fun he _ => noIf_text r _ hrest'.1 (hap.2 he))
      rw [e] at hn ⊢
      have ih := tokens_written r (after k d) ((write r).length + 1 + (t.length + n)) hrest'.1 (by omega)
      have e2 : (c :: t ++ ' ' :: write r).length + n + 1 = (write r).length + 1 + (t.length + n) + 1 + 1 := by simp; omega
      rw [e2, tokens, hround]
      simp only
      rw [tokens, round_blank]
      simp only [ih, Option.map_some]

end Lex
end Drel
end Verif
