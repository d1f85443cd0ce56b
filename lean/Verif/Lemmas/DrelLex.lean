import Verif.Model.DrelLex
import Verif.Lemmas.Regex
import Verif.Spec.DrelText
/-! # Lemmas about the lexer of dREL -/
namespace Verif
namespace Drel
namespace Lex
open LR Rx

/-! ## Matches in general -/

/-- A first match of a sequence. -/
theorem seq_head {a b : Rx} {s : Str} {k m : Nat} (ha : (lens a s).head? = some k) (hb : (lens b (s.drop k)).head? = some m) :
    (lens (seq a b) s).head? = some (k + m) := by
  cases h : lens a s with
  | nil => rw [h] at ha; cases ha
  | cons x xs =>
    rw [h] at ha
    simp only [List.head?_cons, Option.some.injEq] at ha
    subst ha
    cases h' : lens b (s.drop x) with
    | nil => rw [h'] at hb; cases hb
    | cons y ys =>
      rw [h'] at hb
      simp only [List.head?_cons, Option.some.injEq] at hb
      subst hb
      simp [lens, h, h']

theorem alt_left {a b : Rx} {s : Str} {k : Nat} (ha : (lens a s).head? = some k) : (lens (alt a b) s).head? = some k := by
  cases h : lens a s with
  | nil => rw [h] at ha; cases ha
  | cons x xs => rw [h] at ha; simp only [lens, h, List.cons_append]; exact ha

theorem alt_right {a b : Rx} {s : Str} (ha : lens a s = []) : lens (alt a b) s = lens b s := by simp [lens, ha]

theorem alt_none {a b : Rx} {s : Str} (ha : lens a s = []) (hb : lens b s = []) : lens (alt a b) s = [] := by simp [lens, ha, hb]

theorem seq_none {a b : Rx} {s : Str} (ha : lens a s = []) : lens (seq a b) s = [] := by simp [lens, ha]

/-- The pattern may match a text that begins with the character. -/
def starts : Rx → Char → Bool
  | cls p, c => p c
  | seq a _, c => starts a c
  | alt a b, c => starts a c || starts b c
  | _, _ => true

theorem starts_none : ∀ (r : Rx) {c : Char} {t : Str}, starts r c = false → lens r (c :: t) = []
  | cls p, c, t, h => by
    have h : p c = false := h
    simp [lens, h]
  | seq a b, c, t, h => seq_none (starts_none a h)
  | alt a b, c, t, h => by
    have h : (starts a c || starts b c) = false := h
    rw [Bool.or_eq_false_iff] at h
    exact alt_none (starts_none a h.1) (starts_none b h.2)
  | eps, _, _, h => nomatch h
  | star _, _, _, h => nomatch h
  | .lazy _, _, _, h => nomatch h
  | ahead _, _, _, h => nomatch h
  | notAhead _, _, _, h => nomatch h
  | eol, _, _, h => nomatch h

/-- Everything that is matched is in a set. -/
def Within (A : Char → Prop) : Rx → Prop
  | cls p => ∀ c, p c = true → A c
  | seq a b => Within A a ∧ Within A b
  | alt a b => Within A a ∧ Within A b
  | star a => Within A a
  | .lazy a => Within A a
  | _ => True

/-- Every match has a character of a set. -/
def Needs (q : Char → Prop) : Rx → Prop
  | cls p => ∀ c, p c = true → q c
  | seq a b => Needs q a ∨ Needs q b
  | alt a b => Needs q a ∧ Needs q b
  | _ => False

theorem many_mem {f : Str → List Nat} {A : Char → Prop} (hf : ∀ s k, k ∈ f s → ∀ c ∈ s.take k, A c) : ∀ (n : Nat) (s : Str) (k : Nat),
    k ∈ many f n s → ∀ c ∈ s.take k, A c
  | 0, s, k, h => by
    simp only [many, List.mem_singleton] at h
    subst h
    intro c hc
    simp at hc
  | n + 1, s, k, h => by
    simp only [many, List.mem_append, List.mem_flatMap, List.mem_filter, List.mem_map, List.mem_singleton] at h
    rcases h with ⟨a, ⟨ha, -⟩, b, hb, rfl⟩ | rfl
    · intro c hc
      rw [List.take_add] at hc
      rcases List.mem_append.mp hc with hc | hc
      · exact hf s a ha c hc
      · exact many_mem hf n _ b hb c hc
    · intro c hc
      simp at hc

theorem manyLazy_mem {f : Str → List Nat} {A : Char → Prop} (hf : ∀ s k, k ∈ f s → ∀ c ∈ s.take k, A c) : ∀ (n : Nat) (s : Str) (k : Nat),
    k ∈ manyLazy f n s → ∀ c ∈ s.take k, A c
  | 0, s, k, h => by
    simp only [manyLazy, List.mem_singleton] at h
    subst h
    intro c hc
    simp at hc
  | n + 1, s, k, h => by
    simp only [manyLazy, List.mem_cons, List.mem_flatMap, List.mem_filter, List.mem_map] at h
    rcases h with rfl | ⟨a, ⟨ha, -⟩, b, hb, rfl⟩
    · intro c hc
      simp at hc
    · intro c hc
      rw [List.take_add] at hc
      rcases List.mem_append.mp hc with hc | hc
      · exact hf s a ha c hc
      · exact manyLazy_mem hf n _ b hb c hc

theorem within_mem {A : Char → Prop} : ∀ (r : Rx), Within A r → ∀ (s : Str) (k : Nat), k ∈ lens r s → ∀ c ∈ s.take k, A c
  | cls p, h, s, k, hk, c, hc => by
    cases s with
    | nil => simp [lens] at hk
    | cons x t =>
      simp only [lens] at hk
      split at hk
      · rename_i hp
        simp only [List.mem_singleton] at hk
        subst hk
        simp only [List.take_succ_cons, List.take_zero, List.mem_singleton] at hc
        subst hc
        exact h c hp
      · cases hk
  | seq a b, h, s, k, hk, c, hc => by
    simp only [lens, List.mem_flatMap, List.mem_map] at hk
    obtain ⟨i, hi, j, hj, rfl⟩ := hk
    rw [List.take_add] at hc
    rcases List.mem_append.mp hc with hc | hc
    · exact within_mem a h.1 s i hi c hc
    · exact within_mem b h.2 _ j hj c hc
  | alt a b, h, s, k, hk, c, hc => by
    simp only [lens, List.mem_append] at hk
    rcases hk with hk | hk
    · exact within_mem a h.1 s k hk c hc
    · exact within_mem b h.2 s k hk c hc
  | star a, h, s, k, hk, c, hc => many_mem (within_mem a h) _ s k hk c hc
  | .lazy a, h, s, k, hk, c, hc => manyLazy_mem (within_mem a h) _ s k hk c hc
  | eps, _, s, k, hk, c, hc => by simp only [lens, List.mem_singleton] at hk; subst hk; simp at hc
  | ahead a, _, s, k, hk, c, hc => by
    simp only [lens] at hk
    split at hk
    · cases hk
    · simp only [List.mem_singleton] at hk; subst hk; simp at hc
  | notAhead a, _, s, k, hk, c, hc => by
    simp only [lens] at hk
    split at hk
    · simp only [List.mem_singleton] at hk; subst hk; simp at hc
    · cases hk
  | eol, _, s, k, hk, c, hc => by
    simp only [lens] at hk
    split at hk
    · simp only [List.mem_singleton] at hk; subst hk; simp at hc
    · cases hk

theorem needs_mem {q : Char → Prop} : ∀ (r : Rx), Needs q r → ∀ (s : Str) (k : Nat), k ∈ lens r s → ∃ c ∈ s.take k, q c
  | cls p, h, s, k, hk => by
    cases s with
    | nil => simp [lens] at hk
    | cons x t =>
      simp only [lens] at hk
      split at hk
      · rename_i hp
        simp only [List.mem_singleton] at hk
        subst hk
        exact ⟨x, by simp, h x hp⟩
      · cases hk
  | seq a b, h, s, k, hk => by
    simp only [lens, List.mem_flatMap, List.mem_map] at hk
    obtain ⟨i, hi, j, hj, rfl⟩ := hk
    rw [List.take_add]
    rcases h with h | h
    · obtain ⟨c, hc, hq⟩ := needs_mem a h s i hi
      exact ⟨c, List.mem_append_left _ hc, hq⟩
    · obtain ⟨c, hc, hq⟩ := needs_mem b h _ j hj
      exact ⟨c, List.mem_append_right _ hc, hq⟩
  | alt a b, h, s, k, hk => by
    simp only [lens, List.mem_append] at hk
    rcases hk with hk | hk
    · exact needs_mem a h.1 s k hk
    · exact needs_mem b h.2 s k hk
  | star _, h, _, _, _ => h.elim
  | .lazy _, h, _, _, _ => h.elim
  | eps, h, _, _, _ => h.elim
  | ahead _, h, _, _, _ => h.elim
  | notAhead _, h, _, _, _ => h.elim
  | eol, h, _, _, _ => h.elim

/-- A pattern that stops at blanks and needs a character that is not in the text before the blank. -/
theorem needs_none {A q : Char → Prop} {r : Rx} (hw : Within A r) (hn : Needs q r) {s : Str} {x : Char} {t : Str} (hx : ¬ A x) (hs : ∀ c ∈ s, ¬ q c) :
    lens r (s ++ x :: t) = [] := by
  cases h : lens r (s ++ x :: t) with
  | nil => rfl
  | cons k ks =>
    have hk : k ∈ lens r (s ++ x :: t) := by rw [h]; exact List.mem_cons_self
    have hle : k ≤ s.length := by
      refine Nat.le_of_not_lt fun hlt => hx ?_
      refine within_mem r hw _ k hk x ?_
      rw [List.take_append]
      refine List.mem_append_right _ ?_
      obtain ⟨j, hj⟩ : ∃ j, k - s.length = j + 1 := ⟨k - s.length - 1, by omega⟩
      rw [hj]
      simp
    obtain ⟨c, hc, hq⟩ := needs_mem r hn _ k hk
    rw [List.take_append_of_le_length hle] at hc
    exact absurd hq (hs c (List.mem_of_mem_take hc))

/-- Repeating a class goes on to the first character outside it. -/
theorem star_head {p : Char → Bool} : ∀ (s : Str) {t : Str} (n : Nat), s.length ≤ n → (∀ c ∈ s, p c = true) → (∀ c ∈ t.head?, p c = false) →
    (many (lens (cls p)) n (s ++ t)).head? = some s.length
  | [], t, 0, _, _, _ => rfl
  | [], t, n + 1, _, _, ht => by
    cases t with
    | nil => simp [many, lens]
    | cons x t =>
      have : p x = false := ht x (by simp)
      simp [many, lens, this]
  | c :: s, t, 0, h, _, _ => by simp at h
  | c :: s, t, n + 1, h, hs, ht => by
    have hc : p c = true := hs c List.mem_cons_self
    have ih := star_head s n (by simpa using h) (fun x hx => hs x (List.mem_cons_of_mem _ hx)) ht
    cases hm : many (lens (cls p)) n (s ++ t) with
    | nil => rw [hm] at ih; cases ih
    | cons k ks =>
      rw [hm] at ih
      simp only [List.head?_cons, Option.some.injEq] at ih
      subst ih
      have hl : lens (cls p) (c :: (s ++ t)) = [1] := by simp [lens, hc]
      simp [many, hl, hm, Nat.add_comm]

theorem starCls_head {p : Char → Bool} {s t : Str} (hs : ∀ c ∈ s, p c = true) (ht : ∀ c ∈ t.head?, p c = false) :
    (lens (star (cls p)) (s ++ t)).head? = some s.length := star_head s _ (by simp) hs ht

theorem cls_head {p : Char → Bool} {c : Char} {t : Str} (h : p c = true) : (lens (cls p) (c :: t)).head? = some 1 := by simp [lens, h]

theorem plusCls_head {p : Char → Bool} {s t : Str} (hn : s ≠ []) (hs : ∀ c ∈ s, p c = true) (ht : ∀ c ∈ t.head?, p c = false) :
    (lens (plus (cls p)) (s ++ t)).head? = some s.length := by
  cases s with
  | nil => exact absurd rfl hn
  | cons c s =>
    have h1 : (lens (cls p) (c :: s ++ t)).head? = some 1 := cls_head (hs c List.mem_cons_self)
    have h2 := seq_head h1 (starCls_head (s := s) (t := t) (fun x hx => hs x (List.mem_cons_of_mem _ hx)) ht)
    rw [Nat.add_comm] at h2
    exact h2

/-! ## Choosing a rule -/

theorem pick_skip {s : Str} {r : Rx} {a : Todo} {rest : List (Rx × Todo)} (h : lens r s = []) : pick s ((r, a) :: rest) = pick s rest := by
  simp [pick, matchLen, h]

theorem pick_take {s : Str} {r : Rx} {a : Todo} {rest : List (Rx × Todo)} {k : Nat} (h : (lens r s).head? = some k) : pick s ((r, a) :: rest) = some (a, k) := by
  simp [pick, matchLen, h]

/-- Rules that cannot match a text with this first character are passed over. -/
theorem pick_starts {c : Char} {t : Str} : ∀ (l : List (Rx × Todo)) {rest : List (Rx × Todo)}, l.all (fun r => !starts r.1 c) = true →
    pick (c :: t) (l ++ rest) = pick (c :: t) rest
  | [], _, _ => rfl
  | (r, a) :: l, rest, h => by
    simp only [List.all_cons, Bool.and_eq_true, Bool.not_eq_true'] at h
    rw [List.cons_append, pick_skip (starts_none r h.1)]
    exact pick_starts l h.2

end Lex
end Drel
end Verif
