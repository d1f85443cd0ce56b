import Verif.Lemmas.PyLex
/-! # Reading tokens -/
namespace Verif
namespace PyText

/-- From some bound on, the reading gives `a`. -/
def Ev {α : Type} (f : Nat → Option α) (a : α) : Prop := ∃ n, ∀ m, n ≤ m → f m = some a

theorem Ev.intro {α : Type} {f : Nat → Option α} {a : α} (h : ∀ m, f m = some a) : Ev f a := ⟨0, fun m _ => h m⟩

theorem Ev.succ {α : Type} {f : Nat → Option α} {a : α} (h : Ev (fun m => f (m + 1)) a) : Ev f a := by
  obtain ⟨n, hn⟩ := h
  refine ⟨n + 1, fun m hm => ?_⟩
  obtain ⟨k, rfl⟩ : ∃ k, m = k + 1 := ⟨m - 1, by omega⟩
  exact hn k (by omega)

theorem Ev.bind {α β : Type} {f : Nat → Option α} {g : α → Nat → Option β} {a : α} {b : β} (h : Ev f a) (hg : Ev (g a) b) :
    Ev (fun m => (f m).bind fun x => g x m) b := by
  obtain ⟨n, hn⟩ := h
  obtain ⟨k, hk⟩ := hg
  refine ⟨n + k, fun m hm => ?_⟩
  show (f m).bind _ = _
  rw [hn m (by omega)]
  exact hk m (by omega)

theorem Ev.map {α β : Type} {f : Nat → Option α} {g : α → β} {a : α} (h : Ev f a) : Ev (fun m => (f m).map g) (g a) := by
  obtain ⟨n, hn⟩ := h
  exact ⟨n, fun m hm => by show (f m).map g = _; rw [hn m hm]; rfl⟩

theorem Ev.congr {α : Type} {f g : Nat → Option α} {a : α} (h : Ev f a) (e : ∀ m, g m = f m) : Ev g a := by
  obtain ⟨n, hn⟩ := h
  exact ⟨n, fun m hm => by rw [e, hn m hm]⟩

/-! ## More is read with a larger bound -/

theorem bind_mono {α β : Type} {x y : Option α} {f g : α → Option β} {b : β} (h : x.bind f = some b)
    (hx : ∀ a, x = some a → y = some a) (hf : ∀ a, f a = some b → g a = some b) : y.bind g = some b := by
  cases e : x with
  | none => rw [e] at h; cases h
  | some a => rw [e] at h; rw [hx a e]; exact hf a h

theorem map_mono {α β : Type} {x y : Option α} {f : α → β} {b : β} (h : x.map f = some b)
    (hx : ∀ a, x = some a → y = some a) : y.map f = some b := by
  cases e : x with
  | none => rw [e] at h; cases h
  | some a => rw [e] at h; rw [hx a e]; exact h

/-- All readings with bound `n` are kept with bound `n + 1`. -/
def Mono (n : Nat) : Prop :=
  (∀ min t r, parse n min t = some r → parse (n + 1) min t = some r) ∧
  (∀ min a t r, operators n min a t = some r → operators (n + 1) min a t = some r) ∧
  (∀ t r, primary n t = some r → primary (n + 1) t = some r) ∧
  (∀ e t r, trailers n e t = some r → trailers (n + 1) e t = some r) ∧
  (∀ c t r, sequence n c t = some r → sequence (n + 1) c t = some r) ∧
  (∀ c t r, sequence1 n c t = some r → sequence1 (n + 1) c t = some r) ∧
  (∀ t r, mapping n t = some r → mapping (n + 1) t = some r) ∧
  (∀ t r, mapping1 n t = some r → mapping1 (n + 1) t = some r) ∧
  (∀ a x t r, comprehension n a x t = some r → comprehension (n + 1) a x t = some r) ∧
  (∀ t r, subscripts n t = some r → subscripts (n + 1) t = some r) ∧
  (∀ t r, subscript n t = some r → subscript (n + 1) t = some r) ∧
  (∀ t r, part n t = some r → part (n + 1) t = some r)

theorem mono_zero : Mono 0 := by
  refine ⟨?_, ?_, ?_, ?_, ?_, ?_, ?_, ?_, ?_, ?_, ?_, ?_⟩
  all_goals intros; rename_i h; first | (unfold parse at h; cases h) | (unfold operators at h; cases h) | (unfold primary at h; cases h) | (unfold trailers at h; cases h) | (unfold sequence at h; cases h) | (unfold sequence1 at h; cases h) | (unfold mapping at h; cases h) | (unfold mapping1 at h; cases h) | (unfold comprehension at h; cases h) | (unfold subscripts at h; cases h) | (unfold subscript at h; cases h) | (unfold part at h; cases h)

theorem mono_succ {n : Nat} (ih : Mono n) : Mono (n + 1) := by
  obtain ⟨hp, ho, hpr, ht, hs, hs1, hm, hm1, hco, hss, hs0, hpt⟩ := ih
  refine ⟨?_, ?_, ?_, ?_, ?_, ?_, ?_, ?_, ?_, ?_, ?_, ?_⟩
  · intro min t r h
    unfold parse at h ⊢
    split
    · dsimp only at h
      split
      · rename_i hw; rw [if_pos hw] at h
        split
        · rename_i hm'; rw [if_pos hm'] at h
          exact bind_mono h (hp _ _) fun a => ho _ _ _ _
        · rename_i hm'; rw [if_neg hm'] at h; cases h
      · rename_i hw; rw [if_neg hw] at h
        exact bind_mono h (hpr _) fun a => ho _ _ _ _
    · dsimp only at h
      split
      · rename_i hw; rw [if_pos hw] at h
        split
        · rename_i hm'; rw [if_pos hm'] at h
          exact bind_mono h (hp _ _) fun a => ho _ _ _ _
        · rename_i hm'; rw [if_neg hm'] at h; cases h
      · rename_i hw; rw [if_neg hw] at h
        exact bind_mono h (hpr _) fun a => ho _ _ _ _
    · split at h
      · simp_all
      · simp_all
      · exact bind_mono h (hpr _) fun a => ho _ _ _ _
  · intro min a t r h
    unfold operators at h ⊢
    split
    · rename_i e; rw [e] at h; exact h
    · rename_i o p r' e
      rw [e] at h
      dsimp only at h
      split
      · rename_i hmin; rw [if_pos hmin] at h
        refine bind_mono h (hp _ _) fun q hq => ?_
        split
        · rename_i hc; rw [if_pos hc] at hq; cases hq
        · rename_i hc; rw [if_neg hc] at hq; exact ho _ _ _ _ hq
      · rename_i hmin; rw [if_neg hmin] at h; exact h
  · intro t r h
    unfold primary at h ⊢
    split
    · dsimp only at h
      split
      · rename_i hw; rw [if_pos hw] at h; cases h
      · rename_i hw; rw [if_neg hw] at h; exact ht _ _ _ h
    · exact ht _ _ _ h
    · exact ht _ _ _ h
    · dsimp only at h
      split
      · rename_i hw; rw [if_pos hw] at h
        refine bind_mono h (hs _ _) fun a h => ?_
        split
        · rename_i e; rw [e] at h; exact ht _ _ _ h
        · split at h
          · simp_all
          · exact ht _ _ _ h
      · rename_i hw; rw [if_neg hw] at h
        split
        · rename_i hw2; rw [if_pos hw2] at h
          split
          · rename_i a x r' e
            rw [e] at h
            exact bind_mono h (hco _ _ _) fun a => ht _ _ _
          · rename_i e
            rw [e] at h
            exact bind_mono h (hs _ _) fun a => ht _ _ _
        · rename_i hw2; rw [if_neg hw2] at h
          split
          · rename_i hw3; rw [if_pos hw3] at h
            split
            · rename_i ss r' e
              rw [e] at h
              exact ht _ _ _ h
            · rename_i e
              rw [e] at h
              exact bind_mono h (hm _) fun a => ht _ _ _
          · rename_i hw3; rw [if_neg hw3] at h; cases h
    · cases h
  · intro e t r h
    unfold trailers at h ⊢
    split
    · dsimp only at h
      split
      · rename_i hw; rw [if_pos hw] at h
        split
        · dsimp only at h
          split
          · rename_i hk; rw [if_pos hk] at h; cases h
          · rename_i hk; rw [if_neg hk] at h; exact ht _ _ _ h
        · split at h
          · simp_all
          · cases h
      · rename_i hw; rw [if_neg hw] at h
        split
        · rename_i hw2; rw [if_pos hw2] at h
          exact bind_mono h (hs _ _) fun a => ht _ _ _
        · rename_i hw2; rw [if_neg hw2] at h
          split
          · rename_i hw3; rw [if_pos hw3] at h
            refine bind_mono h (hss _) fun a h => ?_
            split
            · rename_i e; rw [e] at h; exact ht _ _ _ h
            · split at h
              · simp_all
              · exact ht _ _ _ h
          · rename_i hw3; rw [if_neg hw3] at h; exact h
    · split at h
      · simp_all
      · exact h
  · intro c t r h
    unfold sequence at h ⊢
    split
    · rename_i hw; rw [if_pos hw] at h; exact h
    · rename_i hw; rw [if_neg hw] at h; exact hs1 _ _ _ h
  · intro c t r h
    unfold sequence1 at h ⊢
    refine bind_mono h (hp _ _) fun a h => ?_
    split
    · rename_i e; rw [e] at h
      dsimp only at h
      split
      · rename_i hw; rw [if_pos hw] at h; exact h
      · rename_i hw; rw [if_neg hw] at h
        split
        · rename_i hw2; rw [if_pos hw2] at h; exact map_mono h (hs1 _ _)
        · rename_i hw2; rw [if_neg hw2] at h; cases h
    · split at h
      · simp_all
      · cases h
  · intro t r h
    unfold mapping at h ⊢
    split
    · rename_i hw; rw [if_pos hw] at h; exact h
    · rename_i hw; rw [if_neg hw] at h; exact hm1 _ _ h
  · intro t r h
    unfold mapping1 at h ⊢
    refine bind_mono h (hp _ _) fun a h => ?_
    split
    · rename_i e; rw [e] at h
      dsimp only at h
      split
      · rename_i hw; rw [if_pos hw] at h
        refine bind_mono h (hp _ _) fun v h => ?_
        split
        · rename_i e; rw [e] at h
          dsimp only at h
          split
          · rename_i hw; rw [if_pos hw] at h; exact h
          · rename_i hw; rw [if_neg hw] at h
            split
            · rename_i hw2; rw [if_pos hw2] at h; exact map_mono h (hm1 _)
            · rename_i hw2; rw [if_neg hw2] at h; cases h
        · split at h
          · simp_all
          · cases h
      · rename_i hw; rw [if_neg hw] at h; cases h
    · split at h
      · simp_all
      · cases h
  · intro a x t r h
    unfold comprehension at h ⊢
    refine bind_mono h (hp _ _) fun p h => ?_
    split
    · rename_i e; rw [e] at h
      dsimp only at h
      split
      · rename_i hw; rw [if_pos hw] at h
        refine bind_mono h (hp _ _) fun v h => ?_
        split
        · rename_i e; rw [e] at h
          exact h
        · split at h
          · simp_all
          · cases h
      · rename_i hw; rw [if_neg hw] at h; cases h
    · split at h
      · simp_all
      · cases h
  · intro t r h
    unfold subscripts at h ⊢
    refine bind_mono h (hs0 _) fun a h => ?_
    split
    · rename_i e; rw [e] at h
      dsimp only at h
      split
      · rename_i hw; rw [if_pos hw] at h; exact h
      · rename_i hw; rw [if_neg hw] at h
        split
        · rename_i hw2; rw [if_pos hw2] at h; exact map_mono h (hss _)
        · rename_i hw2; rw [if_neg hw2] at h; cases h
    · split at h
      · simp_all
      · cases h
  · intro t r h
    unfold subscript at h ⊢
    refine bind_mono h (hpt _) fun a h => ?_
    split
    · rename_i hw; rw [if_pos hw] at h
      refine bind_mono h (hpt _) fun b h => ?_
      split
      · rename_i hw; rw [if_pos hw] at h; exact map_mono h (hpt _)
      · rename_i hw; rw [if_neg hw] at h; exact h
    · rename_i hw; rw [if_neg hw] at h; exact h
  · intro t r h
    unfold part at h ⊢
    split
    · rename_i e; rw [e] at h
      dsimp only at h
      split
      · rename_i hw; rw [if_pos hw] at h; exact h
      · rename_i hw; rw [if_neg hw] at h; exact hp _ _ _ h
    · split at h
      · simp_all
      · exact hp _ _ _ h

theorem mono_all : ∀ n, Mono n
  | 0 => mono_zero
  | n + 1 => mono_succ (mono_all n)

theorem parse_mono {n k min : Nat} {t : List Tok} {r : Py × List Tok} (h : parse n min t = some r) (hk : n ≤ k) :
    parse k min t = some r := by
  induction hk with
  | refl => exact h
  | step _ ih => exact (mono_all _).1 _ _ _ ih

/-- A text is read in one way at most. -/
theorem Reads.unique {s : Str} {e e' : Py} (h : Reads s e) (h' : Reads s e') : e = e' := by
  obtain ⟨n, t, ht, hp⟩ := h
  obtain ⟨n', t', ht', hp'⟩ := h'
  have : t = t' := Lexes.unique ⟨n, ht⟩ ⟨n', ht'⟩
  subst this
  have h1 := parse_mono hp (Nat.le_max_left n n')
  have h2 := parse_mono hp' (Nat.le_max_right n n')
  rw [h1] at h2
  exact congrArg Prod.fst (Option.some.inj h2)

end PyText
end Verif
