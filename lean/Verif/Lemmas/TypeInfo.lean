import Verif.Model.TypeInfo
import Verif.Spec.TypeInfo
import Verif.Lemmas.BlockPacket
/-! # Lemmas on the preparation of type expressions -/
namespace Verif
namespace TypeInfo
open Rx Spec

/-- `n`, ..., 1, 0. -/
def desc (n : Nat) : List Nat := (List.range (n + 1)).reverse

theorem mem_desc {n k : Nat} : k ∈ desc n ↔ k ≤ n := by simp [desc]; omega

theorem desc_succ (n : Nat) : desc (n + 1) = (desc n).map (1 + ·) ++ [0] := by
  simp only [desc]
  rw [List.range_succ_eq_map, List.reverse_cons, ← List.map_reverse]
  congr 1
  apply List.map_congr_left
  intro a _
  omega

theorem lens_starCls (p : Char → Bool) : ∀ (n : Nat) (s : Str), s.length ≤ n → many (lens (cls p)) n s = desc (s.takeWhile p).length
  | 0, s, h => by
    have : s = [] := List.length_eq_zero_iff.mp (by omega)
    subst this
    rfl
  | n + 1, [], _ => by simp [many, lens, desc]
  | n + 1, c :: t, h => by
    have hf : lens (cls p) (c :: t) = if p c = true then [1] else [] := rfl
    simp only [many]
    rw [hf]
    by_cases hc : p c = true
    · have ih := lens_starCls p n t (by simpa using h)
      simp only [hc, if_true, List.filter_cons, Nat.zero_lt_one, decide_true, List.filter_nil, List.flatMap_cons, List.flatMap_nil,
        List.append_nil, List.drop_succ_cons, List.drop_zero, List.takeWhile_cons, List.length_cons, desc_succ]
      rw [ih]
    · rw [if_neg hc, List.takeWhile_cons, if_neg hc]
      rfl

theorem lens_star_dot (s : Str) : lens (star dotRx) s = desc (s.takeWhile (· != '\n')).length := lens_starCls _ _ s (Nat.le_refl _)

/-- The length of the first line. -/
def lineLen (s : Str) : Nat := (s.takeWhile (· != '\n')).length

theorem le_lineLen {s : Str} : ∀ {k : Nat}, k ≤ lineLen s ↔ k ≤ s.length ∧ '\n' ∉ s.take k := by
  unfold lineLen
  induction s with
  | nil => intro k; simp
  | cons c t ih =>
    intro k
    by_cases hc : c = '\n'
    · subst hc
      cases k with
      | zero => simp
      | succ k => simp
    · cases k with
      | zero => simp
      | succ k => simp [hc, ih, Ne.symm hc]

theorem lineLen_drop {s : Str} {k : Nat} (h : k ≤ lineLen s) : lineLen (s.drop k) = lineLen s - k := by
  induction k generalizing s with
  | zero => simp
  | succ k ih =>
    cases s with
    | nil => simp [lineLen] at h
    | cons c t =>
      have hc : c ≠ '\n' := by
        intro hc
        subst hc
        simp [lineLen] at h
      have h1 : lineLen (c :: t) = lineLen t + 1 := by simp [lineLen, hc]
      rw [h1] at h ⊢
      rw [List.drop_succ_cons, ih (by omega)]
      omega

theorem findSome_flatMap {α β γ : Type} (f : β → Option γ) (g : α → List β) : ∀ l : List α,
    (l.flatMap g).findSome? f = l.findSome? fun a => (g a).findSome? f
  | [] => rfl
  | a :: r => by
    rw [List.flatMap_cons, List.findSome?_append, findSome_flatMap f g r, List.findSome?_cons]
    cases (g a).findSome? f <;> rfl

theorem findSome_desc {γ : Type} (f : Nat → Option γ) : ∀ (n : Nat) (v : γ), (desc n).findSome? f = some v →
    ∃ k ≤ n, f k = some v ∧ ∀ j, k < j → j ≤ n → f j = none
  | 0, v, h => ⟨0, Nat.le_refl _, by
      have h0 : desc 0 = [0] := rfl
      rw [h0, List.findSome?_cons] at h
      cases hf : f 0 with
      | none => rw [hf] at h; cases h
      | some w => rw [hf] at h; exact h, by intro j h1 h2; omega⟩
  | n + 1, v, h => by
    have h0 : desc (n + 1) = (n + 1) :: desc n := by
      simp only [desc]
      rw [List.range_succ, List.reverse_append]
      rfl
    rw [h0, List.findSome?_cons] at h
    cases hf : f (n + 1) with
    | some w =>
      rw [hf] at h
      exact ⟨n + 1, Nat.le_refl _, by rw [hf]; exact h, by intro j h1 h2; omega⟩
    | none =>
      rw [hf] at h
      obtain ⟨k, hk, h1, h2⟩ := findSome_desc f n v h
      refine ⟨k, by omega, h1, ?_⟩
      intro j hj hj'
      by_cases hn : j = n + 1
      · rw [hn]; exact hf
      · exact h2 j hj (by omega)

theorem findSome_desc_some {γ : Type} {f : Nat → Option γ} {n k : Nat} (hk : k ≤ n) (h : f k ≠ none) : ∃ v, (desc n).findSome? f = some v := by
  have h1 : ((desc n).findSome? f).isSome := by
    rw [List.findSome?_isSome_iff]
    exact ⟨k, mem_desc.mpr hk, Option.isSome_iff_ne_none.mpr h⟩
  exact Option.isSome_iff_exists.mp h1

/-- The lengths of `[` and something after it. -/
theorem lens_open (s : Str) : lens (seq (ch '[') (plus dotRx)) s =
    match s with
    | '[' :: x :: t => if x = '\n' then [] else (desc (lineLen t)).map (2 + ·)
    | _ => [] := by
  match s with
  | [] => rfl
  | [c] =>
    by_cases hc : c = '['
    · subst hc; rfl
    · simp [lens, ch, hc]
  | c :: x :: t =>
    by_cases hc : c = '['
    · subst hc
      by_cases hx : x = '\n'
      · subst hx; simp [lens, ch, plus, dotRx]
      · have h2 : lens (plus dotRx) (x :: t) = (desc (lineLen t)).map (1 + ·) := by
          have h3 : lens (plus dotRx) (x :: t) = (lens dotRx (x :: t)).flatMap fun k => (lens (star dotRx) ((x :: t).drop k)).map (k + ·) := rfl
          have h5 : lens dotRx (x :: t) = [1] := by simp [dotRx, lens, hx]
          rw [h3, h5, List.flatMap_cons, List.flatMap_nil, List.append_nil, List.drop_succ_cons, List.drop_zero, lens_star_dot]
          rfl
        have h4 : lens (seq (ch '[') (plus dotRx)) ('[' :: x :: t) = (lens (plus dotRx) (x :: t)).map (1 + ·) := by
          simp [lens, ch]
        rw [h4, h2, List.map_map]
        simp only [hx, if_false]
        apply List.map_congr_left
        intro a _
        simp only [Function.comp_apply]
        omega
    · simp [lens, ch, hc]

theorem before_find {γ : Type} (f : Nat → Option γ) (s : Str) : (lens beforeRx s).findSome? f =
    (desc (lineLen s)).findSome? fun i => ((lens (seq (ch '[') (plus dotRx)) (s.drop i)).map (i + ·)).findSome? f := by
  have h : lens beforeRx s = (desc (lineLen s)).flatMap fun i => (lens (seq (ch '[') (plus dotRx)) (s.drop i)).map (i + ·) := by
    show (lens (star dotRx) s).flatMap _ = _
    rw [lens_star_dot]
    rfl
  rw [h, findSome_flatMap]

/-- Something in a bracket up to `k`. -/
theorem open_at {s : Str} {i : Nat} {x : Char} {t : Str} (h : s.drop i = '[' :: x :: t) {k : Nat} (hk : i + 2 ≤ k) :
    ∃ a y, s.take k = a ++ '[' :: y ∧ y ≠ [] := by
  refine ⟨s.take i, (s.drop (i + 1)).take (k - (i + 1)), ?_, ?_⟩
  · have h1 : s.take k = s.take i ++ (s.drop i).take (k - i) := by
      rw [← List.take_add]
      congr 1
      omega
    rw [h1, h]
    congr 1
    have h2 : k - i = (k - (i + 1)) + 1 := by omega
    rw [h2, List.take_succ_cons]
    have h3 : s.drop (i + 1) = x :: t := by rw [← List.drop_drop, h]; rfl
    rw [h3]
  · have h3 : s.drop (i + 1) = x :: t := by rw [← List.drop_drop, h]; rfl
    rw [h3]
    have h2 : k - (i + 1) = (k - (i + 2)) + 1 := by omega
    rw [h2, List.take_succ_cons]
    intro hh; cases hh

/-- The first line of the rest. -/
theorem after_len {v : Str} : (matchLen afterRx v = some (lineLen v) ∧ ∃ b r, v = b ++ ']' :: r ∧ '\n' ∉ b) ∨
    (matchLen afterRx v = none ∧ ¬ ∃ b r, v = b ++ ']' :: r ∧ '\n' ∉ b) := by
  have hl : ∀ u : Str, lens (seq (ch ']') (star dotRx)) u = match u with | ']' :: t => (desc (lineLen t)).map (1 + ·) | _ => [] := by
    intro u
    match u with
    | [] => rfl
    | c :: t =>
      by_cases hc : c = ']'
      · subst hc
        have h3 := lens_star_dot t
        have h4 : lens (seq (ch ']') (star dotRx)) (']' :: t) = (lens (star dotRx) t).map (1 + ·) := by simp [lens, ch]
        rw [h4, h3]
        rfl
      · simp [lens, ch, hc]
  have h : lens afterRx v = (desc (lineLen v)).flatMap fun i => (lens (seq (ch ']') (star dotRx)) (v.drop i)).map (i + ·) := by
    show (lens (star dotRx) v).flatMap _ = _
    rw [lens_star_dot]
    rfl
  have hm : matchLen afterRx v = (desc (lineLen v)).findSome? fun i => ((lens (seq (ch ']') (star dotRx)) (v.drop i)).map (i + ·)).findSome? some := by
    unfold matchLen
    rw [← findSome_flatMap, ← h]
    cases lens afterRx v <;> rfl
  have hv : ∀ i, i ≤ lineLen v → ∀ n, ((lens (seq (ch ']') (star dotRx)) (v.drop i)).map (i + ·)).findSome? some = some n →
      n = lineLen v ∧ ∃ t, v.drop i = ']' :: t := by
    intro i hi n hn
    rw [hl] at hn
    split at hn
    · rename_i t ht
      obtain ⟨m, hm⟩ : ∃ m, lineLen t = m := ⟨_, rfl⟩
      have h1 : lineLen (v.drop i) = lineLen t + 1 := by rw [ht]; simp [lineLen]
      rw [lineLen_drop hi] at h1
      have h2 : desc (lineLen t) = lineLen t :: (desc (lineLen t)).tail := by
        cases hh : lineLen t with
        | zero => rfl
        | succ k => simp [desc, List.range_succ, List.reverse_append]
      rw [h2] at hn
      simp only [List.map_cons, List.findSome?_cons] at hn
      cases hn
      exact ⟨by omega, t, ht⟩
    · cases hn
  cases hc : matchLen afterRx v with
  | some n =>
    left
    rw [hm] at hc
    obtain ⟨i, hi, h1, -⟩ := findSome_desc _ _ _ hc
    obtain ⟨h2, t, h3⟩ := hv i hi n h1
    refine ⟨by rw [h2], v.take i, t, ?_, (le_lineLen.mp hi).2⟩
    rw [← h3, List.take_append_drop]
  | none =>
    right
    refine ⟨rfl, ?_⟩
    rintro ⟨b, r, rfl, hb⟩
    rw [hm] at hc
    have hi : b.length ≤ lineLen (b ++ ']' :: r) := le_lineLen.mpr ⟨by simp, by simpa using hb⟩
    have hf : ((lens (seq (ch ']') (star dotRx)) ((b ++ ']' :: r).drop b.length)).map (b.length + ·)).findSome? some ≠ none := by
      rw [List.drop_left, hl]
      show ((desc (lineLen r)).map (1 + ·) |>.map (b.length + ·)).findSome? some ≠ none
      have h2 : desc (lineLen r) = lineLen r :: (desc (lineLen r)).tail := by
        cases hh : lineLen r with
        | zero => rfl
        | succ k => simp [desc, List.range_succ, List.reverse_append]
      rw [h2]
      simp
    obtain ⟨w, hw⟩ := findSome_desc_some (f := fun i => ((lens (seq (ch ']') (star dotRx)) ((b ++ ']' :: r).drop i)).map (i + ·)).findSome? some) hi hf
    rw [hw] at hc
    cases hc

theorem matchAfter_iff {mark s : Str} {k : Nat} {p : Str × Str} : matchAfter mark s k = some p ↔
    ∃ v, s.drop k = mark ++ v ∧ (∃ b r, v = b ++ ']' :: r ∧ '\n' ∉ b) ∧ p = (s.take k, v.take (lineLen v)) := by
  unfold matchAfter
  constructor
  · intro h
    split at h
    · rename_i hp
      obtain ⟨v, hv⟩ := List.isPrefixOf_iff_prefix.mp hp
      have hd : s.drop (k + mark.length) = v := by rw [← List.drop_drop, ← hv, List.drop_left]
      rw [hd] at h
      rcases after_len (v := v) with ⟨h1, h2⟩ | ⟨h1, -⟩
      · rw [h1] at h
        cases h
        exact ⟨v, hv.symm, h2, rfl⟩
      · rw [h1] at h; cases h
    · cases h
  · rintro ⟨v, hv, hc, rfl⟩
    have hd : s.drop (k + mark.length) = v := by rw [← List.drop_drop, hv, List.drop_left]
    rw [hv, hd]
    rw [if_pos (List.isPrefixOf_iff_prefix.mpr ⟨v, rfl⟩)]
    rcases after_len (v := v) with ⟨h1, -⟩ | ⟨-, h2⟩
    · rw [h1]; rfl
    · exact absurd hc h2

theorem bracketMatch_some {mark s : Str} {p : Str × Str} (h : bracketMatch mark s = some p) :
    ∃ u v, s = u ++ mark ++ v ∧ Enclosed u v ∧ p = (u, v.take (lineLen v)) ∧
      ∀ u' v', s = u' ++ mark ++ v' → Enclosed u' v' → u'.length ≤ u.length := by
  unfold bracketMatch at h
  rw [before_find] at h
  obtain ⟨i, hi, h1, -⟩ := findSome_desc _ _ _ h
  rw [lens_open] at h1
  split at h1
  case h_2 => cases h1
  rename_i x t hd
  split at h1
  · cases h1
  rename_i hx
  rw [List.map_map, List.findSome?_map] at h1
  obtain ⟨j, hj, h2, h3⟩ := findSome_desc _ _ _ h1
  simp only [Function.comp_apply] at h2 h3
  obtain ⟨v, hv, hc, hp⟩ := matchAfter_iff.mp h2
  have hll : lineLen s = i + 2 + lineLen t := by
    have h4 := lineLen_drop hi
    rw [hd] at h4
    have h5 : lineLen ('[' :: x :: t) = lineLen t + 2 := by simp [lineLen, hx]
    omega
  have hk : i + (2 + j) ≤ lineLen s := by omega
  refine ⟨s.take (i + (2 + j)), v, ?_, ⟨open_at hd (by omega), hc, (le_lineLen.mp hk).2⟩, hp, ?_⟩
  · rw [List.append_assoc, ← hv, List.take_append_drop]
  · intro u' v' hs he
    rw [List.length_take]
    have hle : i + (2 + j) ≤ s.length := (le_lineLen.mp hk).1
    rw [Nat.min_eq_left hle]
    apply Nat.le_of_not_lt
    intro hlt
    have hu : u'.length ≤ lineLen s := by
      apply le_lineLen.mpr
      refine ⟨by rw [hs]; simp, ?_⟩
      rw [hs, List.append_assoc, List.take_left]
      exact he.line
    have hn := h3 (u'.length - i - 2) (by omega) (by omega)
    have hk' : i + (2 + (u'.length - i - 2)) = u'.length := by omega
    rw [hk'] at hn
    have hy : matchAfter mark s u'.length = some (u', v'.take (lineLen v')) := by
      apply matchAfter_iff.mpr
      refine ⟨v', ?_, he.closed, ?_⟩
      · rw [hs, List.append_assoc, List.drop_left]
      · rw [hs, List.append_assoc, List.take_left]
    rw [hy] at hn
    cases hn

theorem bracketMatch_none {mark s : Str} : bracketMatch mark s = none ↔ ∀ u v, s = u ++ mark ++ v → ¬ Enclosed u v := by
  constructor
  · intro h u v hs he
    unfold bracketMatch at h
    rw [List.findSome?_eq_none_iff] at h
    have hy : matchAfter mark s u.length = some (u, v.take (lineLen v)) := by
      apply matchAfter_iff.mpr
      refine ⟨v, ?_, he.closed, ?_⟩
      · rw [hs, List.append_assoc, List.drop_left]
      · rw [hs, List.append_assoc, List.take_left]
    have hm : u.length ∈ lens beforeRx s := by
      show _ ∈ (lens (star dotRx) s).flatMap _
      rw [lens_star_dot, List.mem_flatMap]
      obtain ⟨a, x, hu, hx⟩ := he.opened
      have hline := he.line
      refine ⟨a.length, mem_desc.mpr (le_lineLen.mpr ⟨by rw [hs, hu]; simp, ?_⟩), ?_⟩
      · rw [hs, hu]
        simp only [List.append_assoc, List.take_left]
        intro hh
        exact hline (by rw [hu]; simp [hh])
      · rw [List.mem_map]
        refine ⟨1 + x.length, ?_, by rw [hu]; simp; omega⟩
        have hd : s.drop a.length = '[' :: (x ++ (mark ++ v)) := by
          rw [hs, hu]
          simp only [List.append_assoc, List.drop_left]
          rfl
        rw [hd, lens_open]
        cases x with
        | nil => exact absurd rfl hx
        | cons c w =>
          have hc : c ≠ '\n' := by
            intro hc
            subst hc
            exact hline (by rw [hu]; simp)
          simp only [List.cons_append, hc, if_false]
          rw [List.mem_map]
          refine ⟨w.length, mem_desc.mpr (le_lineLen.mpr ⟨by simp, ?_⟩), by simp; omega⟩
          rw [List.take_left]
          intro hh
          exact hline (by rw [hu]; simp [hh])
    have := h _ hm
    rw [hy] at this
    cases this
  · intro h
    cases hb : bracketMatch mark s with
    | none => rfl
    | some p =>
      obtain ⟨u, v, hs, he, -⟩ := bracketMatch_some hb
      exact absurd he (h u v hs)

/-- The last mark between brackets is replaced, and what follows on further lines is lost. -/
theorem replaceIn_last {mark new s u v : Str} (hs : s = u ++ mark ++ v) (he : Enclosed u v)
    (hl : ∀ u' v', s = u' ++ mark ++ v' → Enclosed u' v' → u'.length ≤ u.length) : replaceIn mark new s = u ++ new ++ v.take (lineLen v) := by
  unfold replaceIn
  cases hb : bracketMatch mark s with
  | none => exact absurd he (bracketMatch_none.mp hb u v hs)
  | some p =>
    obtain ⟨u', v', hs', he', hp, hl'⟩ := bracketMatch_some hb
    have hlen : u.length = u'.length := Nat.le_antisymm (hl' u v hs he) (hl u' v' hs' he')
    have h1 : u ++ (mark ++ v) = u' ++ (mark ++ v') := by rw [← List.append_assoc, ← List.append_assoc, ← hs, ← hs']
    obtain ⟨rfl, h2⟩ := List.append_inj h1 hlen
    have h3 := List.append_cancel_left h2
    subst h3
    rw [hp]

theorem replaceIn_none {mark new s : Str} (h : ∀ u v, s = u ++ mark ++ v → ¬ Enclosed u v) : replaceIn mark new s = s := by
  unfold replaceIn
  rw [bracketMatch_none.mpr h]

theorem lineLen_all {v : Str} (h : '\n' ∉ v) : lineLen v = v.length := by
  apply Nat.le_antisymm
  · exact (le_lineLen.mp (Nat.le_refl _)).1
  · exact le_lineLen.mpr ⟨Nat.le_refl _, by rw [List.take_length]; exact h⟩

/-! ## Replacing everywhere -/

section Everywhere
variable {c d : Char} {new : Str}

theorem ra_cons {x : Char} {r : Str} (h : ¬ (x = c ∧ ∃ t, r = d :: t)) : replacePairs c d new (x :: r) = x :: replacePairs c d new r := by
  cases r with
  | nil => rfl
  | cons y t =>
    rw [replacePairs, if_neg]
    rintro ⟨rfl, rfl⟩
    exact h ⟨rfl, t, rfl⟩

theorem ra_mark (r : Str) : replacePairs c d new (c :: d :: r) = new ++ replacePairs c d new r := by
  rw [replacePairs, if_pos ⟨rfl, rfl⟩]

theorem ra_none : ∀ {s : Str}, (∀ u v, s ≠ u ++ c :: d :: v) → replacePairs c d new s = s
  | [], _ => rfl
  | x :: r, h => by
    rw [ra_cons, ra_none]
    · intro u v hh
      exact h (x :: u) v (by rw [hh]; rfl)
    · rintro ⟨rfl, t, rfl⟩
      exact h [] t rfl

theorem ra_once : ∀ {s u v : Str}, s = u ++ c :: d :: v → (∀ u v u' v', s = u ++ c :: d :: v → s = u' ++ c :: d :: v' → u = u') →
    replacePairs c d new s = u ++ new ++ v
  | _, [], v, rfl, ho => by
    rw [List.nil_append, ra_mark, List.nil_append, ra_none]
    intro u v' hh
    have := ho [] v (c :: d :: u) v' rfl (by rw [hh]; rfl)
    cases this
  | _, x :: u, v, rfl, ho => by
    rw [List.cons_append, ra_cons, ra_once (s := u ++ c :: d :: v) rfl]
    · rfl
    · intro u1 v1 u2 v2 h1 h2
      have := ho (x :: u1) v1 (x :: u2) v2 (by rw [List.cons_append, h1]; rfl) (by rw [List.cons_append, h2]; rfl)
      exact (List.cons.inj this).2
    · rintro ⟨rfl, t, ht⟩
      have := ho (x :: u) v [] t rfl (by rw [List.cons_append, ht]; rfl)
      cases this

theorem ra_ne_nil {s : Str} (hn : new ≠ []) (h : s ≠ []) : replacePairs c d new s ≠ [] := by
  match s, h with
  | [x], _ => intro hh; cases hh
  | x :: y :: r, _ =>
    rw [replacePairs]
    split
    · intro hh
      exact hn (List.append_eq_nil_iff.mp hh).1
    · intro hh; cases hh

theorem ra_mem : ∀ (n : Nat) {s : Str} {z : Char}, s.length ≤ n → z ∈ replacePairs c d new s → z ∈ s ∨ z ∈ new
  | _, [], z, _, h => by cases h
  | n, [x], z, _, h => .inl h
  | n + 1, x :: y :: r, z, hn, h => by
    rw [replacePairs] at h
    split at h
    · rcases List.mem_append.mp h with h | h
      · exact .inr h
      · rcases ra_mem n (by simp at hn; omega) h with h | h
        · exact .inl (by simp [h])
        · exact .inr h
    · rcases List.mem_cons.mp h with h | h
      · exact .inl (by simp [h])
      · rcases ra_mem n (by simp at hn ⊢; omega) h with h | h
        · exact .inl (List.mem_cons_of_mem _ h)
        · exact .inr h

theorem ra_split {z : Char} (hc : z ≠ c) (hd : z ≠ d) {b : Str} : ∀ (n : Nat) {a : Str}, a.length ≤ n →
    replacePairs c d new (a ++ z :: b) = replacePairs c d new a ++ z :: replacePairs c d new b
  | _, [], _ => by
    rw [List.nil_append, ra_cons (by rintro ⟨h, -⟩; exact hc h)]
    rfl
  | n, [x], _ => by
    show replacePairs c d new (x :: z :: b) = [x] ++ z :: replacePairs c d new b
    rw [ra_cons, ra_cons (by rintro ⟨h, -⟩; exact hc h)]
    · rfl
    · rintro ⟨-, t, ht⟩
      exact hd (List.cons.inj ht).1
  | n + 1, x :: y :: r, hn => by
    simp only [List.cons_append]
    by_cases hm : x = c ∧ y = d
    · rw [hm.1, hm.2, ra_mark, ra_mark, ra_split hc hd n (by simp at hn; omega), List.append_assoc]
    · have hm' : ∀ t, ¬ (x = c ∧ ∃ u, y :: t = d :: u) := by
        rintro t ⟨h1, u, h2⟩
        exact hm ⟨h1, (List.cons.inj h2).1⟩
      rw [ra_cons (hm' _), ra_cons (hm' _), ← List.cons_append, ra_split hc hd n (by simp at hn ⊢; omega)]
      rfl

theorem enclosed_ra {u v : Str} (hn : '\n' ∉ new) (hne : new ≠ []) (h1 : '[' ≠ c) (h2 : '[' ≠ d) (h3 : ']' ≠ c) (h4 : ']' ≠ d) (h : Enclosed u v) :
    Enclosed (replacePairs c d new u) (replacePairs c d new v) := by
  obtain ⟨⟨a, x, rfl, hx⟩, ⟨b, r, rfl, hb⟩, hl⟩ := h
  refine ⟨⟨_, _, ra_split h1 h2 _ (Nat.le_refl _), ra_ne_nil hne hx⟩, ⟨_, _, ra_split h3 h4 _ (Nat.le_refl _), ?_⟩, ?_⟩
  · intro hh
    rcases ra_mem _ (Nat.le_refl _) hh with hh | hh
    · exact hb hh
    · exact hn hh
  · intro hh
    rcases ra_mem _ (Nat.le_refl _) hh with hh | hh
    · exact hl hh
    · exact hn hh

/-- Other marks that begin with the same character stay where they are. -/
theorem ra_other {e : Char} (hcd : c ≠ d) (hce : c ≠ e) (hde : d ≠ e) : ∀ (n : Nat) {s u' v' : Str}, s.length ≤ n →
    replacePairs c d [c, c, d] s = u' ++ c :: e :: v' →
    ∃ u v, s = u ++ c :: e :: v ∧ u' = replacePairs c d [c, c, d] u ∧ v' = replacePairs c d [c, c, d] v
  | _, [], u', v', _, h => by
    have := congrArg List.length h
    simp [replacePairs] at this
  | n, [x], u', v', _, h => by
    have := congrArg List.length h
    simp [replacePairs] at this
    omega
  | n + 1, x :: y :: r, u', v', hn, h => by
    by_cases hm : x = c ∧ y = d
    · rw [hm.1, hm.2] at h ⊢
      rw [ra_mark] at h
      match u', h with
      | [], h =>
        simp only [List.cons_append, List.nil_append, List.cons.injEq] at h
        exact absurd h.2.1 hce
      | [_], h =>
        simp only [List.cons_append, List.nil_append, List.cons.injEq] at h
        exact absurd h.2.2.1 hde
      | [_, _], h =>
        simp only [List.cons_append, List.nil_append, List.cons.injEq] at h
        exact absurd h.2.2.1.symm hcd
      | p :: q :: o :: u'', h =>
        simp only [List.cons_append, List.nil_append, List.cons.injEq] at h
        obtain ⟨hp, hq, ho, h⟩ := h
        obtain ⟨u, v, h1, h2, h3⟩ := ra_other hcd hce hde n (by simp at hn; omega) h
        exact ⟨c :: d :: u, v, by rw [h1]; rfl, by rw [ra_mark, h2, ← hp, ← hq, ← ho]; rfl, h3⟩
    · have hm' : ∀ t, ¬ (x = c ∧ ∃ u, y :: t = d :: u) := by
        rintro t ⟨h1, u, h2⟩
        exact hm ⟨h1, (List.cons.inj h2).1⟩
      rw [ra_cons (hm' _)] at h
      match u', h with
      | [], h =>
        simp only [List.nil_append, List.cons.injEq] at h
        obtain ⟨hx, h⟩ := h
        by_cases hy : y = c ∧ ∃ t, r = d :: t
        · obtain ⟨hy, t, rfl⟩ := hy
          rw [hy, ra_mark] at h
          simp only [List.cons_append, List.cons.injEq] at h
          exact absurd h.1 hce
        · rw [ra_cons hy] at h
          simp only [List.cons.injEq] at h
          exact ⟨[], r, by rw [hx, h.1]; rfl, rfl, h.2.symm⟩
      | p :: u'', h =>
        simp only [List.cons_append, List.cons.injEq] at h
        obtain ⟨hp, h⟩ := h
        obtain ⟨u, v, h1, h2, h3⟩ := ra_other hcd hce hde n (by simp at hn ⊢; omega) h
        refine ⟨x :: u, v, by rw [h1]; rfl, ?_, h3⟩
        rw [ra_cons, h2, hp]
        rintro ⟨rfl, t, rfl⟩
        simp only [List.cons_append, List.cons.injEq] at h1
        exact hm ⟨rfl, h1.1⟩

end Everywhere

theorem regular_ra {s : Str} (h : Regular '\\' 'n' s) : Regular '\\' 'n' (replacePairs '\\' '{' ['\\', '\\', '{'] s) := by
  constructor
  · intro u v u' v' h1 h2
    obtain ⟨u1, v1, h3, rfl, rfl⟩ := ra_other (by decide) (by decide) (by decide) _ (Nat.le_refl _) h1
    obtain ⟨u2, v2, h4, rfl, rfl⟩ := ra_other (by decide) (by decide) (by decide) _ (Nat.le_refl _) h2
    rw [h.once _ _ _ _ h3 h4]
  · intro u v h1
    obtain ⟨u1, v1, h3, rfl, rfl⟩ := ra_other (by decide) (by decide) (by decide) _ (Nat.le_refl _) h1
    exact enclosed_ra (by decide) (by decide) (by decide) (by decide) (by decide) (by decide) (h.inside _ _ h3)

theorem replaceIn_regular {c d : Char} {new s : Str} (hl : '\n' ∉ s) (h : Regular c d s) : replaceIn [c, d] new s = replacePairs c d new s := by
  by_cases ho : ∃ u v, s = u ++ c :: d :: v
  · obtain ⟨u, v, hs⟩ := ho
    rw [ra_once hs h.once, replaceIn_last (u := u) (v := v) (by rw [hs]; simp) (h.inside u v hs), lineLen_all, List.take_length]
    · intro hv
      exact hl (by rw [hs]; simp [hv])
    · intro u' v' hs' _
      rw [h.once u' v' u v (by rw [hs']; simp) hs]
      exact Nat.le_refl _
  · rw [ra_none (fun u v hh => ho ⟨u, v, hh⟩), replaceIn_none]
    intro u v hh
    exact absurd ⟨u, v, by rw [hh]; simp⟩ ho

theorem regular_dollar {c d : Char} {s : Str} (hd : d ≠ '$') (h : Regular c d s) : Regular c d (s ++ ['$']) := by
  have key : ∀ u v, s ++ ['$'] = u ++ c :: d :: v → ∃ v', v = v' ++ ['$'] ∧ s = u ++ c :: d :: v' := by
    intro u v hh
    rcases List.eq_nil_or_concat v with rfl | ⟨v', x, rfl⟩
    · have h1 : s ++ ['$'] = (u ++ [c]) ++ [d] := by rw [hh]; simp
      have := (List.append_inj' h1 rfl).2
      exact absurd (List.cons.inj this).1.symm hd
    · have h1 : s ++ ['$'] = (u ++ c :: d :: v') ++ [x] := by rw [hh]; simp
      obtain ⟨h2, h3⟩ := List.append_inj' h1 rfl
      have hx := (List.cons.inj h3).1
      subst hx
      exact ⟨v', by simp, h2⟩
  constructor
  · intro u v u' v' h1 h2
    obtain ⟨_, -, h3⟩ := key _ _ h1
    obtain ⟨_, -, h4⟩ := key _ _ h2
    exact h.once _ _ _ _ h3 h4
  · intro u v h1
    obtain ⟨v', rfl, h3⟩ := key _ _ h1
    obtain ⟨ho, ⟨b, r, rfl, hb⟩, hl⟩ := h.inside _ _ h3
    exact ⟨ho, ⟨b, r ++ ['$'], by simp, hb⟩, hl⟩

/-- A mark is the last one when its first character does not occur after it. -/
theorem last_of {c d : Char} (hcd : c ≠ d) {u v u' v' : Str} (hv : c ∉ v) (h : u ++ [c, d] ++ v = u' ++ [c, d] ++ v') : u'.length ≤ u.length := by
  apply Nat.le_of_not_lt
  intro hlt
  rw [List.append_assoc, List.append_assoc] at h
  rcases List.append_eq_append_iff.mp h with ⟨m, h3, h4⟩ | ⟨m, h3, -⟩
  · match m, h3, h4 with
    | [], h3, _ => rw [h3] at hlt; simp at hlt
    | [p], _, h4 =>
      simp only [List.cons_append, List.nil_append, List.cons.injEq] at h4
      exact hcd h4.2.1.symm
    | p :: q :: w, _, h4 =>
      simp only [List.cons_append, List.nil_append, List.cons.injEq] at h4
      exact hv (by rw [h4.2.2]; simp)
  · rw [h3] at hlt
    simp at hlt
    omega

theorem regular_free {c d : Char} {s : Str} (h : c ∉ s) : Regular c d s := by
  constructor
  · intro u v _ _ hs _
    exact absurd (by rw [hs]; simp) h
  · intro u v hs
    exact absurd (by rw [hs]; simp) h

theorem regular_one {c d : Char} {u v : Str} (hu : c ∉ u) (hv : c ∉ v) (hcd : c ≠ d) (he : Enclosed u v) : Regular c d (u ++ c :: d :: v) := by
  have key : ∀ u' v', u ++ c :: d :: v = u' ++ c :: d :: v' → u' = u ∧ v' = v := by
    intro u' v' h
    rcases List.append_eq_append_iff.mp h with ⟨m, h3, h4⟩ | ⟨m, h3, h4⟩
    · match m, h3, h4 with
      | [], h3, h4 =>
        simp only [List.nil_append, List.cons.injEq] at h4
        exact ⟨by simpa using h3, h4.2.2.symm⟩
      | [p], _, h4 =>
        simp only [List.cons_append, List.nil_append, List.cons.injEq] at h4
        exact absurd h4.2.1.symm hcd
      | p :: q :: w, _, h4 =>
        simp only [List.cons_append, List.cons.injEq] at h4
        exact absurd (by rw [h4.2.2]; simp) hv
    · cases m with
      | nil =>
        simp only [List.nil_append, List.cons.injEq] at h4
        exact ⟨by simpa using h3.symm, h4.2.2⟩
      | cons p m =>
        simp only [List.cons_append, List.cons.injEq] at h4
        exact absurd (by rw [h3, h4.1]; simp) hu
  constructor
  · intro u1 v1 u2 v2 h1 h2
    rw [(key _ _ h1).1, (key _ _ h2).1]
  · intro u' v' h
    obtain ⟨rfl, rfl⟩ := key _ _ h
    exact he

/-! ## The tables -/

theorem compileAll_ok [CaseFold] {M : Type} {compile : Str → Except PyErr M} : ∀ {ts cs : List Str} {ms : List M} {d : Dict Str M}, ts.length = cs.length →
    (dkeys d ++ ts).Nodup → Validate.mapE (fun c => compile (regexFiddle c)) cs = .ok ms → compileAll compile d (ts.zip cs) = .ok (d ++ ts.zip ms)
  | [], [], _, d, _, _, h => by
    cases h
    simp [compileAll]
  | t :: ts, c :: cs, ms, d, hl, hn, h => by
    simp only [Validate.mapE] at h
    cases hc : compile (regexFiddle c) with
    | error e => rw [hc] at h; cases h
    | ok m =>
      rw [hc] at h
      simp only at h
      cases hr : Validate.mapE (fun c => compile (regexFiddle c)) cs with
      | error e => rw [hr] at h; cases h
      | ok ms' =>
        rw [hr] at h
        cases h
        simp only [List.zip_cons_cons, compileAll, hc]
        have hk : t ∉ dkeys d := by
          intro hh
          exact (List.nodup_append.mp hn).2.2 t hh t (by simp) rfl
        rw [Block.dset_new m hk, compileAll_ok (by simpa using hl) _ hr]
        · simp
        · simpa [dkeys] using hn

theorem texts_list (l : List Str) : texts (.list (l.map .str)) = .ok l := by
  simp only [texts]
  induction l with
  | nil => rfl
  | cons a r ih => simp [Validate.mapE, text, ih]

end TypeInfo
end Verif
