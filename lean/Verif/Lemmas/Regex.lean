import Verif.Spec.Scan
/-! # Lemmas about regular expressions -/
namespace Verif.Rx

theorem many_le {f : Str → List Nat} (hf : ∀ s k, k ∈ f s → k ≤ s.length) : ∀ (n : Nat) (s : Str) (k : Nat),
    k ∈ many f n s → k ≤ s.length
  | 0, s, k, h => by simp [many] at h; omega
  | n + 1, s, k, h => by
    simp only [many, List.mem_append, List.mem_flatMap, List.mem_map, List.mem_filter, List.mem_singleton] at h
    rcases h with ⟨a, ⟨ha, -⟩, b, hb, rfl⟩ | rfl
    · have h1 := hf s a ha
      have h2 := many_le hf n _ _ hb
      rw [List.length_drop] at h2
      omega
    · omega

theorem manyLazy_le {f : Str → List Nat} (hf : ∀ s k, k ∈ f s → k ≤ s.length) : ∀ (n : Nat) (s : Str) (k : Nat),
    k ∈ manyLazy f n s → k ≤ s.length
  | 0, s, k, h => by simp [manyLazy] at h; omega
  | n + 1, s, k, h => by
    simp only [manyLazy, List.mem_cons, List.mem_flatMap, List.mem_map, List.mem_filter] at h
    rcases h with rfl | ⟨a, ⟨ha, -⟩, b, hb, rfl⟩
    · omega
    · have h1 := hf s a ha
      have h2 := manyLazy_le hf n _ _ hb
      rw [List.length_drop] at h2
      omega

/-- A match does not go beyond the end of the text. -/
theorem lens_le : ∀ (r : Rx) (s : Str) (k : Nat), k ∈ lens r s → k ≤ s.length
  | eps, s, k, h => by simp [lens] at h; omega
  | cls p, [], k, h => by simp [lens] at h
  | cls p, c :: s, k, h => by
    simp only [lens] at h
    split at h <;> simp at h
    subst h
    simp
  | seq a b, s, k, h => by
    simp only [lens, List.mem_flatMap, List.mem_map] at h
    obtain ⟨i, hi, j, hj, rfl⟩ := h
    have h1 := lens_le a s i hi
    have h2 := lens_le b _ j hj
    rw [List.length_drop] at h2
    omega
  | alt a b, s, k, h => by
    simp only [lens, List.mem_append] at h
    rcases h with h | h
    · exact lens_le a s k h
    · exact lens_le b s k h
  | star a, s, k, h => many_le (lens_le a) _ s k h
  | lazy a, s, k, h => manyLazy_le (lens_le a) _ s k h
  | ahead a, s, k, h => by
    simp only [lens] at h
    split at h <;> simp at h
    omega
  | notAhead a, s, k, h => by
    simp only [lens] at h
    split at h <;> simp at h
    omega
  | eol, s, k, h => by
    simp only [lens] at h
    split at h <;> simp at h
    omega

theorem mem_of_matchLen {r : Rx} {s : Str} {k : Nat} (h : matchLen r s = some k) : k ∈ lens r s :=
  List.mem_of_mem_head? (by rw [matchLen] at h; exact h)

theorem pattern_inside (r : Rx) (input : Str) (pos k : Nat) (h : r.pattern input pos = some k) (hp : pos ≤ input.length) :
    pos + k ≤ input.length := by
  have := lens_le r _ k (mem_of_matchLen h)
  rw [List.length_drop] at this
  omega

end Verif.Rx

namespace Verif
open Rx

/-- The lexer for a table of regular expressions. -/
def Pat.lexer (t : Pat.Table) : Lexer Tk := ⟨t.map fun p => (p.1, p.2.pattern), Pat.ignored⟩

theorem Pat.lexer_inside (t : Pat.Table) : Scanner.Inside (Pat.lexer t) := by
  intro p hp input pos k h hpos
  simp only [Pat.lexer, List.mem_map] at hp
  obtain ⟨q, -, rfl⟩ := hp
  exact pattern_inside _ _ _ _ h hpos

theorem cls_pos {p : Char → Bool} {s : Str} {k : Nat} (h : k ∈ lens (cls p) s) : k = 1 := by
  cases s with
  | nil => simp [lens] at h
  | cons c s =>
    simp only [lens] at h
    split at h <;> simp at h
    exact h

theorem Pat.ignore1_pos (s : Str) : (0 : Nat) ∉ lens Pat.ignore1 s := by
  intro h
  simp only [Pat.ignore1, lens, List.mem_append, List.mem_flatMap, List.mem_map] at h
  rcases h with ⟨i, hi, j, -, h⟩ | h
  · have := cls_pos (p := fun c => c == ' ' || c == '\t' || c == '\n' || c == '\r') (s := s) (k := i) hi
    omega
  · have := cls_pos (p := fun c => c == ' ' || c == '\t') (s := s) (k := 0) h
    omega

theorem Pat.ignore2_pos (s : Str) : (0 : Nat) ∉ lens Pat.ignore2 s := by
  intro h
  simp only [Pat.ignore2, ch, seqs, lens, List.mem_append, List.mem_flatMap, List.mem_map] at h
  rcases h with ⟨i, hi, j, -, h⟩ | ⟨i, hi, j, -, h⟩
  · have := cls_pos (p := (· == '#')) (s := s) (k := i) hi
    omega
  · have := cls_pos (p := (· == '#')) (s := s) (k := i) hi
    omega

/-- In these tables the ignored names have the two patterns of the code. -/
def Pat.Usual (t : Pat.Table) : Prop := ∀ p ∈ t, p.1 ∈ Pat.ignored → p.2 = Pat.ignore1 ∨ p.2 = Pat.ignore2

theorem Pat.lexer_solid {t : Pat.Table} (ht : Pat.Usual t) : Scanner.Solid (Pat.lexer t) := by
  intro p hp hi input pos h
  simp only [Pat.lexer, List.mem_map] at hp
  obtain ⟨q, hq, rfl⟩ := hp
  have hm := mem_of_matchLen h
  rcases ht q hq hi with e | e
  · rw [e] at hm; exact Pat.ignore1_pos _ hm
  · rw [e] at hm; exact Pat.ignore2_pos _ hm

theorem Pat.usual_of_filter {t : Pat.Table} (h : t.filter (fun p => decide (p.1 ∈ Pat.ignored)) = [(.ignore1, Pat.ignore1), (.ignore2, Pat.ignore2)]) :
    Pat.Usual t := by
  intro p hp hi
  have : p ∈ t.filter (fun p => decide (p.1 ∈ Pat.ignored)) := List.mem_filter.2 ⟨hp, decide_eq_true hi⟩
  rw [h] at this
  simp only [List.mem_cons, List.not_mem_nil, or_false] at this
  rcases this with rfl | rfl
  · exact .inl rfl
  · exact .inr rfl

theorem Pat.usual_table1 (f : Char → Bool) : Pat.Usual (Pat.table1 f) := Pat.usual_of_filter rfl

theorem Pat.usual_table2 (b : Bool) : Pat.Usual (Pat.table2 b) := by
  cases b <;> exact Pat.usual_of_filter rfl

end Verif
