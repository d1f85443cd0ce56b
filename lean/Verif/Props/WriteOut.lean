import Verif.Props.CollectionTree
import Verif.Lemmas.WriteOut
/-! # Properties of writing out a collection: C37 -/
set_option linter.unusedSectionVars false
namespace Verif.Coll
open List
variable [CaseFold]

/-- C37: without nesting, writing out the blocks in a given order of distinct keys gives one data block for each top-level block,
in that order, headed by its own name, with one save frame in it for each block below it, in that order. -/
theorem C37_flat {c : Coll} (h : Reachable c) {ord : List Str} (hn : ord.Nodup) (ho : ∀ k ∈ ord, k ∈ c.lowerKeys) :
    c.writeOutIn false ord = .ok (flatFile c ord) := by
  have hc := reachable_consistent h
  unfold writeOutIn
  rw [topNames_eq hc ho]
  simp only
  rw [writeTops_flat hc ho hn]
  · rfl
  · intro t ht
    have ht' := List.mem_filter.mp ht
    exact ⟨ho t ht'.1, of_decide_eq_true ht'.2⟩
  · exact hn.filter _
  · exact hc.nd_table
  · intro t _ x hx _
    exact (hc.mem_table x).mpr hx

theorem written_frames (c : Coll) : ∀ ks : List Str, written (ks.flatMap (frame c)) = ks
  | [] => rfl
  | k :: ks => by
    rw [List.flatMap_cons, written_append, written_frames c ks]
    rfl

theorem written_dataBlock (c : Coll) (t : Str) (inner : List Piece) :
    (written (dataBlock c t inner) = t :: written inner) ∨ (written (dataBlock c t inner) = written inner ++ [t]) := by
  unfold dataBlock
  split
  · left
    simp [written, written_append]
  · right
    simp [written, written_append]

theorem once_block {c : Coll} (h : Consistent c) {t : Str} {inner : List Piece} (hn : (written inner).Nodup)
    (hm : ∀ x, x ∈ written inner ↔ Under c t x) :
    (written (dataBlock c t inner)).Nodup ∧ ∀ x, x ∈ written (dataBlock c t inner) ↔ Within c t x := by
  have ht : t ∉ written inner := fun hh => h.acyclic t ((hm t).mp hh)
  rcases written_dataBlock c t inner with e | e
  · rw [e]
    refine ⟨List.nodup_cons.mpr ⟨ht, hn⟩, ?_⟩
    intro x
    rw [List.mem_cons, hm]; rfl
  · rw [e]
    refine ⟨?_, ?_⟩
    · rw [List.nodup_append]
      refine ⟨hn, by simp, ?_⟩
      intro a ha b hb hab
      simp only [List.mem_singleton] at hb
      subst hb; subst hab
      exact ht ha
    · intro x
      rw [List.mem_append, hm, List.mem_singleton]
      exact Or.comm

theorem once_flat {c : Coll} (h : Consistent c) {ord : List Str} (hn : ord.Nodup) (ho : ∀ x, x ∈ ord ↔ x ∈ c.lowerKeys) :
    ∀ (ts : List Str), ts.Nodup → (∀ t ∈ ts, t ∈ c.lowerKeys ∧ parentOf c t = none) →
      (written (ts.flatMap fun t => dataBlock c t ((framesOf c t ord).flatMap (frame c)))).Nodup ∧
      ∀ x, x ∈ written (ts.flatMap fun t => dataBlock c t ((framesOf c t ord).flatMap (frame c))) ↔ ∃ t ∈ ts, Within c t x
  | [], _, _ => ⟨List.nodup_nil, by simp [written]⟩
  | t :: ts, hnt, ht => by
    classical
    have hnt' := List.nodup_cons.mp hnt
    obtain ⟨b1, b2⟩ := once_flat h hn ho ts hnt'.2 fun s hs => ht s (List.mem_cons_of_mem _ hs)
    have hf : ∀ x, x ∈ framesOf c t ord ↔ Under c t x := by
      intro x
      rw [framesOf, List.mem_filter, decide_eq_true_iff]
      exact ⟨fun hh => hh.2, fun hh => ⟨(ho x).mpr ((h.mem_table x).mp (under_mem hh)), hh⟩⟩
    obtain ⟨a1, a2⟩ := once_block h (t := t) (inner := (framesOf c t ord).flatMap (frame c))
      (by rw [written_frames]; exact hn.filter _) (by rw [written_frames]; exact hf)
    rw [List.flatMap_cons, written_append]
    refine ⟨?_, ?_⟩
    · rw [List.nodup_append]
      refine ⟨a1, b1, ?_⟩
      intro x hx y hy hxy
      subst hxy
      obtain ⟨s, hs, hw⟩ := (b2 x).mp hy
      have := within_top_unique (ht t List.mem_cons_self).2 (ht s (List.mem_cons_of_mem _ hs)).2 ((a2 x).mp hx) hw
      exact hnt'.1 (this ▸ hs)
    · intro x
      rw [List.mem_append, a2, b2]
      constructor
      · rintro (hw | ⟨i, hi, hw⟩)
        · exact ⟨t, List.mem_cons_self, hw⟩
        · exact ⟨i, List.mem_cons_of_mem _ hi, hw⟩
      · rintro ⟨i, hi, hw⟩
        rcases List.mem_cons.mp hi with rfl | hi
        · exact Or.inl hw
        · exact Or.inr ⟨i, hi, hw⟩

/-- C37: in the default order every block of the collection is written exactly once. -/
theorem C37_flat_complete {c : Coll} (h : Reachable c) :
    c.writeOut false = .ok (flatFile c c.inputOrder) ∧ (written (flatFile c c.inputOrder)).Nodup ∧
      ∀ k, k ∈ written (flatFile c c.inputOrder) ↔ k ∈ c.lowerKeys := by
  have hc := reachable_consistent h
  have hm := fun x => hc.mem_order x
  have htop : ∀ t ∈ topsOf c c.inputOrder, t ∈ c.lowerKeys ∧ parentOf c t = none := fun t ht => by
    have ht' := List.mem_filter.mp ht
    exact ⟨(hm t).mp ht'.1, of_decide_eq_true ht'.2⟩
  obtain ⟨h1, h2⟩ := once_flat hc hc.nd_order hm (topsOf c c.inputOrder) (hc.nd_order.filter _) htop
  refine ⟨C37_flat h hc.nd_order (fun k hk => (hm k).mp hk), h1, ?_⟩
  intro k
  refine (h2 k).trans ?_
  constructor
  · rintro ⟨t, ht, hw⟩
    rcases hw with rfl | hw
    · exact (htop _ ht).1
    · exact (hc.mem_table k).mp (under_mem hw)
  · intro hk
    obtain ⟨t, h3, h4, h5⟩ := top_exists hc _ k hk (Nat.lt_succ_self _)
    exact ⟨t, List.mem_filter.mpr ⟨(hm t).mpr h3, decide_eq_true h4⟩, h5⟩

example : letI := asciiFold
    Reachable demo ∧ demo.writeOut false = .ok
      [.data "Main".toList, .front "main".toList, .save "inner".toList, .body "inner".toList, .endSave, .save "Deep".toList,
        .body "deep".toList, .endSave, .back "main".toList, .data "other".toList, .front "other".toList, .back "other".toList] :=
  ⟨demo_reachable, by decide +kernel⟩

theorem once_nested {c : Coll} (h : Consistent c) {ts : List Str} {out : List Piece} (hf : NestedFile c ts out) :
    ts.Nodup → (∀ t ∈ ts, parentOf c t = none) → (written out).Nodup ∧ ∀ x, x ∈ written out ↔ ∃ t ∈ ts, Within c t x := by
  induction hf with
  | nil => exact fun _ _ => ⟨List.nodup_nil, by simp [written]⟩
  | @cons t ts kids out rest hk hm hfr _ ih =>
    intro hnt ht
    have hnt' := List.nodup_cons.mp hnt
    obtain ⟨b1, b2⟩ := ih hnt'.2 fun s hs => ht s (List.mem_cons_of_mem _ hs)
    obtain ⟨f1, f2⟩ := frames_written h hfr _ (fun x hx => (hm x).mp hx) hk
    obtain ⟨a1, a2⟩ := once_block h (t := t) f1 (fun x => by
      rw [f2, under_iff_head]
      exact ⟨fun ⟨i, hi, hw⟩ => ⟨i, (hm i).mp hi, hw⟩, fun ⟨i, hi, hw⟩ => ⟨i, (hm i).mpr hi, hw⟩⟩)
    rw [written_append]
    refine ⟨?_, ?_⟩
    · rw [List.nodup_append]
      refine ⟨a1, b1, ?_⟩
      intro x hx y hy hxy
      subst hxy
      obtain ⟨s, hs, hw⟩ := (b2 x).mp hy
      have := within_top_unique (ht t List.mem_cons_self) (ht s (List.mem_cons_of_mem _ hs)) ((a2 x).mp hx) hw
      exact hnt'.1 (this ▸ hs)
    · intro x
      rw [List.mem_append, a2, b2]
      constructor
      · rintro (hw | ⟨i, hi, hw⟩)
        · exact ⟨t, List.mem_cons_self, hw⟩
        · exact ⟨i, List.mem_cons_of_mem _ hi, hw⟩
      · rintro ⟨i, hi, hw⟩
        rcases List.mem_cons.mp hi with rfl | hi
        · exact Or.inl hw
        · exact Or.inr ⟨i, hi, hw⟩

/-- C37: with nested save frames, one data block is written for each top-level block, in the default order, with a save frame
inside it for each of its children, and so on; every block of the collection is written exactly once. -/
theorem C37_nested {c : Coll} (h : Reachable c) :
    ∃ out, c.writeOut true = .ok out ∧ NestedFile c (topsOf c c.inputOrder) out ∧ (written out).Nodup ∧
      ∀ k, k ∈ written out ↔ k ∈ c.lowerKeys := by
  have hc := reachable_consistent h
  have hm := fun x => hc.mem_order x
  have htop : ∀ t ∈ topsOf c c.inputOrder, t ∈ c.lowerKeys ∧ parentOf c t = none := fun t ht => by
    have ht' := List.mem_filter.mp ht
    exact ⟨(hm t).mp ht'.1, of_decide_eq_true ht'.2⟩
  obtain ⟨out, e, hN⟩ := writeTops_nested hc (ord := c.inputOrder) (ts := topsOf c c.inputOrder) (left := dkeys c.childTable)
    (fun t ht => (htop t ht).1) (hc.nd_order.filter _) hc.nd_table (fun t ht => (hc.mem_table t).mpr (htop t ht).1)
  obtain ⟨h1, h2⟩ := once_nested hc hN (hc.nd_order.filter _) fun t ht => (htop t ht).2
  refine ⟨out, ?_, hN, h1, ?_⟩
  · unfold writeOut writeOutIn
    rw [topNames_eq hc fun k hk => (hm k).mp hk]
    exact e
  · intro k
    refine (h2 k).trans ?_
    constructor
    · rintro ⟨t, ht, hw⟩
      rcases hw with rfl | hw
      · exact (htop _ ht).1
      · exact (hc.mem_table k).mp (under_mem hw)
    · intro hk
      obtain ⟨t, h3, h4, h5⟩ := top_exists hc _ k hk (Nat.lt_succ_self _)
      exact ⟨t, List.mem_filter.mpr ⟨(hm t).mpr h3, decide_eq_true h4⟩, h5⟩

example : letI := asciiFold
    Reachable demo ∧ demo.writeOut true = .ok
      [.data "Main".toList, .front "main".toList, .save "inner".toList, .body "inner".toList, .save "Deep".toList,
        .body "deep".toList, .endSave, .endSave, .back "main".toList, .data "other".toList, .front "other".toList, .back "other".toList] :=
  ⟨demo_reachable, by decide +kernel⟩

/-- C37 does not extend to selections: a collection made by `get_children` has blocks but no output order, so nothing
is written. -/
theorem C37_selection_fails : letI := asciiFold
    ∃ c', Reachable demo ∧ demo.getChildren "main".toList false .dictionary = .ok c' ∧ "inner".toList ∈ c'.keys ∧ c'.writeOut false = .ok [] := by
  letI := asciiFold
  refine ⟨match demo.getChildren "main".toList false .dictionary with | .ok c' => c' | .error _ => demo, demo_reachable, ?_, ?_, ?_⟩ <;>
    decide +kernel

end Verif.Coll
