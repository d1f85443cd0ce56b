import Verif.Spec.Block
import Verif.Lemmas.Dict
/-! Helper lemmas about blocks: the bookkeeping invariant and its preservation. -/
set_option linter.unusedSectionVars false
namespace Verif.Block
variable [CaseFold]

theorem low2 (s : Str) : lower (lower s) = lower s := CaseFold.lower_lower s

/-- All names in loops, in table order. -/
def allLooped (loops : Dict Nat (List Str)) : List Str := loops.flatMap (·.2)

/-- The bookkeeping invariant. -/
structure WF (b : Block) : Prop where
  keysNodup : b.keys.Nodup
  keysLower : ∀ k ∈ b.keys, lower k = k
  caseKeys : ∀ k ∈ b.keys, k ∈ dkeys b.trueCase
  caseVal : ∀ p ∈ b.trueCase, lower p.2 = p.1
  loopsNodup : (dkeys b.loops).Nodup
  loopsPos : ∀ n ∈ dkeys b.loops, 0 < n
  orderNodup : b.order.Nodup
  orderName : ∀ s, .name s ∈ b.order ↔ s ∈ b.keys ∧ s ∉ allLooped b.loops
  orderLoop : ∀ n, .loop n ∈ b.order ↔ n ∈ dkeys b.loops
  looped : (allLooped b.loops).Nodup
  loopLower : ∀ s ∈ allLooped b.loops, lower s = s

/-- Every looped name is stored. -/
def Full (b : Block) : Prop := ∀ s ∈ allLooped b.loops, s ∈ b.keys

theorem mem_allLooped {loops : Dict Nat (List Str)} {s : Str} :
    s ∈ allLooped loops ↔ ∃ n l, (n, l) ∈ loops ∧ s ∈ l := by
  simp [allLooped]

theorem wf_fresh {b : Block} (h : Fresh b) : WF b := by
  obtain ⟨h1, h2, h3, h4⟩ := h
  constructor <;> simp [keys, h1, h2, h3, h4, dkeys, allLooped]

theorem contains_iff {b : Block} {k : Str} : b.contains k = true ↔ lower k ∈ b.keys := by
  simp [contains]

theorem contains_false {b : Block} {k : Str} : b.contains k = false ↔ lower k ∉ b.keys := by
  simp [contains]

theorem findLoop_none {b : Block} {k : Str} : b.findLoop k = none ↔ lower k ∉ allLooped b.loops := by
  simp [findLoop, mem_allLooped]

theorem findLoop_some {b : Block} {k : Str} {n : Nat} (h : b.findLoop k = some n) :
    ∃ l, (n, l) ∈ b.loops ∧ lower k ∈ l := by
  simp only [findLoop, Option.map_eq_some_iff] at h
  obtain ⟨⟨a, l⟩, h1, h2⟩ := h
  simp at h2; subst h2
  refine ⟨l, List.mem_of_find?_eq_some h1, ?_⟩
  have := List.find?_some h1
  simpa using this

theorem findLoop_some' {b : Block} (hw : WF b) {k : Str} {n : Nat} (h : b.findLoop k = some n) :
    ∃ l, dget b.loops n = some l ∧ lower k ∈ l := by
  obtain ⟨l, h1, h2⟩ := findLoop_some h
  exact ⟨l, dget_of_mem hw.loopsNodup h1, h2⟩

theorem flatMap_unique {loops : Dict Nat (List Str)} (h : (allLooped loops).Nodup) (hn : (dkeys loops).Nodup)
    {n m : Nat} {l l' : List Str} {s : Str}
    (h1 : (n, l) ∈ loops) (h2 : s ∈ l) (h3 : (m, l') ∈ loops) (h4 : s ∈ l') : n = m ∧ l = l' := by
  induction loops with
  | nil => simp at h1
  | cons p r ih =>
    obtain ⟨a, c⟩ := p
    simp only [allLooped, List.flatMap_cons, List.nodup_append] at h
    simp only [dkeys, List.map_cons, List.nodup_cons] at hn
    simp only [List.mem_cons, Prod.mk.injEq] at h1 h3
    obtain ⟨_, hr, hd⟩ := h
    rcases h1 with ⟨rfl, rfl⟩ | h1 <;> rcases h3 with ⟨rfl, rfl⟩ | h3
    · exact ⟨rfl, rfl⟩
    · exact absurd rfl (hd s h2 s (mem_allLooped.mpr ⟨m, l', h3, h4⟩))
    · exact absurd rfl (hd s h4 s (mem_allLooped.mpr ⟨n, l, h1, h2⟩))
    · exact ih hr hn.2 h1 h3

/-- In a well-formed block `FindLoop` finds the loop of a name. -/
theorem findLoop_eq {b : Block} (hw : WF b) {k : Str} {n : Nat} {l : List Str}
    (h1 : (n, l) ∈ b.loops) (h2 : lower k ∈ l) : b.findLoop k = some n := by
  cases h : b.findLoop k with
  | none => exact absurd (mem_allLooped.mpr ⟨n, l, h1, h2⟩) (findLoop_none.mp h)
  | some m =>
    obtain ⟨l', h3, h4⟩ := findLoop_some h
    rw [(flatMap_unique hw.looped hw.loopsNodup h3 h4 h1 h2).1]

theorem keys_store (b : Block) (k : Str) (sv : PyVal × PyVal) :
    ∀ x, x ∈ (b.store k sv).keys ↔ x = lower k ∨ x ∈ b.keys := by
  intro x
  simp only [keys, store]
  exact mem_dkeys_dset _ _ _ _

theorem wf_store {b : Block} (hw : WF b) (k : Str) (sv : PyVal × PyVal) : WF (b.store k sv) := by
  have hk := keys_store b k sv
  constructor
  · exact nodup_dkeys_dset _ _ _ hw.keysNodup
  · intro x hx
    rcases (hk x).mp hx with rfl | h
    · exact low2 k
    · exact hw.keysLower x h
  · intro x hx
    simp only [store, dkeys_append, List.mem_append, mem_dkeys_ddel]
    rcases (hk x).mp hx with rfl | h
    · right; simp [dkeys]
    · by_cases e : x = lower k
      · right; simp [dkeys, e]
      · left; exact ⟨hw.caseKeys x h, e⟩
  · intro p hp
    simp only [store, List.mem_append, List.mem_singleton] at hp
    rcases hp with hp | rfl
    · exact hw.caseVal p (List.mem_filter.mp hp).1
    · rfl
  · exact hw.loopsNodup
  · exact hw.loopsPos
  · simp only [store]
    split
    · rename_i h
      simp only [Bool.and_eq_true, Bool.not_eq_true', contains_false, Option.isNone_iff_eq_none, low2] at h
      rw [List.nodup_append]
      refine ⟨hw.orderNodup, by simp, ?_⟩
      intro a ha c hc
      simp at hc; subst hc
      rintro rfl
      exact h.1 ((hw.orderName _).mp ha).1
    · exact hw.orderNodup
  · intro s
    rw [hk]
    simp only [store]
    split
    · rename_i h
      simp only [Bool.and_eq_true, Bool.not_eq_true', contains_false, Option.isNone_iff_eq_none, findLoop_none, low2] at h
      simp only [List.mem_append, List.mem_singleton, Ref.name.injEq, hw.orderName]
      constructor
      · rintro (h1 | rfl)
        · exact ⟨Or.inr h1.1, h1.2⟩
        · exact ⟨Or.inl rfl, h.2⟩
      · rintro ⟨rfl | h1, h2⟩
        · exact Or.inr rfl
        · exact Or.inl ⟨h1, h2⟩
    · rename_i h
      simp only [Bool.and_eq_true, Bool.not_eq_true', contains_false, Option.isNone_iff_eq_none, findLoop_none, low2,
        not_and, Classical.not_not] at h
      rw [hw.orderName]
      constructor
      · rintro ⟨h1, h2⟩; exact ⟨Or.inr h1, h2⟩
      · rintro ⟨rfl | h1, h2⟩
        · by_cases e : lower k ∈ b.keys
          · exact ⟨e, h2⟩
          · exact absurd (h e) h2
        · exact ⟨h1, h2⟩
  · intro n
    rw [show (b.store k sv).loops = b.loops from rfl, ← hw.orderLoop n]
    simp only [store]
    split <;> simp
  · exact hw.looped
  · exact hw.loopLower

theorem wf_addItem {b : Block} (hw : WF b) (k : Str) (v : PyVal) (pre : Bool) : WF (b.addItem k v pre).1 := by
  unfold addItem; split
  · exact hw
  · exact wf_store hw _ _

theorem wf_setItem {b : Block} (hw : WF b) (k : Str) (v : PyVal) : WF (b.setItem k v).1 := by
  unfold setItem; split
  · exact hw
  · exact wf_addItem hw _ _ _

/-! ### removing -/

theorem allLooped_ddel {loops : Dict Nat (List Str)} {n : Nat} {s : Str} :
    s ∈ allLooped (ddel loops n) ↔ ∃ m l, (m, l) ∈ loops ∧ m ≠ n ∧ s ∈ l := by
  simp [mem_allLooped, ddel, and_assoc]

theorem allLooped_dset {loops : Dict Nat (List Str)} (hn : (dkeys loops).Nodup) {n : Nat} {l : List Str} {s : Str} :
    s ∈ allLooped (dset loops n l) ↔ s ∈ l ∨ ∃ m l', (m, l') ∈ loops ∧ m ≠ n ∧ s ∈ l' := by
  rw [mem_allLooped]
  constructor
  · rintro ⟨m, l', h1, h2⟩
    rw [mem_dset_iff hn] at h1
    rcases h1 with h1 | h1
    · simp only [Prod.mk.injEq] at h1; left; rw [← h1.2]; exact h2
    · right; exact ⟨m, l', h1.1, h1.2, h2⟩
  · rintro (h | ⟨m, l', h1, h2, h3⟩)
    · exact ⟨n, l, (mem_dset_iff hn).mpr (Or.inl rfl), h⟩
    · exact ⟨m, l', (mem_dset_iff hn).mpr (Or.inr ⟨h1, h2⟩), h3⟩

theorem nodup_allLooped_filter {loops : Dict Nat (List Str)} (h : (allLooped loops).Nodup) (p : Nat × List Str → Bool) :
    (allLooped (loops.filter p)).Nodup := by
  induction loops with
  | nil => simp [allLooped]
  | cons q r ih =>
    simp only [allLooped, List.flatMap_cons, List.nodup_append] at h
    obtain ⟨h1, h2, h3⟩ := h
    simp only [List.filter_cons]
    split
    · simp only [allLooped, List.flatMap_cons, List.nodup_append]
      refine ⟨h1, ih h2, ?_⟩
      intro a ha c hc
      apply h3 a ha c
      simp only [List.mem_flatMap, List.mem_filter] at hc ⊢
      obtain ⟨x, hx, hc⟩ := hc
      exact ⟨x, hx.1, hc⟩
    · exact ih h2

theorem nodup_allLooped_dset {loops : Dict Nat (List Str)} (hn : (dkeys loops).Nodup)
    (h : (allLooped loops).Nodup) (n : Nat) (l : List Str) (hl : l.Nodup)
    (hd : ∀ s ∈ l, ∀ m l', (m, l') ∈ loops → m ≠ n → s ∉ l') : (allLooped (dset loops n l)).Nodup := by
  induction loops with
  | nil => simpa [allLooped, dset] using hl
  | cons q r ih =>
    obtain ⟨a, c⟩ := q
    simp only [allLooped, List.flatMap_cons, List.nodup_append] at h
    simp only [dkeys, List.map_cons, List.nodup_cons] at hn
    obtain ⟨h1, h2, h3⟩ := h
    simp only [dset]
    split
    · rename_i e; subst e
      simp only [allLooped, List.flatMap_cons, List.nodup_append]
      refine ⟨hl, h2, ?_⟩
      intro x hx y hy
      rintro rfl
      obtain ⟨m, l', hm, hy⟩ := mem_allLooped.mp hy
      exact hd x hx m l' (by simp [hm]) (fun e => hn.1 (e ▸ List.mem_map.mpr ⟨(m, l'), hm, rfl⟩)) hy
    · rename_i e
      simp only [allLooped, List.flatMap_cons, List.nodup_append]
      refine ⟨h1, ih hn.2 h2 (fun s hs m l' hm => hd s hs m l' (by simp [hm])), ?_⟩
      intro x hx y hy
      rintro rfl
      rcases (allLooped_dset hn.2).mp hy with hy | ⟨m, l', hm, _, hy⟩
      · exact hd x hy a c (by simp) e hx
      · exact h3 x hx x (mem_allLooped.mpr ⟨m, l', hm, hy⟩) rfl

theorem loop_nodup {loops : Dict Nat (List Str)} (h : (allLooped loops).Nodup) {n : Nat} {l : List Str}
    (hm : (n, l) ∈ loops) : l.Nodup := by
  induction loops with
  | nil => simp at hm
  | cons q r ih =>
    simp only [allLooped, List.flatMap_cons, List.nodup_append] at h
    simp only [List.mem_cons] at hm
    rcases hm with rfl | hm
    · exact h.1
    · exact ih h.2.1 hm

/-- What `RemoveItem` does to a well-formed block. -/
theorem removeItem_eq {b : Block} (hw : WF b) (k : Str) : b.removeItem k =
    (if lower k ∈ b.keys then
      match b.findLoop k with
      | some n =>
        match dget b.loops n with
        | some l =>
          if pyErase l (lower k) = [] then
            { b with block := ddel b.block (lower k), trueCase := ddel b.trueCase (lower k),
                     loops := ddel b.loops n, order := pyErase b.order (.loop n) }
          else { b with block := ddel b.block (lower k), trueCase := ddel b.trueCase (lower k),
                        loops := dset b.loops n (pyErase l (lower k)) }
        | none => b
      | none => { b with block := ddel b.block (lower k), trueCase := ddel b.trueCase (lower k),
                         order := pyErase b.order (.name (lower k)) }
    else b, .ok ()) := by
  unfold removeItem
  simp only
  by_cases hk : lower k ∈ b.keys
  · rw [if_pos (contains_iff.mpr (by rw [low2]; exact hk)), if_pos hk, if_neg (fun h => h (hw.caseKeys _ hk))]
    cases hf : b.findLoop k with
    | none =>
      simp only
      rw [pyRemove_eq ((hw.orderName _).mpr ⟨hk, findLoop_none.mp hf⟩)]
    | some n =>
      obtain ⟨l, h1, h2⟩ := findLoop_some' hw hf
      simp only [h1, pyRemove_eq h2, pyRemove_eq ((hw.orderLoop n).mpr (dget_isSome.mp ⟨l, h1⟩))]
      by_cases he : pyErase l (lower k) = []
      · simp only [he, if_true]
      · simp only [he, if_false]
  · rw [if_neg (fun h => hk (by have := contains_iff.mp h; rwa [low2] at this)), if_neg hk]

theorem keys_removeItem {b : Block} (hw : WF b) (k : Str) :
    ∀ x, x ∈ (b.removeItem k).1.keys ↔ x ∈ b.keys ∧ x ≠ lower k := by
  intro x
  rw [removeItem_eq hw]
  by_cases hk : lower k ∈ b.keys
  · simp only [hk, if_true]
    cases hf : b.findLoop k with
    | none => simp only [keys]; exact mem_dkeys_ddel _ _ _
    | some n =>
      obtain ⟨l, h1, h2⟩ := findLoop_some' hw hf
      simp only [h1]
      split <;> · simp only [keys]; exact mem_dkeys_ddel _ _ _
  · simp only [hk, if_false]
    constructor
    · intro h; exact ⟨h, fun e => hk (e ▸ h)⟩
    · exact fun h => h.1

theorem looped_removeItem {b : Block} (hw : WF b) (k : Str) (hk : lower k ∈ b.keys) :
    ∀ x, x ∈ allLooped (b.removeItem k).1.loops ↔ x ∈ allLooped b.loops ∧ x ≠ lower k := by
  intro x
  rw [removeItem_eq hw]
  simp only [hk, if_true]
  cases hf : b.findLoop k with
  | none =>
    simp only
    have := findLoop_none.mp hf
    constructor
    · intro h; exact ⟨h, fun e => this (e ▸ h)⟩
    · exact fun h => h.1
  | some n =>
    obtain ⟨l, h1, h2⟩ := findLoop_some' hw hf
    have hm := dget_mem h1
    have hnd := loop_nodup hw.looped hm
    simp only [h1]
    have other : ∀ m l', (m, l') ∈ b.loops → m ≠ n → lower k ∉ l' := fun m l' hm' hne hin =>
      hne (flatMap_unique hw.looped hw.loopsNodup hm' hin hm h2).1
    split
    · rename_i he
      simp only [allLooped_ddel]
      have hl : ∀ y ∈ l, y = lower k := by
        intro y hy
        by_cases e : y = lower k
        · exact e
        · have := (mem_pyErase hnd (y := y) (x := lower k)).mpr ⟨e, hy⟩
          rw [he] at this; simp at this
      constructor
      · rintro ⟨m, l', hm', hne, hx⟩
        exact ⟨mem_allLooped.mpr ⟨m, l', hm', hx⟩, fun e => other m l' hm' hne (e ▸ hx)⟩
      · rintro ⟨hx, hne⟩
        obtain ⟨m, l', hm', hx⟩ := mem_allLooped.mp hx
        refine ⟨m, l', hm', ?_, hx⟩
        rintro rfl
        have := dget_of_mem hw.loopsNodup hm'
        rw [h1] at this; simp at this; subst this
        exact hne (hl x hx)
    · simp only [allLooped_dset hw.loopsNodup, mem_pyErase hnd]
      constructor
      · rintro (⟨h3, h4⟩ | ⟨m, l', hm', hne, hx⟩)
        · exact ⟨mem_allLooped.mpr ⟨n, l, hm, h4⟩, h3⟩
        · exact ⟨mem_allLooped.mpr ⟨m, l', hm', hx⟩, fun e => other m l' hm' hne (e ▸ hx)⟩
      · rintro ⟨hx, hne⟩
        obtain ⟨m, l', hm', hx⟩ := mem_allLooped.mp hx
        by_cases e : m = n
        · subst e
          have := dget_of_mem hw.loopsNodup hm'
          rw [h1] at this; simp at this; subst this
          exact Or.inl ⟨hne, hx⟩
        · exact Or.inr ⟨m, l', hm', e, hx⟩

theorem case_removeItem {b : Block} (hw : WF b) (k : Str) :
    (b.removeItem k).1.trueCase = if lower k ∈ b.keys then ddel b.trueCase (lower k) else b.trueCase := by
  rw [removeItem_eq hw]
  by_cases hk : lower k ∈ b.keys
  · simp only [hk, if_true]
    cases hf : b.findLoop k with
    | none => rfl
    | some n =>
      obtain ⟨l, h1, h2⟩ := findLoop_some' hw hf
      simp only [h1]
      split <;> rfl
  · simp [hk]

theorem wf_removeItem {b : Block} (hw : WF b) (k : Str) : WF (b.removeItem k).1 := by
  by_cases hk : lower k ∈ b.keys
  case neg => rw [removeItem_eq hw]; simp [hk]; exact hw
  have hkeys := keys_removeItem hw k
  have hloop := looped_removeItem hw k hk
  have hcase := case_removeItem hw k
  rw [if_pos hk] at hcase
  have heq := removeItem_eq hw k
  simp only [hk, if_true] at heq
  have hblk : (b.removeItem k).1.block = ddel b.block (lower k) := by
    rw [heq]
    cases hf : b.findLoop k with
    | none => rfl
    | some n =>
      obtain ⟨l, h1, h2⟩ := findLoop_some' hw hf
      simp only [h1]
      split <;> rfl
  constructor
  · simp only [keys, hblk]; exact nodup_dkeys_ddel _ _ hw.keysNodup
  · intro x hx; exact hw.keysLower x ((hkeys x).mp hx).1
  · intro x hx
    rw [hcase, mem_dkeys_ddel]
    exact ⟨hw.caseKeys x ((hkeys x).mp hx).1, ((hkeys x).mp hx).2⟩
  · intro p hp
    rw [hcase] at hp
    exact hw.caseVal p (List.mem_filter.mp hp).1
  · rw [heq]
    cases hf : b.findLoop k with
    | none => exact hw.loopsNodup
    | some n =>
      obtain ⟨l, h1, h2⟩ := findLoop_some' hw hf
      simp only [h1]
      split
      · exact nodup_dkeys_ddel _ _ hw.loopsNodup
      · exact nodup_dkeys_dset _ _ _ hw.loopsNodup
  · rw [heq]
    cases hf : b.findLoop k with
    | none => exact hw.loopsPos
    | some n =>
      obtain ⟨l, h1, h2⟩ := findLoop_some' hw hf
      simp only [h1]
      split
      · intro m hm; exact hw.loopsPos m ((mem_dkeys_ddel _ _ _).mp hm).1
      · intro m hm
        rcases (mem_dkeys_dset _ _ _ _).mp hm with rfl | hm
        · exact hw.loopsPos _ (dget_isSome.mp ⟨l, h1⟩)
        · exact hw.loopsPos m hm
  · rw [heq]
    cases hf : b.findLoop k with
    | none => exact nodup_pyErase hw.orderNodup _
    | some n =>
      obtain ⟨l, h1, h2⟩ := findLoop_some' hw hf
      simp only [h1]
      split
      · exact nodup_pyErase hw.orderNodup _
      · exact hw.orderNodup
  · intro s
    rw [hkeys, hloop]
    rw [heq]
    cases hf : b.findLoop k with
    | none =>
      simp only [mem_pyErase hw.orderNodup, ne_eq, Ref.name.injEq, hw.orderName]
      have := findLoop_none.mp hf
      constructor
      · rintro ⟨h1, h2, h3⟩; exact ⟨⟨h2, h1⟩, fun h => h3 h.1⟩
      · rintro ⟨⟨h1, h2⟩, h3⟩; exact ⟨h2, h1, fun h => h3 ⟨h, h2⟩⟩
    | some n =>
      obtain ⟨l, h1, h2⟩ := findLoop_some' hw hf
      have hin : lower k ∈ allLooped b.loops := mem_allLooped.mpr ⟨n, l, dget_mem h1, h2⟩
      simp only [h1]
      have : (Ref.name s ∈ b.order) ↔ ((s ∈ b.keys ∧ s ≠ lower k) ∧ ¬ (s ∈ allLooped b.loops ∧ s ≠ lower k)) := by
        rw [hw.orderName]
        constructor
        · rintro ⟨h3, h4⟩; exact ⟨⟨h3, fun e => h4 (e ▸ hin)⟩, fun h => h4 h.1⟩
        · rintro ⟨⟨h3, h4⟩, h5⟩; exact ⟨h3, fun h => h5 ⟨h, h4⟩⟩
      split
      · rw [← this]; simp only [mem_pyErase hw.orderNodup]; simp
      · exact this
  · intro m
    rw [heq]
    cases hf : b.findLoop k with
    | none =>
      simp only [mem_pyErase hw.orderNodup]
      rw [← hw.orderLoop m]; simp
    | some n =>
      obtain ⟨l, h1, h2⟩ := findLoop_some' hw hf
      simp only [h1]
      split
      · simp only [mem_pyErase hw.orderNodup, mem_dkeys_ddel, ne_eq, Ref.loop.injEq, hw.orderLoop]
        exact and_comm
      · simp only [mem_dkeys_dset, hw.orderLoop]
        constructor
        · exact Or.inr
        · rintro (rfl | h)
          · exact dget_isSome.mp ⟨l, h1⟩
          · exact h
  · rw [heq]
    cases hf : b.findLoop k with
    | none => exact hw.looped
    | some n =>
      obtain ⟨l, h1, h2⟩ := findLoop_some' hw hf
      have hm := dget_mem h1
      simp only [h1]
      split
      · exact nodup_allLooped_filter hw.looped _
      · apply nodup_allLooped_dset hw.loopsNodup hw.looped
        · exact nodup_pyErase (loop_nodup hw.looped hm) _
        · intro s hs m l' hm' hne hin
          exact hne (flatMap_unique hw.looped hw.loopsNodup hm' hin hm (mem_of_mem_pyErase hs)).1
  · intro s hs
    exact hw.loopLower s ((hloop s).mp hs).1

theorem full_removeItem {b : Block} (hw : WF b) (hf : Full b) (k : Str) : Full (b.removeItem k).1 := by
  by_cases hk : lower k ∈ b.keys
  · intro s hs
    rw [keys_removeItem hw]
    obtain ⟨h1, h2⟩ := (looped_removeItem hw k hk s).mp hs
    exact ⟨hf s h1, h2⟩
  · rw [removeItem_eq hw]; simp [hk]; exact hf

theorem full_store {b : Block} (hf : Full b) (k : Str) (sv : PyVal × PyVal) : Full (b.store k sv) := by
  intro s hs
  exact (keys_store b k sv s).mpr (Or.inr (hf s hs))

theorem full_addItem {b : Block} (hf : Full b) (k : Str) (v : PyVal) (pre : Bool) : Full (b.addItem k v pre).1 := by
  unfold addItem; split
  · exact hf
  · exact full_store hf _ _

/-! ### creating loops -/

theorem dropEmpty_eq {b : Block} (l : List Nat)
    (hn : l.Nodup) (hm : ∀ a ∈ l, Ref.loop a ∈ b.order) (ho : b.order.Nodup) :
    b.dropEmpty l = ({ b with
      loops := b.loops.filter (fun p => decide (p.1 ∉ l))
      order := b.order.filter (fun r => decide (r ∉ l.map Ref.loop)) }, .ok ()) := by
  induction l generalizing b with
  | nil =>
    simp only [dropEmpty]
    congr 1
    have h1 : b.loops.filter (fun p => decide (p.1 ∉ ([] : List Nat))) = b.loops := by simp
    have h2 : b.order.filter (fun r => decide (r ∉ ([] : List Nat).map Ref.loop)) = b.order := by simp
    rw [h1, h2]
  | cons a r ih =>
    simp only [dropEmpty, pyRemove_eq (hm a (by simp))]
    rw [List.nodup_cons] at hn
    rw [ih hn.2 _ (nodup_pyErase ho _)]
    · simp only
      congr 2
      · simp only [ddel, List.filter_filter]
        apply List.filter_congr
        intro p _
        simp [not_or, Bool.and_comm]
      · rw [pyErase_eq_filter ho, List.filter_filter]
        apply List.filter_congr
        intro x _
        simp [not_or, Bool.and_comm]
    · intro c hc
      simp only
      rw [mem_pyErase ho]
      refine ⟨?_, hm c (by simp [hc])⟩
      intro e; simp at e; subst e; exact hn.1 hc

/-- The loop table left by removing `lc` from every loop and dropping emptied loops. -/
def restLoops (loops : Dict Nat (List Str)) (lc : List Str) : Dict Nat (List Str) :=
  (loops.map fun p => (p.1, p.2.filter fun x => decide (x ∉ lc))).filter fun p => decide (p.2 ≠ [])

/-- The print order left by that. -/
def restOrder (b : Block) (lc : List Str) : List Ref :=
  b.order.filter fun r => match r with
    | .name _ => true
    | .loop n => decide (n ∈ dkeys (restLoops b.loops lc))

theorem newLoopNo_pos (loops : Dict Nat (List Str)) : 0 < newLoopNo loops := by
  unfold newLoopNo; split <;> omega

theorem le_foldl_max (l : List Nat) (a : Nat) : a ≤ l.foldl max a ∧ ∀ x ∈ l, x ≤ l.foldl max a := by
  induction l generalizing a with
  | nil => simp
  | cons y r ih =>
    simp only [List.foldl_cons]
    have := ih (max a y)
    refine ⟨by have := this.1; omega, ?_⟩
    intro x hx
    simp only [List.mem_cons] at hx
    rcases hx with rfl | hx
    · have := this.1; omega
    · exact this.2 x hx

theorem newLoopNo_fresh (loops : Dict Nat (List Str)) : newLoopNo loops ∉ dkeys loops := by
  unfold newLoopNo
  split
  · rename_i h; rw [h]; simp
  · intro h
    have := (le_foldl_max (dkeys loops) 0).2 _ h
    omega

theorem mem_restLoops {loops : Dict Nat (List Str)} {lc : List Str} {n : Nat} {l : List Str} :
    (n, l) ∈ restLoops loops lc ↔ l ≠ [] ∧ ∃ l0, (n, l0) ∈ loops ∧ l = l0.filter (fun x => decide (x ∉ lc)) := by
  simp only [restLoops, List.mem_filter, List.mem_map, Prod.mk.injEq, decide_eq_true_eq]
  constructor
  · rintro ⟨⟨⟨m, l0⟩, h1, rfl, rfl⟩, h2⟩
    exact ⟨h2, l0, h1, rfl⟩
  · rintro ⟨h2, l0, h1, rfl⟩
    exact ⟨⟨(n, l0), h1, rfl, rfl⟩, h2⟩

theorem looped_restLoops {loops : Dict Nat (List Str)} {lc : List Str} {s : Str} :
    s ∈ allLooped (restLoops loops lc) ↔ s ∈ allLooped loops ∧ s ∉ lc := by
  constructor
  · intro h
    obtain ⟨n, l, h1, h2⟩ := mem_allLooped.mp h
    obtain ⟨_, l0, h3, rfl⟩ := mem_restLoops.mp h1
    simp at h2
    exact ⟨mem_allLooped.mpr ⟨n, l0, h3, h2.1⟩, h2.2⟩
  · rintro ⟨h, hs⟩
    obtain ⟨n, l, h1, h2⟩ := mem_allLooped.mp h
    have : s ∈ l.filter (fun x => decide (x ∉ lc)) := by simp [h2, hs]
    exact mem_allLooped.mpr ⟨n, _, mem_restLoops.mpr ⟨List.ne_nil_of_mem this, l, h1, rfl⟩, this⟩

theorem nodup_restLoops {loops : Dict Nat (List Str)} (h : (allLooped loops).Nodup) (lc : List Str) :
    (allLooped (restLoops loops lc)).Nodup := by
  apply nodup_allLooped_filter
  have : allLooped (loops.map fun p => (p.1, p.2.filter fun x => decide (x ∉ lc))) =
      (allLooped loops).filter fun x => decide (x ∉ lc) := by
    induction loops with
    | nil => rfl
    | cons p r ih =>
      simp only [allLooped, List.map_cons, List.flatMap_cons, List.filter_append]
      have := ih (by simp only [allLooped, List.flatMap_cons, List.nodup_append] at h; exact h.2.1)
      simp only [allLooped] at this
      rw [this]
  rw [this]
  exact h.filter _

theorem dkeys_restLoops_nodup {loops : Dict Nat (List Str)} (h : (dkeys loops).Nodup) (lc : List Str) :
    (dkeys (restLoops loops lc)).Nodup := by
  have h1 : dkeys (loops.map fun p => (p.1, p.2.filter fun x => decide (x ∉ lc))) = dkeys loops := by
    simp [dkeys, Function.comp_def]
  rw [← h1] at h
  unfold restLoops dkeys at *
  exact h.sublist (List.filter_sublist.map _)

theorem mem_dkeys_restLoops {loops : Dict Nat (List Str)} {lc : List Str} {n : Nat}
    (h : n ∈ dkeys (restLoops loops lc)) : n ∈ dkeys loops := by
  obtain ⟨⟨m, l⟩, h1, h2⟩ := List.mem_map.mp h
  simp at h2; subst h2
  obtain ⟨_, l0, h3, _⟩ := mem_restLoops.mp h1
  exact mem_dkeys h3

theorem dropFromLoops_eq {loops : Dict Nat (List Str)} (h : (allLooped loops).Nodup) (lc : List Str) :
    dropFromLoops loops lc = loops.map fun p => (p.1, p.2.filter fun x => decide (x ∉ lc)) := by
  unfold dropFromLoops
  apply List.map_congr_left
  intro p hp
  rw [foldl_erase_eq_filter _ _ (loop_nodup h (n := p.1) (l := p.2) hp)]
  congr 1
  exact List.filter_congr fun x _ => by simp

/-- What `CreateLoop` does after its checks to a well-formed block. -/
theorem makeLoop_eq {b : Block} (hw : WF b) (ns : List Str) (o : Int) :
    b.makeLoop ns o =
    (let lc := ns.map lower
     let n := newLoopNo (restLoops b.loops lc)
     { b with
       loops := restLoops b.loops lc ++ [(n, lc)]
       order := (if 0 ≤ o then pyInsert (restOrder b lc) o (.loop n) else restOrder b lc ++ [.loop n]).filter
         fun r => match r with | .name s => decide (s ∉ lc) | .loop _ => true }, .ok ()) := by
  unfold makeLoop
  simp only
  generalize hlc : ns.map lower = lc
  rw [dropFromLoops_eq hw.looped]
  generalize hL : (b.loops.map fun p => (p.1, p.2.filter fun x => decide (x ∉ lc))) = L
  have hkL : dkeys L = dkeys b.loops := by rw [← hL]; simp [dkeys, Function.comp_def]
  have hLn : (dkeys L).Nodup := hkL ▸ hw.loopsNodup
  have hem : ∀ a, a ∈ (L.filter fun p => decide (p.2.length = 0)).map (·.1) ↔ (a, []) ∈ L := by
    intro a
    simp only [List.mem_map, List.mem_filter, decide_eq_true_eq, List.length_eq_zero_iff]
    constructor
    · rintro ⟨⟨m, l⟩, ⟨h1, h2⟩, rfl⟩; simp at h2; subst h2; exact h1
    · intro h; exact ⟨(a, []), ⟨h, rfl⟩, rfl⟩
  have e1 : L.filter (fun p => decide (p.1 ∉ (L.filter fun p => decide (p.2.length = 0)).map (·.1))) =
      restLoops b.loops lc := by
    unfold restLoops
    rw [hL]
    apply List.filter_congr
    intro p hp
    simp only [hem]
    by_cases hp2 : p.2 = []
    · have : (p.1, []) ∈ L := by rw [← hp2]; exact hp
      simp [hp2, this]
    · have : (p.1, []) ∉ L := by
        intro h
        have h1 := dget_of_mem hLn h
        have h2 := dget_of_mem hLn (show (p.1, p.2) ∈ L from hp)
        rw [h1] at h2; simp at h2; exact hp2 h2
      simp [hp2, this]
  rw [dropEmpty_eq]
  · simp only [e1]
    have e2 : b.order.filter (fun r => decide (r ∉ ((L.filter fun p => decide (p.2.length = 0)).map (·.1)).map Ref.loop)) =
        restOrder b lc := by
      unfold restOrder
      apply List.filter_congr
      intro r hr
      cases r with
      | name s => simp
      | loop n =>
        have hn : n ∈ dkeys L := hkL ▸ (hw.orderLoop n).mp hr
        have : Ref.loop n ∈ ((L.filter fun p => decide (p.2.length = 0)).map (·.1)).map Ref.loop ↔ (n, []) ∈ L := by
          rw [List.mem_map]
          constructor
          · rintro ⟨a, h1, h2⟩; simp at h2; subst h2; exact (hem a).mp h1
          · intro h; exact ⟨n, (hem n).mpr h, rfl⟩
        simp only [this]
        obtain ⟨l, hl⟩ := dget_isSome.mpr hn
        have hl := dget_mem hl
        by_cases hln : l = []
        · subst hln
          have : n ∉ dkeys (restLoops b.loops lc) := by
            intro h
            obtain ⟨⟨m, l'⟩, h1, h2⟩ := List.mem_map.mp h
            simp at h2; subst h2
            unfold restLoops at h1
            rw [hL] at h1
            obtain ⟨h3, h4⟩ := List.mem_filter.mp h1
            have h5 := dget_of_mem hLn h3
            rw [dget_of_mem hLn hl] at h5
            simp at h5; subst h5; simp at h4
          simp [hl, this]
        · have h6 : (n, []) ∉ L := by
            intro h
            have h1 := dget_of_mem hLn h
            rw [dget_of_mem hLn hl] at h1; simp at h1; exact hln h1
          have : n ∈ dkeys (restLoops b.loops lc) := by
            apply mem_dkeys (v := l)
            unfold restLoops
            rw [hL]
            exact List.mem_filter.mpr ⟨hl, by simp [hln]⟩
          simp [h6, this]
    rw [e2, dset_of_not_mem _ _ _ (newLoopNo_fresh _)]
    congr 2
  · exact (hLn.sublist (List.filter_sublist.map _))
  · intro a ha
    simp only
    rw [hw.orderLoop, ← hkL]
    exact mem_dkeys ((hem a).mp ha)
  · exact hw.orderNodup

theorem wf_makeLoop {b : Block} (hw : WF b) (ns : List Str) (o : Int) (hn : (ns.map lower).Nodup) :
    WF (b.makeLoop ns o).1 := by
  rw [makeLoop_eq hw]
  generalize hlc : ns.map lower = lc at *
  have hlow : ∀ s ∈ lc, lower s = s := by
    intro s hs; rw [← hlc] at hs
    obtain ⟨x, _, rfl⟩ := List.mem_map.mp hs
    exact low2 x
  simp only
  generalize hL : restLoops b.loops lc = L
  generalize hN : newLoopNo L = n
  have hfresh : n ∉ dkeys L := hN ▸ newLoopNo_fresh L
  have hord : ∀ r, r ∈ (if 0 ≤ o then pyInsert (restOrder b lc) o (.loop n) else restOrder b lc ++ [.loop n]) ↔
      r = .loop n ∨ r ∈ restOrder b lc := by
    intro r
    split
    · exact mem_pyInsert
    · simp [or_comm]
  have hro : ∀ r, r ∈ restOrder b lc ↔ r ∈ b.order ∧ (match r with | .name _ => True | .loop m => m ∈ dkeys L) := by
    intro r
    unfold restOrder
    rw [List.mem_filter, hL]
    cases r <;> simp
  have hall : allLooped (L ++ [(n, lc)]) = allLooped L ++ lc := by simp [allLooped]
  constructor
  · exact hw.keysNodup
  · exact hw.keysLower
  · exact hw.caseKeys
  · exact hw.caseVal
  · rw [dkeys_append, List.nodup_append]
    refine ⟨hL ▸ dkeys_restLoops_nodup hw.loopsNodup lc, by simp [dkeys], ?_⟩
    intro a ha c hc
    simp [dkeys] at hc; subst hc
    rintro rfl; exact hfresh ha
  · intro m hm
    simp only [dkeys_append, List.mem_append] at hm
    rcases hm with hm | hm
    · rw [← hL] at hm; exact hw.loopsPos m (mem_dkeys_restLoops hm)
    · simp [dkeys] at hm; subst hm; rw [← hN]; exact newLoopNo_pos L
  · simp only
    refine List.Nodup.sublist List.filter_sublist ?_
    have hnd : (restOrder b lc).Nodup := hw.orderNodup.filter _
    have hnm : Ref.loop n ∉ restOrder b lc := fun h => hfresh ((hro _).mp h).2
    split
    · exact nodup_pyInsert hnd hnm
    · rw [List.nodup_append]
      refine ⟨hnd, by simp, ?_⟩
      intro a ha c hc
      simp at hc; subst hc; rintro rfl; exact hnm ha
  · intro s
    simp only [List.mem_filter, hord, hro, hall, List.mem_append, decide_eq_true_eq]
    rw [hw.orderName, ← hL, looped_restLoops]
    simp only [reduceCtorEq, false_or, and_true, not_or, not_and, Classical.not_not]
    constructor
    · rintro ⟨⟨h1, h2⟩, h3⟩; exact ⟨h1, fun h => absurd h h2, h3⟩
    · rintro ⟨h1, h2, h3⟩; exact ⟨⟨h1, fun h => h3 (h2 h)⟩, h3⟩
  · intro m
    simp only [List.mem_filter, hord, hro, and_true, dkeys_append, List.mem_append, hw.orderLoop]
    simp only [dkeys, List.map_cons, List.map_nil, List.mem_singleton, Ref.loop.injEq]
    constructor
    · rintro (h | h)
      · exact Or.inr h
      · exact Or.inl h.2
    · rintro (h | h)
      · refine Or.inr ⟨?_, h⟩
        rw [← hL] at h; exact mem_dkeys_restLoops h
      · exact Or.inl h
  · rw [hall, List.nodup_append]
    refine ⟨hL ▸ nodup_restLoops hw.looped lc, hn, ?_⟩
    intro a ha c hc
    rintro rfl
    rw [← hL] at ha
    exact (looped_restLoops.mp ha).2 hc
  · intro s hs
    rw [hall, List.mem_append] at hs
    rcases hs with hs | hs
    · rw [← hL] at hs; exact hw.loopLower s (looped_restLoops.mp hs).1
    · exact hlow s hs

theorem full_makeLoop {b : Block} (hw : WF b) (hf : Full b) (ns : List Str) (o : Int)
    (hk : ∀ s ∈ ns, lower s ∈ b.keys) : Full (b.makeLoop ns o).1 := by
  rw [makeLoop_eq hw]
  intro s hs
  simp only [allLooped, List.flatMap_append, List.mem_append] at hs
  rcases hs with hs | hs
  · exact hf s (looped_restLoops.mp hs).1
  · simp at hs
    obtain ⟨x, hx, rfl⟩ := hs
    exact hk x hx

theorem wf_wrapAll {b : Block} (hw : WF b) (ns : List Str) : WF (b.wrapAll ns).1 := by
  induction ns generalizing b with
  | nil => exact hw
  | cons d ds ih =>
    unfold wrapAll
    split
    · exact hw
    · rename_i v _
      have := wf_setItem hw d (.list [v])
      split
      · rename_i b' e h; rw [h] at this; exact this
      · rename_i b' h; rw [h] at this; exact ih this

theorem full_setItem {b : Block} (hf : Full b) (k : Str) (v : PyVal) : Full (b.setItem k v).1 := by
  unfold setItem; split
  · exact hf
  · exact full_addItem hf _ _ _

theorem full_wrapAll {b : Block} (hw : Full b) (ns : List Str) : Full (b.wrapAll ns).1 := by
  induction ns generalizing b with
  | nil => exact hw
  | cons d ds ih =>
    unfold wrapAll
    split
    · exact hw
    · rename_i v _
      have := full_setItem hw d (.list [v])
      split
      · rename_i b' e h; rw [h] at this; exact this
      · rename_i b' h; rw [h] at this; exact ih this

theorem keys_addItem_mono {b : Block} (k : Str) (v : PyVal) (pre : Bool) :
    ∀ x ∈ b.keys, x ∈ (b.addItem k v pre).1.keys := by
  intro x hx
  unfold addItem; split
  · exact hx
  · exact (keys_store b k _ x).mpr (Or.inr hx)

theorem keys_setItem_mono {b : Block} (k : Str) (v : PyVal) : ∀ x ∈ b.keys, x ∈ (b.setItem k v).1.keys := by
  intro x hx
  unfold setItem; split
  · exact hx
  · exact keys_addItem_mono k v false x hx

theorem keys_wrapAll_mono {b : Block} (ns : List Str) : ∀ x ∈ b.keys, x ∈ (b.wrapAll ns).1.keys := by
  induction ns generalizing b with
  | nil => exact fun x hx => hx
  | cons d ds ih =>
    intro x hx
    unfold wrapAll
    split
    · exact hx
    · rename_i v _
      have := keys_setItem_mono (b := b) d (.list [v]) x hx
      split
      · rename_i b' e h; rw [h] at this; exact this
      · rename_i b' h; rw [h] at this; exact ih x this

theorem getItem_ok_mem {b : Block} {k : Str} {v : PyVal} (h : b.getItem k = .ok v) : lower k ∈ b.keys := by
  unfold getItem getFullItemValue at h
  split at h
  · simp at h
  · by_cases hm : lower k ∈ b.keys
    · exact hm
    · rw [dget_eq_none.mpr hm] at h; simp at h

theorem getAll_ok_mem {b : Block} {ns : List Str} {vs : List PyVal} (h : b.getAll ns = .ok vs) :
    ∀ s ∈ ns, lower s ∈ b.keys := by
  induction ns generalizing vs with
  | nil => simp
  | cons d ds ih =>
    unfold getAll at h
    split at h
    · simp at h
    · rename_i v hv
      split at h
      · simp at h
      · rename_i vs' hvs
        intro s hs
        simp only [List.mem_cons] at hs
        rcases hs with rfl | hs
        · exact getItem_ok_mem hv
        · exact ih hvs s hs

theorem wf_createLoopCheck {b : Block} (hw : WF b) (ns : List Str) : WF (b.createLoopCheck ns).1 := by
  unfold createLoopCheck
  split
  · exact hw
  · simp only
    split
    · split <;> exact hw
    · split
      · exact hw
      · exact wf_wrapAll hw ns

theorem full_createLoopCheck {b : Block} (hw : Full b) (ns : List Str) : Full (b.createLoopCheck ns).1 := by
  unfold createLoopCheck
  split
  · exact hw
  · simp only
    split
    · split <;> exact hw
    · split
      · exact hw
      · exact full_wrapAll hw ns

theorem createLoopCheck_keys {b b' : Block} {ns : List Str} (h : b.createLoopCheck ns = (b', .ok ())) :
    ∀ s ∈ ns, lower s ∈ b'.keys := by
  unfold createLoopCheck at h
  split at h
  · simp at h
  · rename_i vs hvs
    have hm := getAll_ok_mem hvs
    simp only at h
    split at h
    · split at h
      · simp at h
      · simp at h; subst h; exact hm
    · split at h
      · simp at h
      · intro s hs
        have := keys_wrapAll_mono (b := b) ns (lower s) (hm s hs)
        rw [h] at this; exact this

theorem wf_createLoop {b : Block} (hw : WF b) (ns : List Str) (o : Int) (lc : Bool) (hn : (ns.map lower).Nodup) :
    WF (b.createLoop ns o lc).1 := by
  unfold createLoop
  split
  · have := wf_createLoopCheck hw ns
    split
    · rename_i h; rw [h] at this; exact this
    · rename_i h; rw [h] at this; exact wf_makeLoop this ns o hn
  · exact wf_makeLoop hw ns o hn

theorem full_createLoop {b : Block} (hw : WF b) (hf : Full b) (ns : List Str) (o : Int) :
    Full (b.createLoop ns o true).1 := by
  unfold createLoop
  simp only [if_true]
  have h1 := wf_createLoopCheck hw ns
  have h2 := full_createLoopCheck hf ns
  split
  · rename_i h; rw [h] at h2; exact h2
  · rename_i h; rw [h] at h1 h2
    exact full_makeLoop h1 h2 ns o (createLoopCheck_keys h)

/-! ### AddLoopName, ChangeItemOrder -/

theorem addLoopName_cases (b : Block) (o nw : Str) :
    (∃ r, b.addLoopName o nw = (b, r)) ∨
    ∃ n l nv, b.findLoop o = some n ∧ dget b.loops n = some l ∧ lower nw ∉ l ∧ b.getItem nw = .ok nv ∧
      (∃ ov len, b.getItem o = .ok ov ∧ ov.pyLen = .ok len ∧ nv.pyLen = .ok len) ∧
      b.addLoopName o nw = ({ b with loops := dset (dropFromLoops b.loops [lower nw]) n (l ++ [lower nw])
                                     order := pyErase b.order (.name (lower nw)) }, .ok ()) := by
  unfold addLoopName
  simp only
  cases hf : b.findLoop o with
  | none => left; exact ⟨_, rfl⟩
  | some n =>
    simp only
    cases hl : dget b.loops n with
    | none => left; exact ⟨_, rfl⟩
    | some l =>
      simp only
      by_cases hk : lower nw ∈ l
      · left; exact ⟨_, by rw [if_pos hk]⟩
      · rw [if_neg hk]
        cases h1 : b.getItem o with
        | error e => left; exact ⟨_, rfl⟩
        | ok ov =>
          simp only
          cases h2 : ov.pyLen with
          | error e => left; exact ⟨_, rfl⟩
          | ok len =>
            simp only
            cases h3 : b.getItem nw with
            | error e => left; exact ⟨_, rfl⟩
            | ok nv =>
              simp only
              cases h4 : nv.pyLen with
              | error e => left; exact ⟨_, rfl⟩
              | ok len' =>
                simp only
                by_cases h5 : len' ≠ len
                · left; exact ⟨_, by rw [if_pos h5]⟩
                · right
                  refine ⟨n, l, nv, rfl, hl, hk, rfl, ⟨ov, len, rfl, h2, ?_⟩, ?_⟩
                  · rw [h4, Classical.not_not.mp h5]
                  rw [if_neg h5]

theorem mem_dropOne {loops : Dict Nat (List Str)} (h : (allLooped loops).Nodup) {k : Str} {n : Nat} {l : List Str} :
    (n, l) ∈ dropFromLoops loops [k] ↔ ∃ l0, (n, l0) ∈ loops ∧ l = l0.filter (fun x => decide (x ≠ k)) := by
  rw [dropFromLoops_eq h]
  simp only [List.mem_map, Prod.mk.injEq, List.mem_singleton]
  constructor
  · rintro ⟨⟨m, l0⟩, h1, rfl, rfl⟩; exact ⟨l0, h1, rfl⟩
  · rintro ⟨l0, h1, rfl⟩; exact ⟨(n, l0), h1, rfl, rfl⟩

theorem dkeys_dropFromLoops (loops : Dict Nat (List Str)) (ks : List Str) :
    dkeys (dropFromLoops loops ks) = dkeys loops := by simp [dkeys, dropFromLoops, Function.comp_def]

theorem looped_addLoopName {b : Block} (hw : WF b) {nw : Str} {n : Nat} {l : List Str}
    (h2 : dget b.loops n = some l) (hk : lower nw ∉ l) :
    ∀ s, s ∈ allLooped (dset (dropFromLoops b.loops [lower nw]) n (l ++ [lower nw])) ↔
      s = lower nw ∨ s ∈ allLooped b.loops := by
  intro s
  have hnd : (dkeys (dropFromLoops b.loops [lower nw])).Nodup := by rw [dkeys_dropFromLoops]; exact hw.loopsNodup
  rw [allLooped_dset hnd]
  simp only [mem_dropOne hw.looped, List.mem_append, List.mem_singleton]
  constructor
  · rintro ((h | h) | ⟨m, l', ⟨l0, h3, rfl⟩, h4, h5⟩)
    · exact Or.inr (mem_allLooped.mpr ⟨n, l, dget_mem h2, h⟩)
    · exact Or.inl h
    · simp at h5; exact Or.inr (mem_allLooped.mpr ⟨m, l0, h3, h5.1⟩)
  · rintro (h | h)
    · exact Or.inl (Or.inr h)
    · obtain ⟨m, l0, h3, h4⟩ := mem_allLooped.mp h
      by_cases e : m = n
      · subst e
        rw [dget_of_mem hw.loopsNodup h3] at h2
        simp at h2; subst h2
        exact Or.inl (Or.inl h4)
      · by_cases e2 : s = lower nw
        · exact Or.inl (Or.inr e2)
        · exact Or.inr ⟨m, _, ⟨l0, h3, rfl⟩, e, by simp [h4, e2]⟩

theorem wf_addLoopName {b : Block} (hw : WF b) (o nw : Str) : WF (b.addLoopName o nw).1 := by
  rcases addLoopName_cases b o nw with ⟨r, h⟩ | ⟨n, l, nv, h1, h2, h3, h4, _, h⟩
  · rw [h]; exact hw
  rw [h]
  have hkey := getItem_ok_mem h4
  have hnd : (dkeys (dropFromLoops b.loops [lower nw])).Nodup := by rw [dkeys_dropFromLoops]; exact hw.loopsNodup
  have hloop := looped_addLoopName hw h2 h3
  have hdk : ∀ m, m ∈ dkeys (dset (dropFromLoops b.loops [lower nw]) n (l ++ [lower nw])) ↔ m ∈ dkeys b.loops := by
    intro m
    rw [mem_dkeys_dset, dkeys_dropFromLoops]
    constructor
    · rintro (rfl | h)
      · exact dget_isSome.mp ⟨l, h2⟩
      · exact h
    · exact Or.inr
  constructor
  · exact hw.keysNodup
  · exact hw.keysLower
  · exact hw.caseKeys
  · exact hw.caseVal
  · exact nodup_dkeys_dset _ _ _ hnd
  · intro m hm; exact hw.loopsPos m ((hdk m).mp hm)
  · exact nodup_pyErase hw.orderNodup _
  · intro s
    rw [hloop]
    simp only [mem_pyErase hw.orderNodup, hw.orderName, ne_eq, Ref.name.injEq, not_or]
    constructor
    · rintro ⟨h5, h6, h7⟩; exact ⟨h6, h5, h7⟩
    · rintro ⟨h6, h5, h7⟩; exact ⟨h5, h6, h7⟩
  · intro m
    rw [hdk]
    simp only [mem_pyErase hw.orderNodup, hw.orderLoop]
    simp
  · apply nodup_allLooped_dset hnd
    · have : allLooped (dropFromLoops b.loops [lower nw]) = (allLooped b.loops).filter (fun x => decide (x ∉ [lower nw])) := by
        rw [dropFromLoops_eq hw.looped]
        generalize b.loops = L
        induction L with
        | nil => rfl
        | cons p r ih =>
          simp only [allLooped, List.map_cons, List.flatMap_cons, List.filter_append]
          simp only [allLooped] at ih
          rw [ih]
      rw [this]; exact hw.looped.filter _
    · rw [List.nodup_append]
      refine ⟨loop_nodup hw.looped (dget_mem h2), by simp, ?_⟩
      intro a ha c hc; simp at hc; subst hc; rintro rfl; exact h3 ha
    · intro s hs m l' hm hne hin
      obtain ⟨l0, h5, rfl⟩ := (mem_dropOne hw.looped).mp hm
      simp at hin
      simp only [List.mem_append, List.mem_singleton] at hs
      rcases hs with hs | hs
      · exact hne (flatMap_unique hw.looped hw.loopsNodup h5 hin.1 (dget_mem h2) hs).1
      · exact hin.2 hs
  · intro s hs
    rcases (hloop s).mp hs with rfl | h
    · exact low2 nw
    · exact hw.loopLower s h

theorem full_addLoopName {b : Block} (hw : WF b) (hf : Full b) (o nw : Str) : Full (b.addLoopName o nw).1 := by
  rcases addLoopName_cases b o nw with ⟨r, h⟩ | ⟨n, l, nv, h1, h2, h3, h4, _, h⟩
  · rw [h]; exact hf
  rw [h]
  intro s hs
  rcases (looped_addLoopName hw h2 h3 s).mp hs with rfl | h
  · exact getItem_ok_mem h4
  · exact hf s h

theorem changeItemOrder_cases {b : Block} (hw : WF b) (r : Ref) (p : Int) :
    (∃ e, b.changeItemOrder r p = (b, .error e)) ∨
    (∃ s, r = .name s ∧ .name (lower s) ∈ b.order ∧
      b.changeItemOrder r p = ({ b with order := pyInsert (pyErase b.order (.name (lower s))) p (.name (lower s)) }, .ok ())) ∨
    (∃ s n l, r = .name s ∧ dget b.loops n = some l ∧ lower s ∈ l ∧
      b.changeItemOrder r p = ({ b with loops := dset b.loops n (pyInsert (pyErase l (lower s)) p (lower s)) }, .ok ())) := by
  cases r with
  | loop n =>
    left
    unfold changeItemOrder
    by_cases h : b.loops = []
    · simp only [h, ne_eq, not_true_eq_false, if_false]
      have : Ref.loop n ∉ b.order := by rw [hw.orderLoop, h]; simp [dkeys]
      rw [pyRemove_none.mpr this]
      exact ⟨_, rfl⟩
    · simp only [ne_eq, h, not_false_eq_true, if_true]
      exact ⟨_, rfl⟩
  | name s =>
    unfold changeItemOrder
    simp only
    cases hf : b.findLoop (lower s) with
    | none =>
      simp only
      by_cases h : Ref.name (lower s) ∈ b.order
      · right; left
        exact ⟨s, rfl, h, by rw [pyRemove_eq h]⟩
      · left; rw [pyRemove_none.mpr h]; exact ⟨_, rfl⟩
    | some n =>
      obtain ⟨l, h1, h2⟩ := findLoop_some' hw hf
      rw [low2] at h2
      simp only [h1, pyRemove_eq h2]
      right; right
      exact ⟨s, n, l, rfl, h1, h2, rfl⟩

theorem wf_order {b : Block} (hw : WF b) (o : List Ref) (h : o.Perm b.order) : WF { b with order := o } := by
  constructor
  · exact hw.keysNodup
  · exact hw.keysLower
  · exact hw.caseKeys
  · exact hw.caseVal
  · exact hw.loopsNodup
  · exact hw.loopsPos
  · exact h.nodup_iff.mpr hw.orderNodup
  · intro s; exact h.mem_iff.trans (hw.orderName s)
  · intro n; exact h.mem_iff.trans (hw.orderLoop n)
  · exact hw.looped
  · exact hw.loopLower

theorem reinsert_perm {α : Type} [DecidableEq α] {l : List α} {x : α} (h : x ∈ l) (p : Int) :
    (pyInsert (pyErase l x) p x).Perm l := (pyInsert_perm _ _ _).trans (pyErase_perm h).symm

theorem looped_perm {b : Block} (hw : WF b) {n : Nat} {l l' : List Str} (h : dget b.loops n = some l)
    (hp : l'.Perm l) : ∀ s, s ∈ allLooped (dset b.loops n l') ↔ s ∈ allLooped b.loops := by
  intro s
  rw [allLooped_dset hw.loopsNodup]
  constructor
  · rintro (h1 | ⟨m, l0, h1, _, h2⟩)
    · exact mem_allLooped.mpr ⟨n, l, dget_mem h, hp.mem_iff.mp h1⟩
    · exact mem_allLooped.mpr ⟨m, l0, h1, h2⟩
  · intro hs
    obtain ⟨m, l0, h1, h2⟩ := mem_allLooped.mp hs
    by_cases e : m = n
    · subst e
      rw [dget_of_mem hw.loopsNodup h1] at h; simp at h; subst h
      exact Or.inl (hp.mem_iff.mpr h2)
    · exact Or.inr ⟨m, l0, h1, e, h2⟩

theorem wf_loopPerm {b : Block} (hw : WF b) {n : Nat} {l l' : List Str} (h : dget b.loops n = some l)
    (hp : l'.Perm l) : WF { b with loops := dset b.loops n l' } := by
  have hl := looped_perm hw h hp
  have hdk : ∀ m, m ∈ dkeys (dset b.loops n l') ↔ m ∈ dkeys b.loops := by
    intro m
    rw [mem_dkeys_dset]
    constructor
    · rintro (rfl | h')
      · exact dget_isSome.mp ⟨l, h⟩
      · exact h'
    · exact Or.inr
  constructor
  · exact hw.keysNodup
  · exact hw.keysLower
  · exact hw.caseKeys
  · exact hw.caseVal
  · exact nodup_dkeys_dset _ _ _ hw.loopsNodup
  · intro m hm; exact hw.loopsPos m ((hdk m).mp hm)
  · exact hw.orderNodup
  · intro s; rw [hl]; exact hw.orderName s
  · intro m; rw [hdk]; exact hw.orderLoop m
  · apply nodup_allLooped_dset hw.loopsNodup hw.looped
    · exact hp.nodup_iff.mpr (loop_nodup hw.looped (dget_mem h))
    · intro s hs m l0 hm hne hin
      exact hne (flatMap_unique hw.looped hw.loopsNodup hm hin (dget_mem h) (hp.mem_iff.mp hs)).1
  · intro s hs; exact hw.loopLower s ((hl s).mp hs)

theorem wf_changeItemOrder {b : Block} (hw : WF b) (r : Ref) (p : Int) : WF (b.changeItemOrder r p).1 := by
  rcases changeItemOrder_cases hw r p with ⟨e, h⟩ | ⟨s, _, h1, h⟩ | ⟨s, n, l, _, h1, h2, h⟩
  · rw [h]; exact hw
  · rw [h]; exact wf_order hw _ (reinsert_perm h1 p)
  · rw [h]; exact wf_loopPerm hw h1 (reinsert_perm h2 p)

theorem full_changeItemOrder {b : Block} (hw : WF b) (hf : Full b) (r : Ref) (p : Int) :
    Full (b.changeItemOrder r p).1 := by
  rcases changeItemOrder_cases hw r p with ⟨e, h⟩ | ⟨s, _, h1, h⟩ | ⟨s, n, l, _, h1, h2, h⟩
  · rw [h]; exact hf
  · rw [h]; exact hf
  · rw [h]; intro x hx
    exact hf x ((looped_perm hw h1 (reinsert_perm h2 p) x).mp hx)

/-! ### changing values only -/

theorem wf_values {b : Block} (hw : WF b) (blk : Dict Str (PyVal × PyVal)) (h : dkeys blk = dkeys b.block) :
    WF { b with block := blk } := by
  have hk : ({ b with block := blk } : Block).keys = b.keys := h
  constructor
  · rw [hk]; exact hw.keysNodup
  · rw [hk]; exact hw.keysLower
  · rw [hk]; exact hw.caseKeys
  · exact hw.caseVal
  · exact hw.loopsNodup
  · exact hw.loopsPos
  · exact hw.orderNodup
  · rw [hk]; exact hw.orderName
  · exact hw.orderLoop
  · exact hw.looped
  · exact hw.loopLower

theorem dkeys_dset_mem {α β : Type} [DecidableEq α] {d : Dict α β} {k : α} {w : β} (h : dget d k = some w) (v : β) :
    dkeys (dset d k v) = dkeys d := by
  rw [dkeys_dset, if_pos (dget_isSome.mp ⟨w, h⟩)]

/-- `RemoveKeyedPacket` changes nothing but values. -/
theorem removeRow_frame (b : Block) (i : Nat) (ds : List Str) :
    ∃ blk, dkeys blk = dkeys b.block ∧ (b.removeRow i ds).1 = { b with block := blk } := by
  induction ds generalizing b with
  | nil => exact ⟨b.block, rfl, rfl⟩
  | cons d ds ih =>
    unfold removeRow
    split
    · exact ⟨b.block, rfl, rfl⟩
    · rename_i s v hg
      split
      · exact ⟨_, dkeys_dset_mem hg _, rfl⟩
      · split
        · exact ⟨_, dkeys_dset_mem hg _, rfl⟩
        · rename_i s' _ _ v' _
          obtain ⟨blk, h1, h2⟩ := ih { b with block := dset b.block d (s', v') }
          refine ⟨blk, h1.trans (dkeys_dset_mem hg _), ?_⟩
          rw [h2]

theorem removeKeyedPacket_frame (b : Block) (k : Str) (v : PyVal) :
    ∃ blk, dkeys blk = dkeys b.block ∧ (b.removeKeyedPacket k v).1 = { b with block := blk } := by
  unfold removeKeyedPacket
  split
  · exact ⟨b.block, rfl, rfl⟩
  · split
    · exact ⟨b.block, rfl, rfl⟩
    · split
      · split
        · exact ⟨b.block, rfl, rfl⟩
        · split
          · exact ⟨b.block, rfl, rfl⟩
          · exact removeRow_frame _ _ _
      · exact ⟨b.block, rfl, rfl⟩

theorem appendInPlace_frame (b : Block) (d : Str) (x : PyVal) :
    ∃ blk, dkeys blk = dkeys b.block ∧ (b.appendInPlace d x).1 = { b with block := blk } := by
  unfold appendInPlace
  split
  · exact ⟨b.block, rfl, rfl⟩
  · rename_i s v hg
    split
    · exact ⟨b.block, rfl, rfl⟩
    · simp only
      split <;> exact ⟨_, dkeys_dset_mem hg _, rfl⟩
    · simp only
      split <;> exact ⟨_, dkeys_dset_mem hg _, rfl⟩
    · exact ⟨b.block, rfl, rfl⟩

theorem wf_addPacketFrom {b : Block} (hw : WF b) (p : Packet) (ds : List Str) : WF (b.addPacketFrom p ds).1 := by
  induction ds generalizing b with
  | nil => exact hw
  | cons d ds ih =>
    unfold addPacketFrom
    split
    · exact hw
    · split
      · exact hw
      · rename_i x _
        obtain ⟨blk, h1, h2⟩ := appendInPlace_frame b d x
        have h3 := wf_values hw blk h1
        rw [← h2] at h3
        split
        · rename_i h; rw [h] at h3; exact h3
        · rename_i b1 l' h
          rw [h] at h3
          have h4 := wf_setItem h3 d l'
          split
          · rename_i h'; rw [h'] at h4; exact h4
          · rename_i h'; rw [h'] at h4; exact ih h4

theorem full_addPacketFrom {b : Block} (hw : Full b) (p : Packet) (ds : List Str) : Full (b.addPacketFrom p ds).1 := by
  induction ds generalizing b with
  | nil => exact hw
  | cons d ds ih =>
    unfold addPacketFrom
    split
    · exact hw
    · split
      · exact hw
      · rename_i x _
        obtain ⟨blk, h1, h2⟩ := appendInPlace_frame b d x
        have h3 : Full { b with block := blk } := fun s hs => by
          show s ∈ dkeys blk
          rw [h1]; exact hw s hs
        rw [← h2] at h3
        split
        · rename_i h; rw [h] at h3; exact h3
        · rename_i b1 l' h
          rw [h] at h3
          have h4 := full_setItem h3 d l'
          split
          · rename_i h'; rw [h'] at h4; exact h4
          · rename_i h'; rw [h'] at h4; exact ih h4

theorem wf_settings {b : Block} (hw : WF b) (o : Bool) (m : Option Nat) (u : Bool) :
    WF { b with overwrite := o, maxName := m, unicode := u } := by
  constructor
  · exact hw.keysNodup
  · exact hw.keysLower
  · exact hw.caseKeys
  · exact hw.caseVal
  · exact hw.loopsNodup
  · exact hw.loopsPos
  · exact hw.orderNodup
  · exact hw.orderName
  · exact hw.orderLoop
  · exact hw.looped
  · exact hw.loopLower

theorem wf_step {b : Block} (hw : WF b) (op : Op) (hs : op.Sensible) : WF (b.step op).1 := by
  cases op with
  | add k v pre => exact wf_addItem hw k v pre
  | remove k => exact wf_removeItem hw k
  | createLoop ns o lc => exact wf_createLoop hw ns o lc hs
  | addLoopName o n => exact wf_addLoopName hw o n
  | changeOrder r p => exact wf_changeItemOrder hw r p
  | clear => exact wf_fresh ⟨rfl, rfl, rfl, rfl⟩
  | removePacket k v =>
    obtain ⟨blk, h1, h2⟩ := removeKeyedPacket_frame b k v
    simp only [step]; rw [h2]; exact wf_values hw blk h1
  | addPacket k p =>
    simp only [step]
    split
    · exact hw
    · unfold addPacket
      split
      · exact hw
      · exact wf_addPacketFrom hw _ _
  | configure o m u => exact wf_settings hw o m u

theorem full_step {b : Block} (hw : WF b) (hf : Full b) (op : Op) (hs : op.Checked b) : Full (b.step op).1 := by
  cases op with
  | add k v pre => exact full_addItem hf k v pre
  | remove k => exact full_removeItem hw hf k
  | createLoop ns o lc =>
    cases lc with
    | true => exact full_createLoop hw hf ns o
    | false =>
      simp only [step, createLoop]
      apply full_makeLoop hw hf
      intro s hs'
      rcases hs.2 with h | h
      · simp at h
      · exact contains_iff.mp (h s hs')
  | addLoopName o n => exact full_addLoopName hw hf o n
  | changeOrder r p => exact full_changeItemOrder hw hf r p
  | clear => intro s hs; simp [step, clear, allLooped] at hs
  | removePacket k v =>
    obtain ⟨blk, h1, h2⟩ := removeKeyedPacket_frame b k v
    simp only [step]; rw [h2]
    intro s hs
    show s ∈ dkeys blk
    rw [h1]; exact hf s hs
  | addPacket k p =>
    simp only [step]
    split
    · exact hf
    · unfold addPacket
      split
      · exact hf
      · exact full_addPacketFrom hf _ _
  | configure o m u => exact hf

theorem Op.Checked.sensible {b : Block} {op : Op} (h : op.Checked b) : op.Sensible := by
  cases op <;> simp_all [Op.Checked, Op.Sensible]

theorem wf_run {b : Block} (hw : WF b) (ops : List Op) (hs : ∀ o ∈ ops, o.Sensible) : WF (b.run ops) := by
  induction ops generalizing b with
  | nil => exact hw
  | cons o os ih =>
    exact ih (wf_step hw o (hs o (by simp))) (fun x hx => hs x (by simp [hx]))

/-! ### merging -/

theorem wf_full_mergeStrictKeys {b nb : Block} (hw : WF b) (hf : Full b) (att ks : List Str) :
    WF (b.mergeStrictKeys nb att ks).1 ∧ Full (b.mergeStrictKeys nb att ks).1 := by
  induction ks generalizing b with
  | nil => exact ⟨hw, hf⟩
  | cons k ks ih =>
    unfold mergeStrictKeys
    split
    · exact ih hw hf
    · split
      · exact ⟨hw, hf⟩
      · split
        · exact ⟨hw, hf⟩
        · rename_i v _
          have h1 := wf_setItem hw k v
          have h2 := full_setItem hf k v
          split
          · rename_i h; rw [h] at h1 h2; exact ⟨h1, h2⟩
          · rename_i h; rw [h] at h1 h2; exact ih h1 h2

theorem wf_full_mergeReplaceKeys {b nb : Block} (hw : WF b) (hf : Full b) (ks : List Str) :
    WF (b.mergeReplaceKeys nb ks).1 ∧ Full (b.mergeReplaceKeys nb ks).1 := by
  induction ks generalizing b with
  | nil => exact ⟨hw, hf⟩
  | cons k ks ih =>
    unfold mergeReplaceKeys
    split
    · exact ⟨hw, hf⟩
    · rename_i v _
      have h1 := wf_setItem hw k v
      have h2 := full_setItem hf k v
      split
      · rename_i h; rw [h] at h1 h2; exact ⟨h1, h2⟩
      · rename_i h; rw [h] at h1 h2; exact ih h1 h2

theorem wf_full_mergeLoops {b : Block} (hw : WF b) (hf : Full b) (ls : List (List Str))
    (h : ∀ l ∈ ls, (l.map lower).Nodup) : WF (b.mergeLoops ls).1 ∧ Full (b.mergeLoops ls).1 := by
  induction ls generalizing b with
  | nil => exact ⟨hw, hf⟩
  | cons l ls ih =>
    unfold mergeLoops
    have h1 := wf_createLoop hw l (-1) true (h l (by simp))
    have h2 := full_createLoop hw hf l (-1)
    split
    · rename_i h'; rw [h'] at h1 h2; exact ⟨h1, h2⟩
    · rename_i h'; rw [h'] at h1 h2; exact ih h1 h2 (fun x hx => h x (by simp [hx]))

theorem loop_lower_nodup {b : Block} (hw : WF b) {n : Nat} {l : List Str} (h : (n, l) ∈ b.loops) :
    l.map lower = l ∧ (l.map lower).Nodup := by
  have : l.map lower = l := by
    conv => rhs; rw [← List.map_id l]
    apply List.map_congr_left
    intro s hs
    exact hw.loopLower s (mem_allLooped.mpr ⟨n, l, h, hs⟩)
  rw [this]
  exact ⟨rfl, loop_nodup hw.looped h⟩

theorem dkeys_dupdate_left {α β : Type} [DecidableEq α] (d e : Dict α β) :
    ∀ k ∈ dkeys d, k ∈ dkeys (dupdate d e) := by
  unfold dupdate
  induction e generalizing d with
  | nil => simp
  | cons p r ih =>
    intro k hk
    exact ih _ k ((mem_dkeys_dset _ _ _ _).mpr (Or.inr hk))

theorem mem_dupdate {α β : Type} [DecidableEq α] (d e : Dict α β) :
    ∀ p ∈ dupdate d e, p ∈ d ∨ p ∈ e := by
  unfold dupdate
  induction e generalizing d with
  | nil => simp
  | cons q r ih =>
    intro p hp
    rcases ih _ p hp with h | h
    · rcases mem_of_mem_dset h with rfl | h
      · right; simp
      · exact Or.inl h
    · right; simp [h]

theorem wf_case {b : Block} (hw : WF b) (e : Dict Str Str) (he : ∀ p ∈ e, lower p.2 = p.1) :
    WF { b with trueCase := dupdate b.trueCase e } := by
  constructor
  · exact hw.keysNodup
  · exact hw.keysLower
  · intro k hk; exact dkeys_dupdate_left _ _ _ (hw.caseKeys k hk)
  · intro p hp
    rcases mem_dupdate _ _ p hp with h | h
    · exact hw.caseVal p h
    · exact he p h
  · exact hw.loopsNodup
  · exact hw.loopsPos
  · exact hw.orderNodup
  · exact hw.orderName
  · exact hw.orderLoop
  · exact hw.looped
  · exact hw.loopLower

theorem wf_full_merge {b nb : Block} (hw : WF b) (hf : Full b) (hn : WF nb) (mode : MergeMode) (att : List Str) :
    WF (b.merge nb mode att).1 ∧ Full (b.merge nb mode att).1 := by
  have hl : ∀ l ∈ nb.loops.map (·.2), (l.map lower).Nodup := by
    intro l hl
    obtain ⟨⟨n, l'⟩, h1, rfl⟩ := List.mem_map.mp hl
    exact (loop_lower_nodup hn h1).2
  cases mode with
  | overlay => exact ⟨hw, hf⟩
  | strict =>
    simp only [merge]
    have h1 := wf_full_mergeStrictKeys (nb := nb) hw hf att nb.keys
    split
    · rename_i h; rw [h] at h1; exact h1
    · rename_i h; rw [h] at h1
      have h2 := wf_full_mergeLoops h1.1 h1.2 _ hl
      split
      · rename_i h'; rw [h'] at h2; exact h2
      · rename_i h'; rw [h'] at h2
        exact ⟨wf_case h2.1 _ hn.caseVal, h2.2⟩
  | replace =>
    simp only [merge]
    have h1 := wf_full_mergeReplaceKeys (nb := nb) hw hf nb.keys
    split
    · rename_i h; rw [h] at h1; exact h1
    · rename_i h; rw [h] at h1
      have h2 := wf_full_mergeLoops h1.1 h1.2 _ hl
      split
      · rename_i h'; rw [h'] at h2; exact h2
      · rename_i h'; rw [h'] at h2
        exact ⟨wf_case h2.1 _ hn.caseVal, h2.2⟩

theorem reachable_wf {b : Block} (h : Reachable b) : WF b ∧ Full b := by
  induction h with
  | fresh b h => exact ⟨wf_fresh h, by intro s hs; simp [h.2.1, allLooped] at hs⟩
  | step b op h hc ih => exact ⟨wf_step ih.1 op hc.sensible, full_step ih.1 ih.2 op hc⟩
  | merge b nb mode att h h' ih ih' => exact wf_full_merge ih.1 ih.2 ih'.1 mode att

/-! ### what is printed -/

theorem mem_printed {b : Block} (hw : WF b) {s : Str} :
    s ∈ b.printed ↔ s ∈ allLooped b.loops ∨ (s ∈ b.keys ∧ s ∉ allLooped b.loops) := by
  unfold printed
  rw [List.mem_flatMap]
  constructor
  · rintro ⟨r, h1, h2⟩
    cases r with
    | name t =>
      simp at h2; subst h2
      exact Or.inr ((hw.orderName s).mp h1)
    | loop n =>
      simp only at h2
      split at h2
      · rename_i l hl; exact Or.inl (mem_allLooped.mpr ⟨n, l, dget_mem hl, h2⟩)
      · simp at h2
  · rintro (h | h)
    · obtain ⟨n, l, h1, h2⟩ := mem_allLooped.mp h
      refine ⟨.loop n, (hw.orderLoop n).mpr (mem_dkeys h1), ?_⟩
      simp only [dget_of_mem hw.loopsNodup h1]; exact h2
    · exact ⟨.name s, (hw.orderName s).mpr h, by simp⟩

theorem nodup_printed {b : Block} (hw : WF b) : b.printed.Nodup := by
  unfold printed
  have ho := hw.orderNodup
  have hmem : ∀ r ∈ b.order, r ∈ b.order := fun r h => h
  revert ho hmem
  generalize ho' : b.order = o
  have : ∀ o' : List Ref, o'.Nodup → (∀ r ∈ o', r ∈ b.order) → (o'.flatMap fun r => match r with
    | .name s => [s]
    | .loop n => match dget b.loops n with
      | some l => l
      | none => []).Nodup := by
    intro o'
    induction o' with
    | nil => simp
    | cons r rs ih =>
      intro hn hm
      rw [List.nodup_cons] at hn
      rw [List.flatMap_cons, List.nodup_append]
      refine ⟨?_, ih hn.2 (fun x hx => hm x (by simp [hx])), ?_⟩
      · cases r with
        | name s => simp
        | loop n =>
          simp only
          split
          · rename_i l hl; exact loop_nodup hw.looped (dget_mem hl)
          · simp
      · intro a ha c hc
        rintro rfl
        obtain ⟨q, hq, hqa⟩ := List.mem_flatMap.mp hc
        have hr := hm r (by simp)
        have hq' := hm q (by simp [hq])
        cases r with
        | name s =>
          simp at ha; subst ha
          cases q with
          | name t => simp at hqa; subst hqa; exact hn.1 hq
          | loop m =>
            simp only at hqa
            split at hqa
            · rename_i l hl
              exact ((hw.orderName a).mp hr).2 (mem_allLooped.mpr ⟨m, l, dget_mem hl, hqa⟩)
            · simp at hqa
        | loop n =>
          simp only at ha
          split at ha
          · rename_i l hl
            cases q with
            | name t =>
              simp at hqa; subst hqa
              exact ((hw.orderName a).mp hq').2 (mem_allLooped.mpr ⟨n, l, dget_mem hl, ha⟩)
            | loop m =>
              simp only at hqa
              split at hqa
              · rename_i l' hl'
                have := (flatMap_unique hw.looped hw.loopsNodup (dget_mem hl) ha (dget_mem hl') hqa).1
                subst this; exact hn.1 hq
              · simp at hqa
          · simp at ha
  intro h1 h2
  exact this o h1 (fun r hr => ho' ▸ h2 r hr)

end Verif.Block
