import Verif.Spec.ValidFile
import Verif.Props.BlockLoop
import Verif.Props.ValidateBlock
/-! Helper lemmas about the validation of files. -/
set_option linter.unusedSectionVars false
namespace Verif.Validate
open Spec
variable [CaseFold]

theorem reachable_keysLower {b : Block} (hr : Block.Reachable b) : ∀ k ∈ b.keys, lower k = k :=
  (Block.reachable_wf hr).1.keysLower

theorem reachable_remove {b : Block} (hr : Block.Reachable b) (n : Str) : Block.Reachable (b.removeItem n).1 :=
  Block.Reachable.step b (.remove n) hr trivial

/-- `b'` is `b` without the items called `ns`. -/
structure Without (ns : List Str) (b b' : Block) : Prop where
  keys : b'.keys = b.keys.filter (fun s => decide (s ∉ ns))
  printed : b'.printed = b.printed.filter (fun s => decide (s ∉ ns))
  values : ∀ x, x ≠ Block.saves → lower x ∉ ns → b'.lookup x = b.lookup x
  loops : ∀ n, dget b'.loops n = (dget b.loops n).bind fun l =>
    if (∃ a ∈ l, a ∈ ns) ∧ l.filter (fun s => decide (s ∉ ns)) = [] then none else some (l.filter fun s => decide (s ∉ ns))

theorem filter_ne_cons (l : List Str) (n : Str) (r : List Str) :
    (l.filter fun s => decide (s ≠ n)).filter (fun s => decide (s ∉ r)) = l.filter (fun s => decide (s ∉ n :: r)) := by
  rw [List.filter_filter]
  apply List.filter_congr
  intro a _
  by_cases h1 : a = n <;> by_cases h2 : a ∈ r <;> simp [h1, h2]

theorem dropNames_without (ns : List Str) : ∀ (b : Block), Block.Reachable b → (∀ n ∈ ns, lower n = n) →
    ∃ b', dropNames b ns = (b', .ok ()) ∧ Block.Reachable b' ∧ Without ns b b' := by
  induction ns with
  | nil =>
    intro b hr _
    refine ⟨b, rfl, hr, ?_, ?_, fun _ _ _ => rfl, ?_⟩
    · exact (List.filter_eq_self.mpr (by simp)).symm
    · exact (List.filter_eq_self.mpr (by simp)).symm
    · intro n
      cases dget b.loops n with
      | none => rfl
      | some l =>
        simp only [Option.bind_some]
        rw [if_neg (fun hh => by obtain ⟨⟨a, _, ha⟩, _⟩ := hh; cases ha), List.filter_eq_self.mpr (by simp)]
  | cons n r ih =>
    intro b hr hl
    have hn : lower n = n := hl n List.mem_cons_self
    have hc := Block.C20_remove b hr n
    simp only [hn] at hc
    obtain ⟨h1, -, h3, h4, h5, h6⟩ := hc
    obtain ⟨b', e1, e2, e3⟩ := ih (b.removeItem n).1 (reachable_remove hr n) (fun m hm => hl m (List.mem_cons_of_mem _ hm))
    refine ⟨b', ?_, e2, ?_, ?_, ?_, ?_⟩
    · rw [dropNames]
      generalize hx : b.removeItem n = p at h1 e1
      obtain ⟨b1, res⟩ := p
      simp only at h1
      subst h1
      exact e1
    · rw [e3.keys, h3, filter_ne_cons]
    · rw [e3.printed, h4, filter_ne_cons]
    · intro x hx hm
      rw [List.mem_cons, not_or] at hm
      rw [e3.values x hx hm.2, h6 x hx hm.1]
    · intro m
      rw [e3.loops, h5]
      cases dget b.loops m with
      | none => rfl
      | some l =>
        simp only [Option.bind_some]
        by_cases hml : n ∈ l
        · rw [if_pos hml]
          by_cases he : l.filter (fun s => decide (s ≠ n)) = []
          · rw [if_pos he, Option.bind_none, if_pos]
            refine ⟨⟨n, hml, List.mem_cons_self⟩, ?_⟩
            rw [← filter_ne_cons, he]
            rfl
          · rw [if_neg he, Option.bind_some, filter_ne_cons]
            by_cases hd : l.filter (fun s => decide (s ∉ n :: r)) = []
            · rw [if_pos, if_pos ⟨⟨n, hml, List.mem_cons_self⟩, hd⟩]
              refine ⟨?_, hd⟩
              obtain ⟨a, ha⟩ := List.exists_mem_of_ne_nil _ he
              refine ⟨a, ha, ?_⟩
              rw [List.filter_eq_nil_iff] at hd
              obtain ⟨ha1, ha2⟩ := List.mem_filter.mp ha
              have := hd a ha1
              simp only [decide_eq_true_eq, List.mem_cons, not_or] at this ha2
              exact Classical.byContradiction fun hh => this ⟨ha2, hh⟩
            · rw [if_neg (fun hh => hd hh.2), if_neg (fun hh => hd hh.2)]
        · rw [if_neg hml, Option.bind_some]
          have hf : l.filter (fun s => decide (s ∉ n :: r)) = l.filter (fun s => decide (s ∉ r)) := by
            apply List.filter_congr
            intro a ha
            have : a ≠ n := fun hh => hml (hh ▸ ha)
            simp [this]
          rw [hf]
          have : (∃ a ∈ l, a ∈ n :: r) ↔ ∃ a ∈ l, a ∈ r := by
            constructor
            · rintro ⟨a, ha, hh⟩
              rcases List.mem_cons.mp hh with hh | hh
              · exact absurd (hh ▸ ha) hml
              · exact ⟨a, ha, hh⟩
            · rintro ⟨a, ha, hh⟩
              exact ⟨a, ha, List.mem_cons_of_mem _ hh⟩
          simp only [this]

theorem known_lower (D : Dic) (x : Str) : D.known (lower x) = D.known x := by
  unfold Dic.known
  rw [CaseFold.lower_lower]

/-- Removing the unknown names leaves the known ones. -/
theorem dropUnknown {D : Dic} {b : Block} (hr : Block.Reachable b) :
    ∃ b', dropNames b (unknownNames D b) = (b', .ok ()) ∧ Block.Reachable b' ∧ OnlyKnown D b b' := by
  have hk := reachable_keysLower hr
  have hp := (Block.C14_one_place b hr).1
  have hfull := (Block.reachable_wf hr).2
  obtain ⟨b', e1, e2, e3⟩ := dropNames_without (unknownNames D b) b hr
    (fun n hn => hk n (List.mem_filter.mp hn).1)
  have hmem : ∀ a ∈ b.keys, decide (a ∉ unknownNames D b) = D.known a := by
    intro a ha
    cases hka : D.known a
    · simp only [decide_eq_false_iff_not, Classical.not_not]
      exact List.mem_filter.mpr ⟨ha, by simp [hka]⟩
    · simp only [decide_eq_true_eq]
      intro hm
      have := (List.mem_filter.mp hm).2
      rw [hka] at this
      exact absurd this (by decide)
  refine ⟨b', e1, e2, ?_, ?_, ?_, ?_⟩
  · rw [e3.keys]
    exact List.filter_congr hmem
  · rw [e3.printed]
    exact List.filter_congr fun a ha => hmem a (hp.mem_iff.mp ha)
  · intro x hx hkx
    refine e3.values x hx ?_
    intro hm
    have := (List.mem_filter.mp hm).2
    rw [known_lower, hkx] at this
    exact absurd this (by decide)
  · intro n
    rw [e3.loops]
    cases hl : dget b.loops n with
    | none => rfl
    | some l =>
      simp only [Option.bind_some]
      have hin : ∀ a ∈ l, a ∈ b.keys := fun a ha => hfull a (Block.mem_allLooped.mpr ⟨n, l, dget_mem hl, ha⟩)
      have h1 : l.filter (fun s => decide (s ∉ unknownNames D b)) = l.filter D.known :=
        List.filter_congr fun a ha => hmem a (hin a ha)
      rw [h1]
      have h2 : (∃ a ∈ l, a ∈ unknownNames D b) ↔ ∃ a ∈ l, D.known a = false := by
        constructor
        · rintro ⟨a, ha, hh⟩
          refine ⟨a, ha, ?_⟩
          have := (List.mem_filter.mp hh).2
          simpa using this
        · rintro ⟨a, ha, hh⟩
          exact ⟨a, ha, List.mem_filter.mpr ⟨hin a ha, by simp [hh]⟩⟩
      simp only [h2]

theorem judged_of_run {C : Checks} {b : Block} {v : Bool × Dict Str Results} (h : runDataChecks C b = .ok v) :
    Judged C b v := by
  obtain ⟨valid, report⟩ := v
  obtain ⟨es, he⟩ := C47_complete C b none valid report h
  obtain ⟨v', r', h1, h2, h3, -⟩ := C47_verdict C b none es he
  rw [h] at h1
  injection h1 with h1
  injection h1 with hv hr
  subst hv hr
  exact ⟨es, he, h2, h3⟩

/-- The blocks before and after, with what is returned. -/
structure Passed (D : Dic) (C : Checks) (c c' : Coll) (r r' : FileResult) (ks : List Str) : Prop where
  same : c' = { c with dict := c'.dict }
  other : ∀ k, k ∉ ks → dget c'.dict k = dget c.dict k
  block : ∀ k ∈ ks, ∃ b b' v, dget c.dict k = some b ∧ dget c'.dict k = some b' ∧ OnlyKnown D b b' ∧
    (unknownNames D b = [] → b' = b) ∧
    dget r'.noMatches k = some (unknownNames D b) ∧ dget r'.valid k = some v ∧ Judged C b' v
  old : ∀ k, k ∉ ks → dget r'.valid k = dget r.valid k ∧ dget r'.noMatches k = dget r.noMatches k
  keysV : dkeys r'.valid = dkeys r.valid ++ ks
  keysN : dkeys r'.noMatches = dkeys r.noMatches ++ ks

theorem getItem_lower {c : Coll} {k : Str} {b : Block} (hl : lower k = k) (h : c.getItem k = .ok b) : dget c.dict k = some b := by
  unfold Coll.getItem at h
  rw [hl] at h
  split at h
  · split at h
    · injection h with h; subst h; assumption
    · cases h
  · cases h

theorem sound_set {c : Coll} (hs : Sound c) (k : Str) {b : Block} (hb : Block.Reachable b) : Sound (setBlock c k b) := by
  intro k' b' h
  simp only [setBlock] at h
  rw [dget_dset] at h
  split at h
  · injection h with h; subst h; exact hb
  · exact hs k' b' h

theorem validateBlocks_ok {D : Dic} {C : Checks} : ∀ (ks : List Str) (c c' : Coll) (r r' : FileResult), Sound c → ks.Nodup →
    (∀ k ∈ ks, lower k = k) → (∀ k ∈ ks, k ∉ dkeys r.valid ∧ k ∉ dkeys r.noMatches) →
    validateBlocks D C c r ks = (c', .ok r') → Passed D C c c' r r' ks
  | [], c, c', r, r', _, _, _, _, h => by
    simp only [validateBlocks, Prod.mk.injEq, Except.ok.injEq] at h
    obtain ⟨rfl, rfl⟩ := h
    exact ⟨rfl, fun _ _ => rfl, nofun, fun _ _ => ⟨rfl, rfl⟩, by simp, by simp⟩
  | k :: ks, c, c', r, r', hs, hn, hl, hf, h => by
    have hlk := hl k List.mem_cons_self
    obtain ⟨hk1, hk2⟩ := List.nodup_cons.mp hn
    rw [validateBlocks] at h
    cases hg : c.getItem k with
    | error e => rw [hg] at h; simp at h
    | ok b =>
      rw [hg] at h
      have hd := getItem_lower hlk hg
      obtain ⟨b', e1, e2, e3⟩ := dropUnknown (D := D) (hs k b hd)
      simp only [e1] at h
      cases hrun : runDataChecks C b' with
      | error e => rw [hrun] at h; simp at h
      | ok v =>
        rw [hrun] at h
        simp only at h
        have hfk := hf k List.mem_cons_self
        have ih := validateBlocks_ok ks _ _ _ _ (sound_set hs k e2) hk2 (fun m hm => hl m (List.mem_cons_of_mem _ hm))
          (by
            intro m hm
            have := hf m (List.mem_cons_of_mem _ hm)
            have hne : m ≠ k := fun hh => hk1 (hh ▸ hm)
            simp only [mem_dkeys_dset, not_or]
            exact ⟨⟨hne, this.1⟩, ⟨hne, this.2⟩⟩) h
        refine ⟨?_, ?_, ?_, ?_, ?_, ?_⟩
        · rw [ih.same]; rfl
        · intro m hm
          rw [List.mem_cons, not_or] at hm
          rw [ih.other m hm.2]
          simp only [setBlock]
          rw [dget_dset, if_neg (by rw [hlk]; exact fun hh => hm.1 hh.symm)]
        · intro m hm
          rcases List.mem_cons.mp hm with rfl | hm
          · refine ⟨b, b', v, hd, ?_, e3, ?_, ?_, ?_, judged_of_run hrun⟩
            · rw [ih.other m hk1]
              simp only [setBlock]
              rw [dget_dset, if_pos hlk]
            · intro hu
              rw [hu] at e1
              simp only [dropNames, Prod.mk.injEq] at e1
              exact e1.1.symm
            · rw [(ih.old m hk1).2]
              simp only
              rw [dget_dset, if_pos rfl]
            · rw [(ih.old m hk1).1]
              simp only
              rw [dget_dset, if_pos rfl]
          · obtain ⟨b1, b2, v1, g1, g2⟩ := ih.block m hm
            have hne : m ≠ k := fun hh => hk1 (hh ▸ hm)
            simp only [setBlock] at g1
            rw [dget_dset, if_neg (by rw [hlk]; exact hne.symm)] at g1
            exact ⟨b1, b2, v1, g1, g2⟩
        · intro m hm
          rw [List.mem_cons, not_or] at hm
          obtain ⟨h1, h2⟩ := ih.old m hm.2
          simp only at h1 h2
          rw [dget_dset, if_neg (fun hh => hm.1 hh.symm)] at h1 h2
          exact ⟨h1, h2⟩
        · rw [ih.keysV]
          simp only
          rw [dset_of_not_mem _ _ _ hfk.1]
          simp [dkeys]
        · rw [ih.keysN]
          simp only
          rw [dset_of_not_mem _ _ _ hfk.2]
          simp [dkeys]

/-- An error comes from a check. -/
theorem validateBlocks_error {D : Dic} {C : Checks} : ∀ (ks : List Str) (c c' : Coll) (r : FileResult) (e : PyErr), Sound c → ks.Nodup →
    (∀ k ∈ ks, lower k = k) → (∀ k ∈ ks, ∃ b, c.getItem k = .ok b) →
    validateBlocks D C c r ks = (c', .error e) →
    ∃ k ∈ ks, ∃ b b', dget c.dict k = some b ∧ OnlyKnown D b b' ∧ runDataChecks C b' = .error e
  | [], c, c', r, e, _, _, _, _, h => by simp [validateBlocks] at h
  | k :: ks, c, c', r, e, hs, hn, hl, hg, h => by
    have hlk := hl k List.mem_cons_self
    obtain ⟨hk1, hk2⟩ := List.nodup_cons.mp hn
    obtain ⟨b, hgk⟩ := hg k List.mem_cons_self
    rw [validateBlocks, hgk] at h
    have hd := getItem_lower hlk hgk
    obtain ⟨b', e1, e2, e3⟩ := dropUnknown (D := D) (hs k b hd)
    simp only [e1] at h
    cases hrun : runDataChecks C b' with
    | error e' =>
      rw [hrun] at h
      simp only [Prod.mk.injEq, Except.error.injEq] at h
      obtain ⟨-, rfl⟩ := h
      exact ⟨k, List.mem_cons_self, b, b', hd, e3, hrun⟩
    | ok v =>
      rw [hrun] at h
      simp only at h
      have hkeep : ∀ m ∈ ks, ∃ b, (setBlock c k b').getItem m = .ok b := by
        intro m hm
        obtain ⟨b1, h1⟩ := hg m (List.mem_cons_of_mem _ hm)
        have hlm := hl m (List.mem_cons_of_mem _ hm)
        have hne : m ≠ k := fun hh => hk1 (hh ▸ hm)
        refine ⟨b1, ?_⟩
        unfold Coll.getItem at h1 ⊢
        simp only [setBlock]
        rw [dget_dset, if_neg (by rw [hlk, hlm]; exact hne.symm)]
        exact h1
      obtain ⟨m, hm, b1, b2, g1, g2⟩ := validateBlocks_error ks _ _ _ _ (sound_set hs k e2) hk2
        (fun m hm => hl m (List.mem_cons_of_mem _ hm)) hkeep h
      have hne : m ≠ k := fun hh => hk1 (hh ▸ hm)
      simp only [setBlock] at g1
      rw [dget_dset, if_neg (by rw [hlk]; exact hne.symm)] at g1
      exact ⟨m, List.mem_cons_of_mem _ hm, b1, b2, g1, g2⟩

end Verif.Validate
