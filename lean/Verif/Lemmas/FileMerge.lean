import Verif.Spec.FileMerge
import Verif.Lemmas.CollectionOps
/-! Lemmas about merging files. -/
namespace Verif.Coll
variable [CaseFold]
set_option linter.unusedSectionVars false

theorem fixName_plain {s : Str} (h : ∀ ch ∈ s, ch ≠ ' ' ∧ ch ≠ '\t') : fixName s = s := by
  unfold fixName
  conv => rhs; rw [← List.map_id s]
  apply List.map_congr_left
  intro ch hc
  have := h ch hc
  simp [this.1, this.2]

/-- A block with a new name is added. -/
theorem newBlock_plain {c : Coll} (h : Consistent c) {name : Str} {b : Block} {parent : Option Str} (hk : wantedKey name true ∉ c.lowerKeys)
    (hp : ∀ p, parent = some p → lower p ∈ c.lowerKeys) (hprep : (c.prepare b).2 = .ok ()) (hlen : ¬ name.length > 75) :
    c.newBlock name b true parent = (added c (wantedKey name true) ⟨stored c b, fixName name, parent.map lower⟩, .ok (wantedKey name true)) := by
  unfold newBlock
  have hst := prepare_fst c b
  split
  · rename_i hb
    rw [hb] at hprep
    cases hprep
  rename_i b' hb
  rw [hb] at hst
  simp only at hst
  have hk' : lower (fixName name) ∉ c.lowerKeys := hk
  rw [if_neg hlen]
  simp only [if_true]
  rw [if_neg hk', addBlock_added h hk' hp, hst]
  rfl

theorem prepare_ok {c nb : Coll} (hf : NamesFit c nb) {c1 : Coll} (hs : c1.standard = c.standard) {k : Str} {b : Block} (hb : dget nb.dict k = some b) :
    (c1.prepare b).2 = .ok () := by
  unfold prepare
  split
  · rename_i hcif
    unfold Block.setMaxNameLength
    simp only
    rw [if_neg]
    simp only [List.any_eq_true, decide_eq_true_eq, not_exists, not_and]
    intro n hn
    have := hf (hs ▸ hcif) k b hb n hn
    omega
  · rfl

theorem isMatch_none (items : List PyVal) : items.findIdx? (isMatch none) = none := by
  rw [List.findIdx?_eq_none_iff]
  intro _ _
  rfl

/-- The place of a merged block. -/
def newParent (parent : Option Str) (pc : PC) : Option Str :=
  match pc.parent with
  | some p => some p
  | none => parent

/-- One incoming block, without attributes to match. -/
theorem mergeBlock_eq {nb : Coll} (hn : Consistent nb) (hpl : PlainNames nb) {mode : Option Mode} {parent : Option Str} {m : Mode} {s : Merging}
    (hs : Consistent s.coll) {k : Str} {pc : PC} (hm : (k, pc) ∈ nb.childTable) {b : Block} (hb : dget nb.dict k = some b) :
    mergeBlock { mode := mode, parent := parent } m nb s pc.blockId =
      if s.coll.contains pc.blockId = false ∨ m = .replace then
        (⟨(s.coll.newBlock pc.blockId b true (newParent parent pc)).1, s.baseKeys, s.items⟩,
          (s.coll.newBlock pc.blockId b true (newParent parent pc)).2.map fun _ => ())
      else (s, .error .star) := by
  obtain ⟨hk, hne, -, -⟩ := hpl k pc hm
  have hkl : k ∈ nb.lowerKeys := (hn.mem_table k).mp (List.mem_map_of_mem hm)
  have hget : nb.getItem pc.blockId = .ok b := by
    simp only [getItem, hk, hkl, if_true, hb]
  have hpar : nb.getParent pc.blockId = .ok pc.parent := by
    simp only [getParent, hk, dget_of_mem hn.nd_table hm]
  unfold mergeBlock
  simp only [hne, if_false, blockAttr, findBase, isMatch_none, hpar, hget]
  by_cases hc : s.coll.contains pc.blockId = false ∨ m = .replace
  · rw [if_pos hc, if_pos hc]
    unfold newParent
    cases pc.parent <;> simp only
    all_goals
      generalize s.coll.newBlock _ _ _ _ = q
      obtain ⟨c', r⟩ := q
      cases r <;> rfl
  · rw [if_neg hc, if_neg hc]
    cases m with
    | overlay =>
      simp only
      have hvis : lower pc.blockId ∈ s.coll.visible := by
        simpa [contains] using hc
      have hin : lower pc.blockId ∈ s.coll.lowerKeys := by
        cases hsc : s.coll.scoping with
        | dictionary => exact (hs.visible_all hsc _).mp hvis
        | «instance» => exact ((hs.visible_top hsc _).mp hvis).1
      obtain ⟨b0, hb0⟩ := dget_isSome.mpr ((hs.mem_dict _).mpr hin)
      have : s.coll.getItem pc.blockId = .ok b0 := by
        simp only [getItem, hin, if_true, hb0]
      rw [this]
      rfl
    | _ => rfl

/-- Going through all incoming blocks when each step succeeds. -/
theorem mergeBlocks_ok {nb : Coll} {a : MergeArgs} {m : Mode} (I : List (Str × PC) → Coll → Prop)
    (step : ∀ l1 k pc l2 s, nb.childTable = l1 ++ (k, pc) :: l2 → I l1 s.coll →
      ∃ s', mergeBlock a m nb s pc.blockId = (s', .ok ()) ∧ I (l1 ++ [(k, pc)]) s'.coll) :
    ∀ (l2 l1 : List (Str × PC)) (s : Merging), nb.childTable = l1 ++ l2 → I l1 s.coll →
      ∃ s', mergeBlocks a m nb s (l2.map fun x => x.2.blockId) = (s', .ok ()) ∧ I nb.childTable s'.coll
  | [], l1, s, e, h => ⟨s, rfl, by rw [List.append_nil] at e; rw [e]; exact h⟩
  | (k, pc) :: l2, l1, s, e, h => by
    obtain ⟨s1, h1, h2⟩ := step l1 k pc l2 s e h
    obtain ⟨s2, h3, h4⟩ := mergeBlocks_ok I step l2 (l1 ++ [(k, pc)]) s1 (by rw [e]; simp) h2
    refine ⟨s2, ?_, h4⟩
    simp only [List.map_cons, mergeBlocks, h1]
    exact h3

/-- Going through the incoming blocks when one of them is refused. -/
theorem mergeBlocks_fails {nb : Coll} {a : MergeArgs} {m : Mode} (I : List (Str × PC) → Coll → Prop) {k0 : Str}
    (step : ∀ l1 k pc l2 s, nb.childTable = l1 ++ (k, pc) :: l2 → k ≠ k0 → I l1 s.coll →
      (mergeBlock a m nb s pc.blockId).2 = .ok () → I (l1 ++ [(k, pc)]) (mergeBlock a m nb s pc.blockId).1.coll)
    (bad : ∀ l1 pc l2 s, nb.childTable = l1 ++ (k0, pc) :: l2 → I l1 s.coll → (mergeBlock a m nb s pc.blockId).2 ≠ .ok ()) :
    ∀ (l2 l1 : List (Str × PC)) (s : Merging), nb.childTable = l1 ++ l2 → k0 ∈ dkeys l2 → I l1 s.coll →
      (mergeBlocks a m nb s (l2.map fun x => x.2.blockId)).2 ≠ .ok ()
  | [], _, _, _, hk, _ => nomatch hk
  | (k, pc) :: l2, l1, s, e, hk, h => by
    simp only [List.map_cons, mergeBlocks]
    by_cases hkk : k = k0
    · subst hkk
      have hb := bad l1 pc l2 s e h
      generalize mergeBlock a m nb s pc.blockId = q at hb
      obtain ⟨s1, r⟩ := q
      cases r with
      | error e => simp
      | ok u => exact absurd rfl hb
    · have hst := step l1 k pc l2 s e hkk h
      generalize mergeBlock a m nb s pc.blockId = q at hst
      obtain ⟨s1, r⟩ := q
      cases r with
      | error e => simp
      | ok u =>
        cases u
        simp only
        refine mergeBlocks_fails I step bad l2 (l1 ++ [(k, pc)]) s1 (by rw [e]; simp) ?_ (hst rfl)
        rcases List.mem_cons.mp hk with hh | hh
        · exact absurd hh.symm hkk
        · exact hh

end Verif.Coll
