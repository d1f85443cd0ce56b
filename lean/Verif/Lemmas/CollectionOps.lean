import Verif.Lemmas.Collection
/-! Helper lemmas: every operation on a collection keeps its bookkeeping consistent. -/
set_option linter.unusedSectionVars false
namespace Verif.Coll
open List
variable [CaseFold]

theorem parentOf_eq_entry {c : Coll} (h : Consistent c) (k : Str) :
    parentOf c k = (entry c k).bind fun e => e.parent := by
  unfold parentOf entry
  cases h1 : dget c.childTable k with
  | none => cases dget c.dict k <;> rfl
  | some pc =>
    obtain ⟨b, hb⟩ := dget_isSome.mpr ((h.mem_dict k).mpr ((h.mem_table k).mp (dget_isSome.mp ⟨pc, h1⟩)))
    rw [hb]; rfl

theorem entry_isSome {c : Coll} (h : Consistent c) {k : Str} : (∃ e, entry c k = some e) ↔ k ∈ c.lowerKeys := by
  constructor
  · rintro ⟨e, he⟩
    unfold entry at he
    split at he
    · rename_i b pc hb hpc
      exact (h.mem_dict k).mp (dget_isSome.mp ⟨b, hb⟩)
    · cases he
  · intro hk
    obtain ⟨b, hb⟩ := dget_isSome.mpr ((h.mem_dict k).mpr hk)
    obtain ⟨pc, hpc⟩ := dget_isSome.mpr ((h.mem_table k).mpr hk)
    exact ⟨⟨b, pc.blockId, pc.parent⟩, by simp only [entry, hb, hpc]⟩

theorem entry_none {c : Coll} (h : Consistent c) {k : Str} : entry c k = none ↔ k ∉ c.lowerKeys := by
  rw [← entry_isSome h]
  cases entry c k <;> simp

theorem getItem_entry {c : Coll} (h : Consistent c) (k : Str) :
    c.getItem k = match entry c (lower k) with
      | some e => .ok e.block
      | none => .error .key := by
  by_cases hk : lower k ∈ c.lowerKeys
  · obtain ⟨e, he⟩ := (entry_isSome h).mpr hk
    rw [he]
    simp only
    unfold entry at he
    split at he
    · rename_i b pc hb hpc
      injection he with he
      subst he
      simp only [getItem, hk, if_true, hb]
    · cases he
  · rw [(entry_none h).mpr hk]
    simp only [getItem, hk, if_false]

theorem empty_consistent (s : Scoping) (standard : Option Str) (unicode : Bool) :
    Consistent { scoping := s, standard := standard, unicode := unicode } := by
  have hp : ∀ k, parentOf { scoping := s, standard := standard, unicode := unicode } k = none := fun k => rfl
  constructor
  all_goals first
    | exact List.nodup_nil
    | (intro k; simp [dkeys]; done)
    | skip
  · intro k p h; rw [hp] at h; cases h
  · intro k h
    obtain ⟨p, h, _⟩ := h.parent
    rw [hp] at h; cases h
  · intro _ k; simp [keys]
  · intro _ k; simp [keys]

theorem setScoping_consistent {c : Coll} (h : Consistent c) (s : Scoping) : Consistent (c.setScoping s) := by
  have hp : ∀ k, parentOf (c.setScoping s) k = parentOf c k := fun k => rfl
  refine ⟨h.nd_dict, h.nd_table, h.nd_keys, h.nd_order, ?_, h.mem_dict, h.mem_table, h.mem_order, h.lower_keys, h.parents, ?_, ?_, ?_⟩
  · cases s with
    | dictionary => exact h.nd_keys
    | «instance» => exact nodup_topLevel h.nd_table
  · intro k hu
    have gen : ∀ y, Under (c.setScoping s) k y → Under c k y := by
      intro y hy
      induction hy with
      | child hq => exact .child hq
      | deeper _ hq ih => exact .deeper ih hq
    exact h.acyclic k (gen k hu)
  · intro hs k
    cases s with
    | dictionary => exact Iff.rfl
    | «instance» => cases hs
  · intro hs k
    cases s with
    | dictionary => cases hs
    | «instance» =>
      show k ∈ c.topLevel ↔ _
      rw [mem_topLevel h.nd_table, h.mem_table]; rfl

theorem clear_consistent (c : Coll) : Consistent c.clear := by
  have hp : ∀ k, parentOf c.clear k = none := fun k => rfl
  constructor
  all_goals first
    | exact List.nodup_nil
    | (intro k; simp [dkeys, clear]; done)
    | skip
  · intro k p h; rw [hp] at h; cases h
  · intro k h
    obtain ⟨p, h, _⟩ := h.parent
    rw [hp] at h; cases h
  · intro _ k; simp [keys, clear]
  · intro _ k; simp [keys, clear]

theorem parentOf_setParent {c : Coll} {key p : Str} {pc : PC} (k : Str) :
    parentOf { c with childTable := dset c.childTable key ⟨pc.blockId, some p⟩ } k =
      if k = key then some p else parentOf c k := by
  simp only [parentOf, dget_dset]
  by_cases h : k = key
  · simp [h]
  · have : ¬ key = k := fun e => h e.symm
    simp [h, this]

theorem setParent_consistent {c : Coll} (h : Consistent c) (p k : Str) (hg : ¬ Within c (lower k) (lower p)) :
    Consistent (c.setParent p k).1 := by
  unfold setParent
  split
  · exact h
  rename_i hp
  split
  · exact h
  rename_i hk
  have hp := Classical.not_not.mp hp
  have hk := Classical.not_not.mp hk
  obtain ⟨pc, hpc⟩ := dget_isSome.mpr ((h.mem_table _).mpr hk)
  rw [hpc]
  simp only
  -- first the table, with the visible keys left to `setScoping`
  have hpar := parentOf_setParent (c := c) (key := lower k) (p := lower p) (pc := pc)
  have hkeys : dkeys (dset c.childTable (lower k) ⟨pc.blockId, some (lower p)⟩) = dkeys c.childTable := by
    rw [dkeys_dset, if_pos ((h.mem_table _).mpr hk)]
  have hup : ∀ a x, Under { c with childTable := dset c.childTable (lower k) ⟨pc.blockId, some (lower p)⟩ } a x →
      Under c a x ∨ (Within c (lower k) x ∧ Within c a (lower p)) := by
    intro a x hu
    induction hu with
    | child hq =>
      rw [hpar] at hq
      split at hq
      · rename_i e
        injection hq with hq
        exact Or.inr ⟨Or.inl e, Or.inl hq⟩
      · exact Or.inl (.child hq)
    | deeper _ hq ih =>
      rw [hpar] at hq
      split at hq
      · rename_i e
        injection hq with hq
        subst hq
        rcases ih with ih | ⟨h1, _⟩
        · exact Or.inr ⟨Or.inl e, Or.inr ih⟩
        · exact absurd h1 hg
      · rcases ih with ih | ⟨h1, h2⟩
        · exact Or.inl (.deeper ih hq)
        · exact Or.inr ⟨h1.step hq, h2⟩
  have hnd : (dkeys (dset c.childTable (lower k) ⟨pc.blockId, some (lower p)⟩)).Nodup := by rw [hkeys]; exact h.nd_table
  refine ⟨h.nd_dict, hnd, h.nd_keys, h.nd_order, ?_, h.mem_dict, ?_, h.mem_order, h.lower_keys, ?_, ?_, ?_, ?_⟩
  · show (match c.scoping with | .dictionary => c.lowerKeys | .instance => _).Nodup
    cases c.scoping with
    | dictionary => exact h.nd_keys
    | «instance» => exact nodup_topLevel hnd
  · intro x
    show x ∈ dkeys (dset c.childTable (lower k) ⟨pc.blockId, some (lower p)⟩) ↔ _
    rw [hkeys]; exact h.mem_table x
  · intro x q hq
    have hq' : parentOf { c with childTable := dset c.childTable (lower k) ⟨pc.blockId, some (lower p)⟩ } x = some q := hq
    rw [hpar] at hq'
    split at hq'
    · injection hq' with hq'; subst hq'; exact hp
    · exact h.parents x q hq'
  · intro x hu
    have hu' : Under { c with childTable := dset c.childTable (lower k) ⟨pc.blockId, some (lower p)⟩ } x x := by
      have gen : ∀ y, Under (({ c with childTable := dset c.childTable (lower k) ⟨pc.blockId, some (lower p)⟩ } : Coll).setScoping c.scoping) x y →
          Under { c with childTable := dset c.childTable (lower k) ⟨pc.blockId, some (lower p)⟩ } x y := by
        intro y hy
        induction hy with
        | child hq => exact .child hq
        | deeper _ hq ih => exact .deeper ih hq
      exact gen x hu
    rcases hup x x hu' with h1 | ⟨h1, h2⟩
    · exact h.acyclic x h1
    · exact hg (h1.trans h2)
  · intro hs x
    have hs' : c.scoping = .dictionary := hs
    show x ∈ (match c.scoping with | .dictionary => c.lowerKeys | .instance => _) ↔ _
    rw [hs']; rfl
  · intro hs x
    have hs' : c.scoping = .instance := hs
    show x ∈ (match c.scoping with | .dictionary => c.lowerKeys | .instance => topLevel { c with childTable := dset c.childTable (lower k) ⟨pc.blockId, some (lower p)⟩ }) ↔ _
    rw [hs']
    simp only
    rw [mem_topLevel hnd]
    simp only [hkeys, h.mem_table]
    rfl

theorem prepare_fst (c : Coll) (b : Block) : { (c.prepare b).1 with unicode := c.unicode } = stored c b := by
  unfold prepare stored
  split
  · unfold Block.setMaxNameLength
    simp only
    split <;> rfl
  · rfl

theorem addBlock_added {c : Coll} (h : Consistent c) {key name : Str} {b : Block} {parent : Option Str} (hk : key ∉ c.lowerKeys)
    (hp : ∀ p, parent = some p → lower p ∈ c.lowerKeys) :
    c.addBlock key name b parent = added c key ⟨{ b with unicode := c.unicode }, name, parent.map lower⟩ := by
  rw [addBlock_eq hk hp (fun hm => hk ((h.mem_dict _).mp hm)) (fun hm => hk ((h.mem_table _).mp hm))]
  cases parent <;> simp [added]

/-- The ways in which `NewBlock` can end when no deletion is involved. -/
inductive NewResult (c : Coll) (name : Str) (b : Block) (parent : Option Str) (k : Str) : Coll × Except PyErr Str → Prop
  | refused (e : PyErr) : NewResult c name b parent k (c, .error e)
  | plain : k ∉ c.lowerKeys →
      NewResult c name b parent k (added c k ⟨stored c b, name, parent.map lower⟩, .ok k)
  | newKey : k ∈ c.lowerKeys → parentOf c k ≠ none → parent = none →
      NewResult c name b parent k (added c (freshKey c.lowerKeys (c.lowerKeys.length + 1) k) ⟨stored c b, name, none⟩,
        .ok (freshKey c.lowerKeys (c.lowerKeys.length + 1) k))
  | moved (p : Str) (ob : Block) (info : PC) : k ∈ c.lowerKeys → parentOf c k = none → parent = some p →
      dget c.dict k = some ob → dget c.childTable k = some info →
      NewResult c name b parent k
        (added (rekeyed c k (freshKey c.lowerKeys (c.lowerKeys.length + 1) k) ob info) k
          ⟨stored c b, name, some (if lower p = k then freshKey c.lowerKeys (c.lowerKeys.length + 1) k else lower p)⟩, .ok k)

theorem newBlock_result {c : Coll} (h : Consistent c) (hs : c.standard ≠ none) (blockname : Str) (b : Block) (fix : Bool)
    (parent : Option Str) (hp : ∀ p, parent = some p → lower p ∈ c.lowerKeys) :
    NewResult c (if fix then fixName blockname else blockname) b parent (wantedKey blockname fix) (c.newBlock blockname b fix parent) := by
  unfold newBlock
  have hst := prepare_fst c b
  rw [show wantedKey blockname fix = lower (if fix then fixName blockname else blockname) from rfl]
  simp only
  generalize (if fix then fixName blockname else blockname) = name
  split
  · exact .refused _
  rename_i b' hb
  rw [hb] at hst
  simp only at hst
  split
  · exact .refused _
  have hlk : lower (lower name) = lower name := CaseFold.lower_lower name
  split
  · rename_i hk
    cases hcs : c.standard with
    | none => exact absurd hcs hs
    | some std =>
      simp only
      cases parent with
      | none =>
        simp only
        split
        · rename_i ht
          have hf := freshKey_fresh c.lowerKeys (lower name)
          rw [addBlock_added h hf (by simp), hst]
          refine .newKey hk ?_ rfl
          intro hn
          exact ht ((mem_topLevel h.nd_table).mpr ⟨(h.mem_table _).mpr hk, hn⟩)
        · exact .refused _
      | some p =>
        simp only
        split
        · rename_i ht
          have ht := ((mem_topLevel h.nd_table).mp ht).2
          have hf := freshKey_fresh c.lowerKeys (lower name)
          have hfl := freshKey_lower c.lowerKeys (c.lowerKeys.length + 1) (lower name) hlk
          generalize hr : freshKey c.lowerKeys (c.lowerKeys.length + 1) (lower name) = r at hf hfl ⊢
          have hv := top_visible h hk ht
          obtain ⟨ob, info, hob, hinfo, e⟩ := rekey_eq (id := []) h hk hv hf
          rw [e]
          simp only [if_true]
          have hip : info.parent = parentOf c (lower name) := by rw [parentOf, hinfo]
          have hc' := h.rekeyed (b := ob) (info := info) hk hv hf hfl hip
          have hkn : lower name ∉ (rekeyed c (lower name) r ob info).lowerKeys := by
            simp only [rekeyed, List.mem_append, List.mem_filter, List.mem_singleton, not_or]
            refine ⟨by simp, ?_⟩
            intro e; exact hf (e ▸ hk)
          rw [addBlock_added hc' hkn]
          · have hu : (rekeyed c (lower name) r ob info).unicode = c.unicode := rfl
            rw [hu, hst]
            have : (if lower p = lower name then some r else some p).map lower = some (if lower p = lower name then r else lower p) := by
              split
              · simp [hfl]
              · rfl
            rw [this]
            have := NewResult.moved (c := c) (name := name) (b := b) (parent := some p) (k := lower name) p ob info hk ht rfl hob hinfo
            rw [hr] at this
            exact this
          · intro q hq
            have hpk := hp p rfl
            simp only [rekeyed, List.mem_append, List.mem_filter, List.mem_singleton, decide_eq_true_eq]
            split at hq
            · injection hq with hq
              subst hq
              exact Or.inr hfl
            · injection hq with hq
              subst hq
              exact Or.inl ⟨hpk, by assumption⟩
        · exact .refused _
  · rename_i hk
    rw [addBlock_added h hk hp, hst]
    exact .plain hk

theorem closed_not_within (c : Coll) (k : Str) {P : Str → Bool} (hP : ∀ x, P x = true ↔ ¬ Within c k x) : Closed c P := by
  intro x y hy hx
  cases hq : P y with
  | false => rfl
  | true =>
    exfalso
    have h1 := (hP y).mp hq
    have h2 : Within c k x := by
      apply Classical.byContradiction
      intro hn
      rw [(hP x).mpr hn] at hx
      cases hx
    exact h1 (h2.step hy)

theorem newResult_consistent {c : Coll} (h : Consistent c) {name : Str} {b : Block} {parent : Option Str} {k : Str}
    (hk : lower k = k) (hp : ∀ p, parent = some p → lower p ∈ c.lowerKeys) {r : Coll × Except PyErr Str}
    (hr : NewResult c name b parent k r) : Consistent r.1 := by
  cases hr with
  | refused => exact h
  | plain hn =>
    refine h.added hn hk ?_
    intro p hq
    cases parent with
    | none => cases hq
    | some q => injection hq with hq; subst hq; exact hp q rfl
  | newKey hm _ _ =>
    exact h.added (freshKey_fresh _ _) (freshKey_lower _ _ _ hk) (by intro p hq; cases hq)
  | moved p ob info hm ht hpar hob hinfo =>
    have hf := freshKey_fresh c.lowerKeys k
    have hfl := freshKey_lower c.lowerKeys (c.lowerKeys.length + 1) k hk
    have hv := top_visible h hm ht
    have hip : info.parent = parentOf c k := by rw [parentOf, hinfo]
    have hc' := h.rekeyed (b := ob) (info := info) hm hv hf hfl hip
    refine hc'.added ?_ hk ?_
    · simp only [rekeyed, List.mem_append, List.mem_filter, List.mem_singleton, not_or]
      refine ⟨by simp, ?_⟩
      intro e; exact hf (e ▸ hm)
    · intro q hq
      injection hq with hq
      have hpk := hp p hpar
      simp only [rekeyed, List.mem_append, List.mem_filter, List.mem_singleton, decide_eq_true_eq]
      split at hq
      · exact Or.inr hq.symm
      · subst hq; exact Or.inl ⟨hpk, by assumption⟩

open Classical in
theorem delItem_consistent {c : Coll} (h : Consistent c) (key : Str)
    (hg : ∀ x, Within c (lower key) x → x ∈ c.lowerKeys → x ∈ c.keys) : Consistent (c.delItem key).1 := by
  by_cases hk : lower key ∈ c.lowerKeys
  · rw [delItem_eq h.keyed hk]
    · exact h.restrict (closed_within c _)
    · intro x hw
      refine hg x hw ?_
      rcases hw with rfl | hw
      · exact hk
      · exact (h.mem_table x).mp (under_mem hw)
  · have : c.delItem key = (c, .error .key) := by
      simp only [delItem, delFuel, getItem, hk, if_false]
    rw [this]; exact h

theorem rename_result {c : Coll} (h : Consistent c) {old new : Str} (hv : lower old ∈ c.lowerKeys → lower old ∈ c.keys) :
    (lower new ∈ c.lowerKeys ∧ c.rename old new = (c, .error .star)) ∨
    (lower new ∉ c.lowerKeys ∧ lower old ∉ c.lowerKeys ∧ c.rename old new = (c, .error .key)) ∨
    (lower new ∉ c.lowerKeys ∧ lower old ∈ c.lowerKeys ∧ ∃ b info, dget c.dict (lower old) = some b ∧ dget c.childTable (lower old) = some info ∧
      c.rename old new = (rekeyed c (lower old) (lower new) b (if new = [] then info else ⟨new, info.parent⟩), .ok ())) := by
  unfold rename
  by_cases h1 : lower new ∈ c.lowerKeys
  · exact Or.inl ⟨h1, by simp [h1]⟩
  · right
    by_cases h2 : lower old ∈ c.lowerKeys
    · right
      obtain ⟨b, info, hb, hi, e⟩ := rekey_eq (id := new) h h2 (hv h2) h1
      refine ⟨h1, h2, b, info, hb, hi, ?_⟩
      rw [if_neg h1, if_neg (Classical.not_not.mpr h2), e]
    · exact Or.inl ⟨h1, h2, by simp [h1, h2]⟩

theorem rename_consistent {c : Coll} (h : Consistent c) {old new : Str} (hv : lower old ∈ c.lowerKeys → lower old ∈ c.keys) :
    Consistent (c.rename old new).1 := by
  rcases rename_result (new := new) h hv with ⟨_, e⟩ | ⟨_, _, e⟩ | ⟨h1, h2, b, info, _, hi, e⟩
  · rw [e]; exact h
  · rw [e]; exact h
  · rw [e]
    refine h.rekeyed h2 (hv h2) h1 (CaseFold.lower_lower new) ?_
    rw [parentOf, hi]
    simp only
    split <;> rfl

/-- Without a standard, `NewBlock` replaces a block of the same name. -/
theorem newBlock_replaces {c : Coll} (h : Consistent c) (hs : c.standard = none) (blockname : Str) (b : Block) (fix : Bool)
    (parent : Option Str) (hp : ∀ p, parent = some p → lower p ∈ c.lowerKeys)
    (hg : ∀ x, Within c (wantedKey blockname fix) x → x ∈ c.lowerKeys → x ∈ c.keys)
    (hpw : ∀ p, parent = some p → ¬ Within c (wantedKey blockname fix) (lower p))
    (hprep : (c.prepare b).2 = .ok ()) (hlen : ¬ blockname.length > 75) :
    ∀ P : Str → Bool, (∀ x, P x = true ↔ ¬ (wantedKey blockname fix ∈ c.lowerKeys ∧ Within c (wantedKey blockname fix) x)) →
      c.newBlock blockname b fix parent = (added (restrict c P) (wantedKey blockname fix)
        ⟨stored c b, (if fix then fixName blockname else blockname), parent.map lower⟩, .ok (wantedKey blockname fix)) := by
  unfold newBlock
  have hst := prepare_fst c b
  split
  · rename_i hb
    rw [hb] at hprep
    cases hprep
  rename_i b' hb
  rw [hb] at hst
  simp only at hst
  rw [if_neg hlen]
  intro P hP
  simp only
  have hlk : lower (wantedKey blockname fix) = wantedKey blockname fix := CaseFold.lower_lower _
  have hkk : lower (if fix then fixName blockname else blockname) = wantedKey blockname fix := rfl
  rw [hkk]
  generalize wantedKey blockname fix = k at *
  generalize (if fix then fixName blockname else blockname) = name at *
  split
  · rename_i hk
    rw [hs]
    simp only
    have hP' : ∀ x, P x = true ↔ ¬ Within c (lower k) x := by
      intro x; rw [hP, hlk]
      constructor
      · intro h1 h2; exact h1 ⟨hk, h2⟩
      · rintro h1 ⟨_, h2⟩; exact h1 h2
    rw [delItem_eq' h.keyed (by rw [hlk]; exact hk) (P := P) (hP := hP')]
    · simp only
      have hcl := closed_not_within c (lower k) hP'
      have hc' := h.restrict hcl
      have hPk : P k = false := by
        cases hq : P k with
        | false => rfl
        | true => exact absurd (Or.inl (by rw [hlk])) ((hP' k).mp hq)
      rw [addBlock_added hc']
      · have hu : (restrict c P).unicode = c.unicode := rfl
        rw [hu, hst]
      · intro hm
        have := (List.mem_filter.mp hm).2
        rw [hPk] at this; cases this
      · intro p hpp
        refine List.mem_filter.mpr ⟨hp p hpp, ?_⟩
        refine (hP' _).mpr ?_
        rw [hlk]; exact hpw p hpp
    · intro x hw
      rw [hlk] at hw
      refine hg x hw ?_
      rcases hw with rfl | hw
      · exact hk
      · exact (h.mem_table x).mp (under_mem hw)
  · rename_i hk
    rw [restrict_true c (fun x => (hP x).mpr fun hh => hk hh.1), addBlock_added h hk hp, hst]

/-- Without a standard, `NewBlock` refuses or replaces a block of the same name. -/
theorem newBlock_replace {c : Coll} (h : Consistent c) (hs : c.standard = none) (blockname : Str) (b : Block) (fix : Bool)
    (parent : Option Str) (hp : ∀ p, parent = some p → lower p ∈ c.lowerKeys)
    (hg : ∀ x, Within c (wantedKey blockname fix) x → x ∈ c.lowerKeys → x ∈ c.keys)
    (hpw : ∀ p, parent = some p → ¬ Within c (wantedKey blockname fix) (lower p)) :
    (∃ e, c.newBlock blockname b fix parent = (c, .error e)) ∨
    ∀ P : Str → Bool, (∀ x, P x = true ↔ ¬ (wantedKey blockname fix ∈ c.lowerKeys ∧ Within c (wantedKey blockname fix) x)) →
      c.newBlock blockname b fix parent = (added (restrict c P) (wantedKey blockname fix)
        ⟨stored c b, (if fix then fixName blockname else blockname), parent.map lower⟩, .ok (wantedKey blockname fix)) := by
  by_cases hprep : (c.prepare b).2 = .ok ()
  · by_cases hlen : blockname.length > 75
    · left
      unfold newBlock
      split
      · exact ⟨_, rfl⟩
      · rw [if_pos hlen]; exact ⟨_, rfl⟩
    · exact Or.inr (newBlock_replaces h hs blockname b fix parent hp hg hpw hprep hlen)
  · left
    unfold newBlock
    split
    · exact ⟨_, rfl⟩
    · rename_i hb
      rw [hb] at hprep
      exact absurd rfl hprep

open Classical in
theorem newBlock_consistent {c : Coll} (h : Consistent c) (blockname : Str) (b : Block) (fix : Bool) (parent : Option Str)
    (hf : (Op.new blockname b fix parent).Fair c) : Consistent (c.newBlock blockname b fix parent).1 := by
  by_cases hs : c.standard = none
  · rcases newBlock_replace h hs blockname b fix parent hf.1 (hf.2 hs).1 (hf.2 hs).2 with ⟨e, he⟩ | hr
    · rw [he]; exact h
    · have hr := hr (fun x => decide (¬ (wantedKey blockname fix ∈ c.lowerKeys ∧ Within c (wantedKey blockname fix) x))) (fun x => decide_eq_true_iff)
      rw [hr]
      have hcl : Closed c (fun x => decide (¬ (wantedKey blockname fix ∈ c.lowerKeys ∧ Within c (wantedKey blockname fix) x))) := by
        intro x y hy hx
        simp only [decide_eq_false_iff_not, Classical.not_not] at hx ⊢
        exact ⟨hx.1, hx.2.step hy⟩
      refine (h.restrict hcl).added ?_ (CaseFold.lower_lower _) ?_
      · intro hm
        have hm := List.mem_filter.mp hm
        have := of_decide_eq_true hm.2
        exact this ⟨hm.1, Or.inl rfl⟩
      · intro p hpp
        cases parent with
        | none => cases hpp
        | some q =>
          injection hpp with hpp
          subst hpp
          refine List.mem_filter.mpr ⟨hf.1 q rfl, decide_eq_true ?_⟩
          exact fun hh => (hf.2 hs).2 q rfl hh.2
  · exact newResult_consistent h (CaseFold.lower_lower _) hf.1 (newBlock_result h hs blockname b fix parent hf.1)

theorem step_consistent {c : Coll} (h : Consistent c) (o : Op) (hf : o.Fair c) : Consistent (c.step o) := by
  cases o with
  | new n b f p => exact newBlock_consistent h n b f p hf
  | del k => exact delItem_consistent h k hf
  | rename o n => exact rename_consistent h hf
  | scoping s => exact setScoping_consistent h s
  | setParent p k => exact setParent_consistent h p k hf
  | clear => exact clear_consistent c

theorem reachable_consistent {c : Coll} (h : Reachable c) : Consistent c := by
  induction h with
  | start s st u => exact empty_consistent s st u
  | step o _ hf ih => exact step_consistent ih o hf

end Verif.Coll
