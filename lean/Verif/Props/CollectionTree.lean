import Verif.Props.Collection
import Verif.Lemmas.CollectionTree
/-! # Properties of nesting queries and selections: C34, C35 -/
set_option linter.unusedSectionVars false
namespace Verif.Coll
open List
variable [CaseFold]

/-! ## C34: nesting queries -/

/-- C34: `is_child_of_parent` is true exactly for blocks from which one or more parent links lead to the other. -/
theorem C34_is_child {c : Coll} (h : Reachable c) (p b : Str) :
    (Under c (lower p) (lower b) → c.isChildOfParent p b = .ok true) ∧
    (¬ Under c (lower p) (lower b) → c.isChildOfParent p b = .ok false) := by
  classical
  rw [isChildOfParent_eq (reachable_consistent h)]
  exact ⟨fun hu => by rw [decide_eq_true hu], fun hu => by rw [decide_eq_false hu]⟩

example : letI := asciiFold
    Reachable demo ∧ demo.isChildOfParent "MAIN".toList "Deep".toList = .ok true ∧
      demo.isChildOfParent "main".toList "other".toList = .ok false ∧ demo.isChildOfParent "main".toList "main".toList = .ok false :=
  ⟨demo_reachable, by decide +kernel, by decide +kernel, by decide +kernel⟩

/-- C34: `get_child_list` gives exactly the blocks below, each once, in alphabetical order. -/
theorem C34_child_list {c : Coll} (h : Reachable c) (p : Str) :
    ∃ l, c.getChildList p = .ok l ∧ l.Nodup ∧ (∀ x, x ∈ l ↔ Under c (lower p) x) ∧ l.Pairwise (fun a b => strLe a b = true) := by
  classical
  have hc := reachable_consistent h
  unfold getChildList
  rw [filterE_ok (g := fun a => decide (Under c (lower p) a))]
  · refine ⟨_, rfl, ?_, ?_, pySort_sorted _⟩
    · exact (pySort_perm _).nodup_iff.mpr (hc.nd_table.filter _)
    · intro x
      rw [(pySort_perm _).mem_iff, List.mem_filter, decide_eq_true_eq]
      exact ⟨fun h => h.2, fun h => ⟨under_mem h, h⟩⟩
  · intro x hx
    rw [isChildOfParent_eq hc, CaseFold.lower_lower, hc.lower_keys x ((hc.mem_table x).mp hx)]

example : letI := asciiFold
    Reachable demo ∧ demo.getChildList "Main".toList = .ok ["deep".toList, "inner".toList] :=
  ⟨demo_reachable, by decide +kernel⟩

/-- C34: `get_immediate_children` gives exactly the blocks one link below, each once. -/
theorem C34_immediate {c : Coll} (h : Reachable c) (p : Str) :
    (dkeys (c.getImmediateChildren p)).Nodup ∧
      (∀ x, x ∈ dkeys (c.getImmediateChildren p) ↔ parentOf c x = some (lower p)) ∧
      ∀ x pc, (x, pc) ∈ c.getImmediateChildren p → ∃ e, entry c x = some e ∧ e.blockId = pc.blockId ∧ e.parent = pc.parent := by
  have hc := reachable_consistent h
  refine ⟨nodup_children hc.nd_table (lower p), fun x => mem_children hc.nd_table, ?_⟩
  intro x pc hx
  have hm := (List.mem_filter.mp hx).1
  have ht := dget_of_mem hc.nd_table hm
  obtain ⟨b, hb⟩ := dget_isSome.mpr ((hc.mem_dict x).mpr ((hc.mem_table x).mp (mem_dkeys hm)))
  exact ⟨⟨b, pc.blockId, pc.parent⟩, by simp only [entry, hb, ht], rfl, rfl⟩

example : letI := asciiFold
    Reachable demo ∧ dkeys (demo.getImmediateChildren "MAIN".toList) = ["inner".toList] :=
  ⟨demo_reachable, by decide +kernel⟩

/-- No block has a key that differs from its printed name: no clash has been resolved with a plus sign. -/
def PlainKeys (c : Coll) : Prop := ∀ k e, entry c k = some e → lower e.blockId = k

/-- C34: `get_children` gives exactly the blocks below, with their contents; those directly below become top-level blocks.
Missing because of `C34_get_children_fails`: collections in which a name clash was resolved. -/
theorem C34_get_children_partial {c : Coll} (h : Reachable c) (hpl : PlainKeys c) (p : Str) (s : Scoping) :
    ∃ c', c.getChildren p false s = .ok c' ∧
      (∀ x, Under c (lower p) x → entry c' x = (entry c x).map fun e =>
        { e with parent := if e.parent = some (lower p) then none else e.parent }) ∧
      (∀ x, ¬ Under c (lower p) x → entry c' x = none) ∧
      (∀ x, x ∈ c'.keys ↔ Under c (lower p) x ∧ (s = .instance → parentOf c x = some (lower p))) := by
  classical
  have hc := reachable_consistent h
  have hid : ∀ a ∈ c.childTable, lower a.2.blockId = a.1 := by
    intro a ha
    obtain ⟨k, pc⟩ := a
    obtain ⟨b, hb⟩ := dget_isSome.mpr ((hc.mem_dict k).mpr ((hc.mem_table k).mp (mem_dkeys ha)))
    exact hpl k ⟨b, pc.blockId, pc.parent⟩ (by simp only [entry, hb, dget_of_mem hc.nd_table ha])
  unfold getChildren
  simp only
  rw [filterE_ok (g := fun a => decide (Under c (lower p) a.1))]
  rotate_left
  · intro a ha
    rw [isChildOfParent_eq hc, CaseFold.lower_lower, hid a ha]
  simp only [Bool.false_eq_true, if_false]
  have hkeys : dkeys (c.childTable.filter fun a => decide (Under c (lower p) a.1)) =
      (dkeys c.childTable).filter fun x => decide (Under c (lower p) x) := dkeys_filter _ (fun x => decide (Under c (lower p) x))
  have hmem : ∀ x, x ∈ (dkeys c.childTable).filter (fun x => decide (Under c (lower p) x)) ↔ Under c (lower p) x := by
    intro x
    rw [List.mem_filter, decide_eq_true_eq]
    exact ⟨fun h => h.2, fun h => ⟨under_mem h, h⟩⟩
  rw [hkeys]
  obtain ⟨d, hd, hdk, hdg⟩ := pick_eq (d := c.dict) (ks := (dkeys c.childTable).filter fun x => decide (Under c (lower p) x))
    (fun x hx => (hc.mem_dict x).mpr ((hc.mem_table x).mp (List.mem_filter.mp hx).1))
  rw [hd]
  simp only
  have hmap : ((c.childTable.filter fun a => decide (Under c (lower p) a.1)).map fun a =>
      if a.2.parent = some (lower p) then (a.1, (⟨a.2.blockId, none⟩ : PC)) else a) =
      (c.childTable.filter fun a => decide (Under c (lower p) a.1)).map fun a =>
        (a.1, (⟨a.2.blockId, if a.2.parent = some (lower p) then none else a.2.parent⟩ : PC)) := by
    apply List.map_congr_left
    intro a _
    obtain ⟨k, id, par⟩ := a
    simp only
    split <;> rfl
  rw [hmap]
  have hget : ∀ x, dget ((c.childTable.filter fun a => decide (Under c (lower p) a.1)).map fun a =>
        (a.1, (⟨a.2.blockId, if a.2.parent = some (lower p) then none else a.2.parent⟩ : PC))) x =
      (if decide (Under c (lower p) x) = true then dget c.childTable x else none).map fun pc =>
        ⟨pc.blockId, if pc.parent = some (lower p) then none else pc.parent⟩ := by
    intro x
    rw [dget_map_vals _ (fun _ (pc : PC) => (⟨pc.blockId, if pc.parent = some (lower p) then none else pc.parent⟩ : PC)),
      dget_filter _ (fun x => decide (Under c (lower p) x))]
  refine ⟨_, rfl, ?_, ?_, ?_⟩
  · intro x hx
    simp only [entry, setScoping, hdg, hget, decide_eq_true hx, if_true, (hmem x).mpr hx]
    cases dget c.dict x <;> cases dget c.childTable x <;> simp
  · intro x hx
    have : x ∉ (dkeys c.childTable).filter fun x => decide (Under c (lower p) x) := fun hm => hx ((hmem x).mp hm)
    simp only [entry, setScoping, hdg, this, if_false]
  · intro x
    cases s with
    | dictionary =>
      simp only [keys, setScoping, hmem]
      simp
    | «instance» =>
      simp only [keys, setScoping]
      rw [mem_topLevel (by
        simp only [dkeys_map_vals _ (fun _ (pc : PC) => (⟨pc.blockId, if pc.parent = some (lower p) then none else pc.parent⟩ : PC))]
        rw [hkeys]; exact hc.nd_table.filter _)]
      simp only [dkeys_map_vals _ (fun _ (pc : PC) => (⟨pc.blockId, if pc.parent = some (lower p) then none else pc.parent⟩ : PC)), hkeys,
        hmem, parentOf, hget, true_implies]
      constructor
      · rintro ⟨hu, hp⟩
        refine ⟨hu, ?_⟩
        rw [decide_eq_true hu] at hp
        obtain ⟨q, hq, _⟩ := hu.parent
        unfold parentOf at hq
        cases ht : dget c.childTable x with
        | none => rw [ht] at hq; cases hq
        | some pc =>
          rw [ht] at hq hp
          simp only [if_true, Option.map_some] at hp hq
          split at hp
          · assumption
          · rw [hq] at hp; cases hp
      · rintro ⟨hu, hp⟩
        refine ⟨hu, ?_⟩
        rw [decide_eq_true hu]
        cases ht : dget c.childTable x with
        | none => rfl
        | some pc =>
          rw [ht] at hp
          simp only at hp
          simp [hp]

theorem demo_plain : letI := asciiFold; PlainKeys demo := by
  letI := asciiFold
  intro k e he
  have hk : k ∈ demo.lowerKeys := (entry_isSome (reachable_consistent demo_reachable)).mp ⟨e, he⟩
  have hall : ∀ k ∈ demo.lowerKeys, ∀ e, entry demo k = some e → lower e.blockId = k := by
    have : ∀ k ∈ demo.lowerKeys, (entry demo k).all (fun e => decide (lower e.blockId = k)) = true := by decide +kernel
    intro k hk e he
    have := this k hk
    rw [he] at this
    simpa using this
  exact hall k hk e he

example : letI := asciiFold
    Reachable demo ∧ PlainKeys demo ∧ (demo.getChildren "Main".toList).toOption.map keys = some ["inner".toList, "deep".toList] :=
  ⟨demo_reachable, demo_plain, by decide +kernel⟩

/-- `demo` after a block called `other` has been put inside `Main`: the top-level `other` has got the key `other+`. -/
def demoClash : Coll := letI := asciiFold; demo.step (.new "other".toList {} true (some "main".toList))

/-- C34 fails for `get_children` once a clash has been resolved: it looks blocks up by printed name, so the top-level block `other`
(key `other+`) is returned as if it were inside `Main`. -/
theorem C34_get_children_fails : letI := asciiFold
    Reachable demoClash ∧ parentOf demoClash "other+".toList = none ∧
      ∃ c', demoClash.getChildren "main".toList = .ok c' ∧ "other+".toList ∈ c'.keys := by
  letI := asciiFold
  refine ⟨.step _ demo_reachable ⟨?_, fun h => absurd h (by decide +kernel)⟩, by decide +kernel, ?_⟩
  · intro q hq; injection hq with hq; subst hq; decide +kernel
  · have h : (demoClash.getChildren "main".toList).toOption.any (fun c => decide ("other+".toList ∈ c.keys)) = true := by decide +kernel
    cases hg : demoClash.getChildren "main".toList with
    | error e => rw [hg] at h; cases h
    | ok c' => rw [hg] at h; exact ⟨c', rfl, by simpa [Except.toOption] using h⟩

/-- C34: with `include_parent`, `get_children` gives the block itself as the root and everything below it, with nesting kept.
Missing because of `C34_get_children_fails`: collections in which a name clash was resolved. -/
theorem C34_get_children_root_partial {c : Coll} (h : Reachable c) (hpl : PlainKeys c) (p : Str) (hp : lower p ∈ c.lowerKeys) (s : Scoping) :
    ∃ c', c.getChildren p true s = .ok c' ∧
      entry c' (lower p) = (entry c (lower p)).map (fun e => { e with parent := none }) ∧
      (∀ x, Under c (lower p) x → entry c' x = entry c x) ∧
      (∀ x, ¬ Within c (lower p) x → entry c' x = none) ∧
      (∀ x, x ∈ c'.keys ↔ Within c (lower p) x ∧ (s = .instance → x = lower p)) := by
  classical
  have hc := reachable_consistent h
  have hid : ∀ a ∈ c.childTable, lower a.2.blockId = a.1 := by
    intro a ha
    obtain ⟨k, pc⟩ := a
    obtain ⟨b, hb⟩ := dget_isSome.mpr ((hc.mem_dict k).mpr ((hc.mem_table k).mp (mem_dkeys ha)))
    exact hpl k ⟨b, pc.blockId, pc.parent⟩ (by simp only [entry, hb, dget_of_mem hc.nd_table ha])
  unfold getChildren
  simp only
  rw [filterE_ok (g := fun a => decide (Under c (lower p) a.1))]
  rotate_left
  · intro a ha
    rw [isChildOfParent_eq hc, CaseFold.lower_lower, hid a ha]
  simp only [if_true]
  have hkeys : dkeys (c.childTable.filter fun a => decide (Under c (lower p) a.1)) =
      (dkeys c.childTable).filter fun x => decide (Under c (lower p) x) := dkeys_filter _ (fun x => decide (Under c (lower p) x))
  have hmem : ∀ x, x ∈ (dkeys c.childTable).filter (fun x => decide (Under c (lower p) x)) ↔ Under c (lower p) x := by
    intro x
    rw [List.mem_filter, decide_eq_true_eq]
    exact ⟨fun h => h.2, fun h => ⟨under_mem h, h⟩⟩
  rw [hkeys]
  obtain ⟨d, hd, hdk, hdg⟩ := pick_eq (d := c.dict) (ks := (dkeys c.childTable).filter fun x => decide (Under c (lower p) x))
    (fun x hx => (hc.mem_dict x).mpr ((hc.mem_table x).mp (List.mem_filter.mp hx).1))
  rw [hd]
  obtain ⟨pc, hpc⟩ := dget_isSome.mpr ((hc.mem_table _).mpr hp)
  obtain ⟨b, hb⟩ := dget_isSome.mpr ((hc.mem_dict _).mpr hp)
  simp only [hpc, hb]
  have hself : lower p ∉ (dkeys c.childTable).filter fun x => decide (Under c (lower p) x) :=
    fun hm => hc.acyclic _ ((hmem _).mp hm)
  rw [if_neg hself]
  have hget : ∀ x, dget (dset (c.childTable.filter fun a => decide (Under c (lower p) a.1)) (lower p) ⟨pc.blockId, none⟩) x =
      if lower p = x then some ⟨pc.blockId, none⟩ else if decide (Under c (lower p) x) = true then dget c.childTable x else none := by
    intro x
    rw [dget_dset, dget_filter _ (fun x => decide (Under c (lower p) x))]
  refine ⟨_, rfl, ?_, ?_, ?_, ?_⟩
  · simp only [entry, setScoping, hget, dget_dset, if_true, hb, hpc, Option.map_some]
  · intro x hx
    have hne : ¬ lower p = x := fun e => hc.acyclic _ (by rw [← e] at hx; exact hx)
    simp only [entry, setScoping, dget_dset, hdg, hget, decide_eq_true hx, if_true, (hmem x).mpr hx, hne, if_false]
  · intro x hx
    have hne : ¬ lower p = x := fun e => hx (Or.inl e.symm)
    have : x ∉ (dkeys c.childTable).filter fun x => decide (Under c (lower p) x) := fun hm => hx (Or.inr ((hmem x).mp hm))
    simp only [entry, setScoping, dget_dset, hne, hdg, this, if_false]
  · intro x
    cases s with
    | dictionary =>
      simp only [keys, setScoping, List.mem_append, hmem, List.mem_singleton, Within]
      simp [or_comm]
    | «instance» =>
      simp only [keys, setScoping]
      rw [mem_topLevel (nodup_dkeys_dset _ _ _ (by rw [hkeys]; exact hc.nd_table.filter _)), mem_dkeys_dset, hkeys, hmem]
      simp only [parentOf, hget, true_implies]
      constructor
      · rintro ⟨hw, hq⟩
        refine ⟨hw, ?_⟩
        rcases hw with e | hu
        · exact e
        · have hne : ¬ lower p = x := fun e => hc.acyclic _ (by rw [← e] at hu; exact hu)
          rw [if_neg hne, decide_eq_true hu, if_pos rfl] at hq
          obtain ⟨q, hq', _⟩ := hu.parent
          rw [parentOf, hq] at hq'
          cases hq'
      · rintro ⟨hw, e⟩
        exact ⟨hw, by simp [e]⟩

example : letI := asciiFold
    Reachable demo ∧ PlainKeys demo ∧ lower "Inner".toList ∈ demo.lowerKeys ∧
      (demo.getChildren "Inner".toList true).toOption.map keys = some ["deep".toList, "inner".toList] :=
  ⟨demo_reachable, demo_plain, by decide +kernel, by decide +kernel⟩

/-- C34: `get_parent` gives the enclosing block. -/
theorem C34_get_parent {c : Coll} (n : Str) {e : Entry} (he : entry c (lower n) = some e) :
    c.getParent n = .ok e.parent := by
  unfold entry at he
  split at he
  · rename_i b pc hb hpc
    injection he with he
    subst he
    simp only [getParent, hpc]
  · cases he

/-! ## C35: selections -/

/-- C35: `makebc` keeps exactly the requested blocks with their contents and printed names; a parent link is kept exactly when
the parent is also requested, otherwise the block becomes a top-level block. -/
theorem C35_makebc {c : Coll} (h : Reachable c) (names : List Str) (s : Scoping) :
    ∃ c', c.makebc names s = .ok c' ∧
      (∀ x ∈ names, entry c' (lower x) = (entry c (lower x)).map fun e =>
        { e with parent := match e.parent with
          | some p => if ∃ y ∈ names, lower y = p then some p else none
          | none => none }) ∧
      (∀ k, (¬ ∃ x ∈ names, lower x = k) → entry c' k = none) ∧
      (∀ k, k ∈ c'.keys ↔ k ∈ c.lowerKeys ∧ (∃ x ∈ names, lower x = k) ∧
        (s = .instance → ∀ p, parentOf c k = some p → ¬ ∃ y ∈ names, lower y = p)) ∧
      c'.inputOrder = names.map lower := by
  have hc := reachable_consistent h
  unfold makebc
  simp only
  have hkeys : dkeys (c.childTable.filter fun a => decide (a.1 ∈ names.map lower)) =
      (dkeys c.childTable).filter fun x => decide (x ∈ names.map lower) := dkeys_filter _ (fun x => decide (x ∈ names.map lower))
  rw [hkeys]
  obtain ⟨d, hd, hdk, hdg⟩ := pick_eq (d := c.dict) (ks := (dkeys c.childTable).filter fun x => decide (x ∈ names.map lower))
    (fun x hx => (hc.mem_dict x).mpr ((hc.mem_table x).mp (List.mem_filter.mp hx).1))
  rw [hd]
  simp only
  have hmap : ((c.childTable.filter fun a => decide (a.1 ∈ names.map lower)).map (keepParent (names.map lower))) =
      (c.childTable.filter fun a => decide (a.1 ∈ names.map lower)).map fun a =>
        (a.1, (⟨a.2.blockId, match a.2.parent with
          | some p => if ∃ y ∈ names, lower y = p then some p else none
          | none => none⟩ : PC)) := by
    apply List.map_congr_left
    intro a _
    obtain ⟨k, id, par⟩ := a
    cases par with
    | none => rfl
    | some p =>
      by_cases hp : p ∈ names.map lower
      · have := List.mem_map.mp hp
        simp [keepParent, hp, this]
      · have hp2 : ¬ ∃ y, y ∈ names ∧ lower y = p := fun hh => hp (List.mem_map.mpr hh)
        simp only [keepParent, hp, hp2, if_false]
  rw [hmap]
  have hget := fun x => (dget_map_vals (c.childTable.filter fun a => decide (a.1 ∈ names.map lower))
      (fun _ (pc : PC) => (⟨pc.blockId, match pc.parent with
          | some p => if ∃ y ∈ names, lower y = p then some p else none
          | none => none⟩ : PC)) x).trans
      (congrArg (Option.map _) (dget_filter c.childTable (fun x => decide (x ∈ names.map lower)) x))
  have hdk := dkeys_map_vals (c.childTable.filter fun a => decide (a.1 ∈ names.map lower))
      (fun _ (pc : PC) => (⟨pc.blockId, match pc.parent with
          | some p => if ∃ y ∈ names, lower y = p then some p else none
          | none => none⟩ : PC))
  have hmem : ∀ k, k ∈ (dkeys c.childTable).filter (fun x => decide (x ∈ names.map lower)) ↔
      k ∈ c.lowerKeys ∧ ∃ x ∈ names, lower x = k := by
    intro k
    rw [List.mem_filter, decide_eq_true_eq, hc.mem_table, List.mem_map]
  refine ⟨_, rfl, ?_, ?_, ?_, rfl⟩
  · intro x hx
    have hx' : lower x ∈ names.map lower := List.mem_map.mpr ⟨x, hx, rfl⟩
    by_cases hk : lower x ∈ c.lowerKeys
    · have hm := (hmem (lower x)).mpr ⟨hk, x, hx, rfl⟩
      simp only [entry, setScoping, hdg, hget, hx', decide_true, if_true, hm]
      cases dget c.dict (lower x) <;> cases dget c.childTable (lower x) <;> rfl
    · have hm : lower x ∉ (dkeys c.childTable).filter (fun x => decide (x ∈ names.map lower)) := fun hm => hk ((hmem _).mp hm).1
      rw [(entry_none hc).mpr hk]
      simp only [entry, setScoping, hdg, hm, if_false, Option.map_none]
  · intro k hk
    have hm : k ∉ (dkeys c.childTable).filter (fun x => decide (x ∈ names.map lower)) := fun hm => hk ((hmem _).mp hm).2
    simp only [entry, setScoping, hdg, hm, if_false]
  · intro k
    cases s with
    | dictionary =>
      simp only [keys, setScoping]
      rw [hmem]
      simp
    | «instance» =>
      simp only [keys, setScoping]
      rw [mem_topLevel (by simp only; rw [hdk, hkeys]; exact hc.nd_table.filter _)]
      simp only
      rw [hdk, hkeys, hmem]
      simp only [parentOf, hget, true_implies, and_assoc]
      refine and_congr_right fun hk => and_congr_right fun hx => ?_
      have hx' : k ∈ names.map lower := List.mem_map.mpr hx
      simp only [hx', decide_true, if_true]
      obtain ⟨pc, hpc⟩ := dget_isSome.mpr ((hc.mem_table k).mpr hk)
      rw [hpc]
      simp only [Option.map_some]
      cases pc.parent with
      | none => simp
      | some p =>
        simp only [Option.some.injEq, forall_eq']
        by_cases hp : ∃ y, y ∈ names ∧ lower y = p <;> simp [hp]

example : letI := asciiFold
    Reachable demo ∧ (demo.makebc ["DEEP".toList, "inner".toList, "x".toList]).toOption.map childTable =
      some [("inner".toList, ⟨"inner".toList, none⟩), ("deep".toList, ⟨"Deep".toList, some "inner".toList⟩)] :=
  ⟨demo_reachable, by decide +kernel⟩

end Verif.Coll
