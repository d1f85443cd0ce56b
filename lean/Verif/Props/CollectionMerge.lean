import Verif.Props.CollectionTree
import Verif.Lemmas.CollectionMerge
import Verif.Model.WriteOut
/-! # Properties of fast merging and of collecting values: C36, C38 -/
set_option linter.unusedSectionVars false
namespace Verif.Coll
open List
variable [CaseFold]

/-! ## C36: fast merging -/

/-- A second collection: `Extra` encloses `part`. -/
def demoNew : Coll := letI := asciiFold
  run { scoping := .dictionary, standard := some "Dic".toList }
    [.new "Extra".toList (itemBlock "_x" "7") true none, .new "part".toList (itemBlock "_y" "8") true (some "extra".toList)]

theorem demoNew_reachable : letI := asciiFold; Reachable demoNew := by
  letI := asciiFold
  unfold demoNew
  simp only [run]
  refine .step _ (.step _ (.start _ _ _) ?_) ?_ <;> refine ⟨?_, fun h => absurd h (by decide +kernel)⟩
  · intro q hq; cases hq
  · intro q hq; injection hq with hq; subst hq; decide +kernel

/-- C36: merging collections that share no names gives exactly the blocks of both, with contents, printed names and nesting
unchanged, in order; with a parent given, the new top-level blocks are placed inside it. The other collection is not changed. -/
theorem C36_disjoint {c nb : Coll} (h : Reachable c) (hn : Reachable nb) (hd : ∀ k ∈ c.lowerKeys, k ∉ nb.lowerKeys)
    (parent : Option Str) (hp : ∀ p, parent = some p → lower p ∈ c.lowerKeys) :
    ∃ c', mergeFast c nb parent = (c', nb, .ok ()) ∧
      (∀ k, k ∉ nb.lowerKeys → entry c' k = entry c k) ∧
      (∀ k e, entry nb k = some e → entry c' k = some { e with parent := match e.parent with
        | some q => some q
        | none => parent.map lower }) ∧
      (∀ k, k ∈ c'.lowerKeys ↔ k ∈ c.lowerKeys ∨ k ∈ nb.lowerKeys) ∧
      c'.inputOrder = c.inputOrder ++ nb.inputOrder ∧
      (c.scoping = .dictionary → Consistent c') := by
  have hc := reachable_consistent h
  have hb := reachable_consistent hn
  have hdup : c.lowerKeys.filter (fun k => decide (k ∈ nb.lowerKeys)) = [] := by
    rw [List.filter_eq_nil_iff]
    intro k hk
    simp only [decide_eq_true_eq]
    exact hd k hk
  refine ⟨mergeJoin c nb parent, ?_, ?_, ?_, ?_, rfl, fun hs => mergeJoin_consistent hc hb hd parent hp hs⟩
  · unfold mergeFast
    simp only [hdup]
    simp
  · intro k hk
    rw [entry_mergeJoin hb, (entry_none hb).mpr hk]
  · intro k e he
    rw [entry_mergeJoin hb, he]
    simp only [graft]
    cases e.parent <;> rfl
  · intro k
    simp only [mergeJoin, List.mem_append, List.mem_filter, decide_eq_true_eq]
    constructor
    · rintro (h1 | h1)
      · exact Or.inl h1
      · exact Or.inr h1.1
    · rintro (h1 | h1)
      · exact Or.inl h1
      · exact Or.inr ⟨h1, fun h2 => hd k h2 h1⟩

example : letI := asciiFold
    Reachable demo ∧ Reachable demoNew ∧ (∀ k ∈ demo.lowerKeys, k ∉ demoNew.lowerKeys) ∧
      (mergeFast demo demoNew (some "Other".toList)).1.keys = ["main".toList, "inner".toList, "deep".toList, "other".toList, "extra".toList, "part".toList] ∧
      parentOf (mergeFast demo demoNew (some "Other".toList)).1 "extra".toList = some "other".toList :=
  ⟨demo_reachable, demoNew_reachable, by decide +kernel, by decide +kernel, by decide +kernel⟩

/-- C36, visibility: with instance scoping the nested blocks of the other collection become visible although they should be
hidden. -/
theorem C36_visible_fails : letI := asciiFold
    Reachable demoInstance ∧ Reachable demoNew ∧ (∀ k ∈ demoInstance.lowerKeys, k ∉ demoNew.lowerKeys) ∧
      "part".toList ∈ (mergeFast demoInstance demoNew).1.keys ∧ parentOf (mergeFast demoInstance demoNew).1 "part".toList = some "extra".toList ∧
      (mergeFast demoInstance demoNew).1.scoping = .instance :=
  ⟨demoInstance_reachable, demoNew_reachable, by decide +kernel, by decide +kernel, by decide +kernel, by decide +kernel⟩

theorem mergeDups_clash {c : Coll} {k : Str} {pc : PC} (hck : dget c.childTable k = some pc) (hct : pc.parent = none) :
    ∀ (ds : List Str) (nb : Coll), Consistent nb → k ∈ ds → k ∈ nb.lowerKeys → parentOf nb k = none →
      ∃ c' nb' e, mergeDups c nb none ds = (c', nb', .error e)
  | [], _, _, h, _, _ => by cases h
  | d :: ds, nb, hn, hk, hkn, hkt => by
    unfold mergeDups
    have key : (∃ c' nb' e, mergeDup c nb none d = (c', nb', .error e)) ∨
        (d ≠ k ∧ ∃ nb', mergeDup c nb none d = (c, nb', .ok none) ∧ Consistent nb' ∧ k ∈ nb'.lowerKeys ∧ parentOf nb' k = none) := by
      unfold mergeDup
      split
      · rename_i ours theirs ho ht
        split
        · split
          · exact Or.inl ⟨_, _, _, rfl⟩
          · exact Or.inl ⟨_, _, _, rfl⟩
        · split
          · rename_i h2
            right
            have hdk : d ≠ k := by
              rintro rfl
              rw [hck] at ho
              injection ho with ho
              subst ho
              exact h2.1 hct
            have hdn := (hn.mem_table d).mp (dget_isSome.mp ⟨theirs, ht⟩)
            have hdt : parentOf nb d = none := by rw [parentOf, ht]; exact h2.2.1
            have hf := freshKey_fresh nb.lowerKeys d
            have hfl := freshKey_lower nb.lowerKeys (nb.lowerKeys.length + 1) d (hn.lower_keys d hdn)
            have hv := top_visible hn hdn hdt
            obtain ⟨b, info, hb, hi, e⟩ := rekey_eq (id := []) hn hdn hv hf
            rw [e]
            have hip : info.parent = parentOf nb d := by rw [parentOf, hi]
            refine ⟨hdk, _, rfl, ?_, ?_, ?_⟩
            · exact hn.rekeyed hdn hv hf hfl (by simpa using hip)
            · simp only [rekeyed, List.mem_append, List.mem_filter, decide_eq_true_eq]
              exact Or.inl ⟨hkn, Ne.symm hdk⟩
            · have hkr : k ≠ freshKey nb.lowerKeys (nb.lowerKeys.length + 1) d := fun e => hf (e ▸ hkn)
              rw [parentOf_rekeyed (fun hm => hf ((hn.mem_table _).mp hm)), if_neg hkr, if_neg (Ne.symm hdk), hkt]
              rfl
          · exact Or.inl ⟨_, _, _, rfl⟩
      · exact Or.inl ⟨_, _, _, rfl⟩
    rcases key with ⟨c', nb', e, he⟩ | ⟨hdk, nb', he, h1, h2, h3⟩
    · rw [he]; exact ⟨_, _, _, rfl⟩
    · rw [he]
      simp only
      refine mergeDups_clash hck hct ds nb' h1 ?_ h2 h3
      rcases List.mem_cons.mp hk with e | hk
      · exact absurd e.symm hdk
      · exact hk

/-- C36: with a standard set, a top-level block of the same name in both collections makes the merge fail. -/
theorem C36_clash_raises {c nb : Coll} (h : Reachable c) (hn : Reachable nb) (hs : c.standard ≠ none) {k : Str}
    (hk : k ∈ c.lowerKeys) (hkt : parentOf c k = none) (hkn : k ∈ nb.lowerKeys) (hknt : parentOf nb k = none) :
    ∃ c' nb' e, mergeFast c nb = (c', nb', .error e) := by
  have hc := reachable_consistent h
  have hb := reachable_consistent hn
  obtain ⟨pc, hpc⟩ := dget_isSome.mpr ((hc.mem_table k).mpr hk)
  have hdup : k ∈ c.lowerKeys.filter (fun k => decide (k ∈ nb.lowerKeys)) := List.mem_filter.mpr ⟨hk, by simpa using hkn⟩
  have hne : c.lowerKeys.filter (fun k => decide (k ∈ nb.lowerKeys)) ≠ [] := List.ne_nil_of_mem hdup
  obtain ⟨c', nb', e, he⟩ := mergeDups_clash hpc (by rw [parentOf, hpc] at hkt; exact hkt) _ nb hb hdup hkn hknt
  refine ⟨c', nb', e, ?_⟩
  unfold mergeFast
  simp only
  rw [if_pos ⟨hne, hs⟩, he]

example : letI := asciiFold
    Reachable demo ∧ demo.standard ≠ none ∧ "main".toList ∈ demo.lowerKeys ∧ parentOf demo "main".toList = none ∧
      (mergeFast demo demo).2.2 = .error .star :=
  ⟨demo_reachable, by decide +kernel, by decide +kernel, by decide +kernel, by decide +kernel⟩

/-- C36: without a standard the new block wins, and blocks of other names are unchanged. -/
theorem C36_replace_wins {c nb : Coll} (hn : Reachable nb) (hs : c.standard = none) :
    ∃ c', mergeFast c nb = (c', nb, .ok ()) ∧
      (∀ k e, entry nb k = some e → entry c' k = some e) ∧
      (∀ k, k ∉ nb.lowerKeys → entry c' k = entry c k) ∧
      (∀ k, k ∈ c'.lowerKeys ↔ k ∈ c.lowerKeys ∨ k ∈ nb.lowerKeys) := by
  have hb := reachable_consistent hn
  refine ⟨mergeJoin c nb none, ?_, ?_, ?_, ?_⟩
  · unfold mergeFast
    simp only
    rw [if_neg (fun hh => hh.2 hs)]
  · intro k e he
    rw [entry_mergeJoin hb, he]
    obtain ⟨b, i, p⟩ := e
    cases p <;> rfl
  · intro k hk
    rw [entry_mergeJoin hb, (entry_none hb).mpr hk]
  · intro k
    simp only [mergeJoin, List.mem_append, List.mem_filter, decide_eq_true_eq]
    constructor
    · rintro (h1 | h1)
      · exact Or.inl h1
      · exact Or.inr h1.1
    · rintro (h1 | h1)
      · exact Or.inl h1
      · by_cases h2 : k ∈ c.lowerKeys
        · exact Or.inl h2
        · exact Or.inr ⟨h1, h2⟩

theorem demoFree_reachable : letI := asciiFold; Reachable demoFree := by
  letI := asciiFold
  unfold demoFree
  simp only [run]
  refine .step _ (.step _ (.start _ _ _) ?_) ?_
  · refine ⟨?_, fun _ => ⟨?_, ?_⟩⟩
    · intro q hq; cases hq
    · intro x _ hx; cases hx
    · intro q hq; cases hq
  · have hc : Consistent (({ scoping := .dictionary, standard := none } : Coll).step (.new "Main".toList (itemBlock "_a" "1") true none)) := by
      refine step_consistent (empty_consistent _ _ _) _ ⟨?_, fun _ => ⟨?_, ?_⟩⟩
      · intro q hq; cases hq
      · intro x _ hx; cases hx
      · intro q hq; cases hq
    refine ⟨?_, fun _ => ⟨?_, ?_⟩⟩
    · intro q hq; injection hq with hq; subst hq; decide +kernel
    · intro x _ hx
      exact (hc.visible_all (by decide +kernel) x).mpr hx
    · intro q hq hw
      injection hq with hq
      subst hq
      rcases hw with e | hw
      · exact absurd e (by decide +kernel)
      · obtain ⟨p, hp, _⟩ := hw.parent
        have : parentOf (({ scoping := .dictionary, standard := none } : Coll).step (.new "Main".toList (itemBlock "_a" "1") true none))
          (lower "MAIN".toList) = none := by decide +kernel
        rw [this] at hp; cases hp

example : letI := asciiFold
    Reachable demoFree ∧ demoFree.standard = none ∧ (∃ e, entry demoFree "inner".toList = some e) := by
  letI := asciiFold
  refine ⟨demoFree_reachable, by decide +kernel, ?_⟩
  exact Option.isSome_iff_exists.mp (by decide +kernel)

/-- C36: a replacing merge of collections that share a name leaves the name twice in the output order, and writing the result
out raises `ValueError`. -/
theorem C36_replace_order_fails : letI := asciiFold
    Reachable demoFree ∧ (mergeFast demoFree demoFree).2.2 = .ok () ∧
      (mergeFast demoFree demoFree).1.inputOrder = ["main".toList, "inner".toList, "main".toList, "inner".toList] ∧
      (mergeFast demoFree demoFree).1.writeOut false = .error .value :=
  ⟨demoFree_reachable, by decide +kernel, by decide +kernel, by decide +kernel⟩

/-- C36: when our top-level block shares its name with a nested block of the other collection, the merge fails with
`AttributeError` (the code calls `lower` on the missing parent name), after our block has been given another key. -/
theorem C36_nested_clash_fails : letI := asciiFold
    ∃ c nb, Reachable c ∧ Reachable nb ∧ parentOf c "other".toList = none ∧ parentOf nb "other".toList = some "extra".toList ∧
      (mergeFast c nb).2.2 = .error .attribute ∧ "other".toList ∉ (mergeFast c nb).1.lowerKeys := by
  letI := asciiFold
  refine ⟨demo, demoNew.step (.rename "part".toList "other".toList), demo_reachable, .step _ demoNew_reachable ?_, ?_, ?_, ?_, ?_⟩
  · intro _; decide +kernel
  all_goals decide +kernel

/-! ## C38: collecting values -/

/-- The values a name contributes from one block: nothing if absent or `None`, the elements of a list, or the value itself. -/
def valuesIn (c : Coll) (item k : Str) : List PyVal :=
  match c.getItem k with
  | .error _ => []
  | .ok b =>
    if b.contains item then
      match b.getItem item with
      | .error _ => []
      | .ok .none => []
      | .ok (.list l) => l
      | .ok (.slist l) => l
      | .ok v => [v]
    else []

/-- `l` lists the members of `all` once each, in the order in which they first occur there. -/
structure FirstOccurrences (l all : List PyVal) : Prop where
  nodup : l.Nodup
  mem : ∀ v, v ∈ l ↔ v ∈ all
  order : l.Pairwise fun a b => all.idxOf a < all.idxOf b

theorem firstOcc_addNew {l all : List PyVal} (h : FirstOccurrences l all) (v : PyVal) : FirstOccurrences (addNew l v) (all ++ [v]) := by
  unfold addNew
  split
  · rename_i hv
    have hva := (h.mem v).mp hv
    refine ⟨h.nodup, ?_, ?_⟩
    · intro x
      rw [h.mem, List.mem_append, List.mem_singleton]
      constructor
      · exact Or.inl
      · rintro (hx | rfl)
        · exact hx
        · exact hva
    · refine List.Pairwise.imp_of_mem ?_ h.order
      intro a b ha hb hab
      rw [List.idxOf_append, List.idxOf_append, if_pos ((h.mem a).mp ha), if_pos ((h.mem b).mp hb)]
      exact hab
  · rename_i hv
    have hva : v ∉ all := fun hx => hv ((h.mem v).mpr hx)
    refine ⟨?_, ?_, ?_⟩
    · rw [List.nodup_append]
      refine ⟨h.nodup, by simp, ?_⟩
      intro a ha b hb e
      subst e
      simp only [List.mem_singleton] at hb
      subst hb
      exact hv ha
    · intro x
      rw [List.mem_append, List.mem_append, h.mem]
    · rw [List.pairwise_append]
      refine ⟨?_, by simp, ?_⟩
      · refine List.Pairwise.imp_of_mem ?_ h.order
        intro a b ha hb hab
        rw [List.idxOf_append, List.idxOf_append, if_pos ((h.mem a).mp ha), if_pos ((h.mem b).mp hb)]
        exact hab
      · intro a ha b hb
        simp only [List.mem_singleton] at hb
        subst hb
        rw [List.idxOf_append, List.idxOf_append, if_pos ((h.mem a).mp ha), if_neg hva]
        have := List.idxOf_lt_length_iff.mpr ((h.mem a).mp ha)
        omega

theorem firstOcc_foldl {l all : List PyVal} (h : FirstOccurrences l all) (m : List PyVal) :
    FirstOccurrences (m.foldl addNew l) (all ++ m) := by
  induction m generalizing l all with
  | nil => simpa using h
  | cons v r ih =>
    have := ih (firstOcc_addNew h v)
    simpa using this

/-- What one raw value contributes. -/
def flatten1 : PyVal → List PyVal
  | .list l => l
  | .slist l => l
  | v => [v]

theorem getAll_fold (vs acc : List PyVal) :
    vs.foldl addValues acc = (vs.flatMap flatten1).foldl addNew acc := by
  induction vs generalizing acc with
  | nil => rfl
  | cons v r ih =>
    rw [List.foldl_cons, ih, List.flatMap_cons, List.foldl_append]
    cases v <;> rfl

theorem rawValues_eq {c : Coll} (item : Str) : ∀ (ks : List Str) (vs : List PyVal), c.rawValues item ks = .ok vs →
    vs.flatMap flatten1 = ks.flatMap (valuesIn c item)
  | [], vs, h => by
    simp only [rawValues, Except.ok.injEq] at h
    subst h; rfl
  | k :: ks, vs, h => by
    unfold rawValues at h
    rw [List.flatMap_cons]
    generalize hR : ks.flatMap (valuesIn c item) = R
    unfold valuesIn
    cases hg : c.getItem k with
    | error e => rw [hg] at h; cases h
    | ok b =>
      rw [hg] at h
      simp only at h ⊢
      by_cases hc : b.contains item
      · rw [if_pos hc] at h
        rw [if_pos hc]
        cases hv : b.getItem item with
        | error e => rw [hv] at h; simp [Except.map] at h
        | ok v =>
          rw [hv] at h
          simp only [Except.map] at h
          cases hr : rawValues c item ks with
          | error e => rw [hr] at h; cases h
          | ok r =>
            rw [hr] at h
            simp only [Except.ok.injEq] at h
            have ih := rawValues_eq item ks r hr
            subst h
            rw [hR] at ih
            cases v <;> simp [flatten1, ih]
      · rw [if_neg hc] at h
        rw [if_neg hc]
        simp only at h
        cases hr : rawValues c item ks with
        | error e => rw [hr] at h; cases h
        | ok r =>
          rw [hr] at h
          simp only [Except.ok.injEq] at h
          have ih := rawValues_eq item ks r hr
          subst h
          simpa [hR] using ih

/-- C38: what `get_all` returns is exactly the values the name takes in the visible blocks, each once, in order of first
occurrence. -/
theorem C38_get_all {c : Coll} {item : Str} {l : List PyVal} (h : c.getAll item = .ok l) :
    FirstOccurrences l (c.keys.flatMap (valuesIn c item)) := by
  unfold getAll at h
  cases hr : c.rawValues item c.keys with
  | error e => rw [hr] at h; cases h
  | ok vs =>
    rw [hr] at h
    simp only [Except.ok.injEq] at h
    rw [← rawValues_eq item c.keys vs hr, ← h, getAll_fold]
    have h0 : FirstOccurrences ([] : List PyVal) [] := ⟨List.nodup_nil, fun v => Iff.rfl, .nil⟩
    simpa using firstOcc_foldl h0 (vs.flatMap flatten1)

/-- C38: `get_all` succeeds when every visible block that has the name can give its value. -/
theorem C38_get_all_succeeds {c : Coll} (h : Reachable c) {item : Str}
    (hv : ∀ k ∈ c.keys, ∀ e, entry c k = some e → e.block.contains item = true → ∃ v, e.block.getItem item = .ok v) :
    ∃ l, c.getAll item = .ok l := by
  have hc := reachable_consistent h
  have hraw : ∀ ks : List Str, (∀ k ∈ ks, k ∈ c.keys) → ∃ vs, c.rawValues item ks = .ok vs := by
    intro ks
    induction ks with
    | nil => intro _; exact ⟨[], rfl⟩
    | cons k ks ih =>
      intro hks
      obtain ⟨vs, hvs⟩ := ih fun x hx => hks x (List.mem_cons_of_mem _ hx)
      have hk := hks k List.mem_cons_self
      have hkl := visible_mem hc hk
      obtain ⟨e, he⟩ := (entry_isSome hc).mpr hkl
      have hg : c.getItem k = .ok e.block := by
        rw [getItem_entry hc, hc.lower_keys k hkl, he]
      unfold rawValues
      rw [hg]
      simp only
      by_cases hcon : e.block.contains item
      · obtain ⟨v, hvv⟩ := hv k hk e he hcon
        rw [if_pos hcon, hvv]
        simp only [Except.map, hvs]
        exact ⟨_, rfl⟩
      · rw [if_neg hcon]
        simp only [hvs]
        exact ⟨_, rfl⟩
  obtain ⟨vs, hvs⟩ := hraw c.keys fun _ hx => hx
  unfold getAll
  rw [hvs]
  exact ⟨_, rfl⟩

example : letI := asciiFold
    (run { scoping := .dictionary } [.new "a".toList (itemBlock "_x" "1") true none, .new "b".toList (itemBlock "_x" "2") true none,
      .new "c".toList (itemBlock "_X" "1") true none]).getAll "_x".toList = .ok [.str "1".toList, .str "2".toList] := by
  decide +kernel

end Verif.Coll
