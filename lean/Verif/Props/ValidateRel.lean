import Verif.Lemmas.ValidateRel
import Verif.Props.ValidateItem
/-! # C42-C46: checks that look at other items -/
namespace Verif.Validate
open Spec
variable [CaseFold]
set_option linter.unusedSectionVars false

/-! ## C42 -/

/-- C42, seen from the child: when the parent item is given and has values, the check succeeds exactly when each value
occurs among them or is unstated, and otherwise reports the other values. Missing: checks with optimisation on
(`C42_optimised_fails`). -/
theorem C42_parent_partial (D : Dic) (item p : Str) (b wb : Block) (prov : Dict Str PyVal) (value pv : PyVal) (pvs cvs : List PyVal)
    (hd : D.find item = some b) (hp : b.getItem D.names.parent = .ok (.str p)) (hp0 : p ≠ [])
    (hg : Given wb prov p pv) (hpv : valuesOf pv = some pvs) (hne : pvs ≠ [] ∧ pvs ≠ [.str []]) (hv : valuesOf value = some cvs) :
    validateParent D item value wb prov none = .ok (linkResult pvs cvs { parent := some (.str p) }, none) := by
  have ht := truthy_values hpv hne
  apply validateParent_check hd hp hp0
  simp only [checkParent, slice_values hv, bind, Except.bind, provOrBlock_given hg]
  rw [if_pos (by simpa [truthyO] using ht), compareParent_link hpv]

/-- C42: when neither the parent nor anything that can stand for it is given, only unstated values are let pass. -/
theorem C42_no_parent (D : Dic) (item p : Str) (b wb : Block) (prov : Dict Str PyVal) (value : PyVal) (cvs alts : List PyVal)
    (hd : D.find item = some b) (hp : b.getItem D.names.parent = .ok (.str p)) (hp0 : p ≠ [])
    (hg : Absent wb prov p) (ha : Alternates D p replacing alts) (hal : ∀ n, .str n ∈ alts → n ∉ wb.keys ∧ n ∉ dkeys prov)
    (hv : valuesOf value = some cvs) :
    (validateParent D item value wb prov none = .ok (.skip, none) ∧ ∀ v ∈ cvs, Unstated v) ∨
    (validateParent D item value wb prov none = .ok (.bad { parent := some (.str p) }, none) ∧ ∃ v ∈ cvs, ¬ Unstated v) := by
  have hnil : alts.filter (fun a => isIn a (wb.keys ++ dkeys prov)) = [] := by
    rw [List.filter_eq_nil_iff]
    intro a h
    cases a <;> simp_all [isIn]
  have hmain : validateParent D item value wb prov none =
      .ok (if (cvs.filter fun a => decide (a ≠ dot ∧ a ≠ query)) ≠ [] then .bad { parent := some (.str p) } else .skip, none) := by
    apply validateParent_check hd hp hp0
    simp only [checkParent, slice_values hv, bind, Except.bind, provOrBlock_absent hg]
    rw [if_neg (by simp [truthyO]), getAlternates_spec ha]
    simp only [hnil]
    split <;> rfl
  rw [hmain]
  by_cases hc : (cvs.filter fun a => decide (a ≠ dot ∧ a ≠ query)) = []
  · left
    rw [if_neg (by simpa using hc)]
    refine ⟨rfl, ?_⟩
    intro v hvm
    have := List.filter_eq_nil_iff.1 hc v hvm
    simp only [decide_eq_true_eq] at this
    unfold Unstated
    by_cases h1 : v = .str ['.']
    · exact .inl h1
    · by_cases h2 : v = .str ['?']
      · exact .inr h2
      · exact absurd ⟨h1, h2⟩ this
  · right
    rw [if_pos hc]
    refine ⟨rfl, ?_⟩
    obtain ⟨v, hvm⟩ := List.exists_mem_of_ne_nil _ hc
    have := List.mem_filter.1 hvm
    refine ⟨v, this.1, ?_⟩
    have h2 := of_decide_eq_true this.2
    rintro (h | h)
    · exact h2.1 h
    · exact h2.2 h

/-- C42, with something standing for the parent: the first name present among those that can replace the parent is compared. -/
theorem C42_stand_in (D : Dic) (item p q : Str) (b wb : Block) (prov : Dict Str PyVal) (value pv : PyVal) (pvs cvs l1 l2 : List PyVal)
    (hd : D.find item = some b) (hp : b.getItem D.names.parent = .ok (.str p)) (hp0 : p ≠ [])
    (hg : Absent wb prov p) (ha : Alternates D p replacing (l1 ++ .str q :: l2))
    (hal : ∀ n, .str n ∈ l1 → n ∉ wb.keys ∧ n ∉ dkeys prov) (hq : q ∈ wb.keys ∨ q ∈ dkeys prov)
    (hgq : Given wb prov q pv) (hpv : valuesOf pv = some pvs) (hne : pvs ≠ [] ∧ pvs ≠ [.str []]) (hv : valuesOf value = some cvs) :
    validateParent D item value wb prov none = .ok (linkResult pvs cvs { parent := some (.str q) }, none) := by
  have ht := truthy_values hpv hne
  have hnil : l1.filter (fun a => isIn a (wb.keys ++ dkeys prov)) = [] := by
    rw [List.filter_eq_nil_iff]
    intro a h
    cases a <;> simp_all [isIn]
  have hf : (l1 ++ .str q :: l2).filter (fun a => isIn a (wb.keys ++ dkeys prov)) =
      .str q :: l2.filter (fun a => isIn a (wb.keys ++ dkeys prov)) := by
    have : isIn (.str q) (wb.keys ++ dkeys prov) = true := by simpa [isIn] using hq
    rw [List.filter_append, hnil, List.filter_cons, if_pos this]
    rfl
  have ht' : truthyO (some pv) = true := ht
  apply validateParent_check hd hp hp0
  simp only [checkParent, slice_values hv, bind, Except.bind, provOrBlock_absent hg]
  rw [if_neg (by simp [truthyO]), getAlternates_spec ha]
  simp only [hf, provOrBlock_given hgq]
  rw [if_pos ht', compareParent_link hpv]

/-- C42: without a parent in the definition the check does not apply. -/
theorem C42_unlinked (D : Dic) (item : Str) (b wb : Block) (prov : Dict Str PyVal) (value : PyVal)
    (hd : D.find item = some b) (hp : b.getItem D.names.parent = .error .key) :
    validateParent D item value wb prov none = .ok (.skip, none) := by
  simp only [validateParent, getDef, hd, attr_none hp, bind, Except.bind]

/-- C42, seen from the parent: the check succeeds exactly when the values of every child that is given, under its own name
or one that can stand for it, are in order; a failure names a child and lists the values that are not. Missing: checks with
optimisation on. -/
theorem C42_child_partial (D : Dic) (item : Str) (b wb : Block) (prov : Dict Str PyVal) (value cv : PyVal) (pvs cs : List PyVal)
    (alts : PyVal → List PyVal)
    (hd : D.find item = some b) (hc : b.getItem D.names.child = .ok cv) (hcs : valuesOf cv = some cs) (hv : valuesOf value = some pvs)
    (ha : ∀ c ∈ cs, ∃ n, c = .str n ∧ Alternates D n replacing (alts c))
    (hok : ∀ c ∈ cs ++ cs.flatMap alts, ∃ n, c = .str n ∧ (Absent wb prov n ∨ ∃ vs, Values wb prov n vs)) :
    ∃ o, validateChild D item value wb prov none = .ok (o, none) ∧
      (o = .good ↔ ∀ n vs, .str n ∈ cs ++ cs.flatMap alts → Values wb prov n vs → ∀ v ∈ vs, Linked pvs v) ∧
      (o ≠ .good → ∃ n vs, .str n ∈ cs ++ cs.flatMap alts ∧ Values wb prov n vs ∧ o = linkResult pvs vs { child := some (.str n) }) := by
  have hm : mapE (fun c => getAlternates D c) cs = .ok (cs.map alts) := by
    apply mapE_ok
    intro c h
    obtain ⟨n, rfl, h⟩ := ha c h
    exact getAlternates_spec h
  obtain ⟨o, h1, h2, h3⟩ := checkChildren_spec (wb := wb) (prov := prov) pvs hok
  refine ⟨o, ?_, h2, h3⟩
  simp only [validateChild, hd, attr_some hc, bind, Except.bind, slice_values hcs, slice_values hv, hm]
  rw [List.flatMap_def] at h1
  exact h1

/-- C42: the two checks agree. For a parent with one child and without other names for them, looking from the parent and
looking from the child give success in the same cases. -/
theorem C42_agree (D : Dic) (item p : Str) (b bp wb : Block) (prov : Dict Str PyVal) (cv pv : PyVal) (pvs cvs : List PyVal)
    (hd : D.find item = some b) (hdp : D.find p = some bp) (hp : b.getItem D.names.parent = .ok (.str p)) (hp0 : p ≠ [])
    (hc : bp.getItem D.names.child = .ok (.str item)) (ha : Alternates D item replacing [])
    (hgp : Given wb prov p pv) (hpv : valuesOf pv = some pvs) (hne : pvs ≠ [] ∧ pvs ≠ [.str []])
    (hgc : Given wb prov item cv) (hcv : valuesOf cv = some cvs) :
    validateParent D item cv wb prov none = .ok (.good, none) ↔ validateChild D p pv wb prov none = .ok (.good, none) := by
  obtain ⟨o, h1, h2, -⟩ := C42_child_partial D p bp wb prov pv (.str item) pvs [.str item] (fun _ => []) hdp hc rfl hpv
    (fun c h => ⟨item, by simpa using h, ha⟩)
    (fun c h => ⟨item, by simpa using h, .inr ⟨cvs, cv, hgc, hcv⟩⟩)
  rw [h1, C42_parent_partial D item p b wb prov cv pv pvs cvs hd hp hp0 hgp hpv hne hcv]
  have h3 : linkResult pvs cvs { parent := some (.str p) } = .good ↔ ∀ v ∈ cvs, Linked pvs v := by
    unfold linkResult
    split <;> simp_all
  simp only [Except.ok.injEq, Prod.mk.injEq, and_true]
  rw [h3, h2]
  constructor
  · intro h n vs hn ⟨v, hg, hvs⟩
    have hn : n = item := by simpa using hn
    subst hn
    have := given_unique hgc hg
    subst this
    rw [hcv] at hvs
    injection hvs with hvs
    subst hvs
    exact h
  · intro h
    exact h item cvs (by simp) ⟨cv, hgc, hcv⟩

/-- Definitions of `_p.id` with children `_c.p_id` and `_d.p_id`, which name it as their parent. -/
def linkDic : Dic :=
  letI := asciiFold
  let child : Block := (({} : Block).addItem "_item_linked.parent_name".toList (.str "_p.id".toList)).1
  { names := ddl2Names
    find := fun s =>
      if s = "_p.id".toList then
        some (({} : Block).addItem "_item_linked.child_name".toList (.list [.str "_c.p_id".toList, .str "_d.p_id".toList])).1
      else if s = "_c.p_id".toList then some child
      else if s = "_d.p_id".toList then some child
      else none
    keys := ["_p.id".toList, "_c.p_id".toList, "_d.p_id".toList] }

/-- A block whose item `_d.p_id` has a value that its parent does not have. -/
def linkBlock : Block :=
  letI := asciiFold
  ((({ } : Block).addItem "_p.id".toList (.list [.str "1".toList, .str "2".toList])).1.addItem "_d.p_id".toList
    (.list [.str "2".toList, .str "7".toList, .str "?".toList])).1

/-- The hypotheses of `C42_parent_partial` and `C42_child_partial` for the sample: both checks report the value 7. -/
example : letI := asciiFold
    linkBlock.getItem "_p.id".toList = .ok (.list [.str "1".toList, .str "2".toList]) ∧
    getAlternates linkDic (.str "_c.p_id".toList) = .ok [] ∧
    validateParent linkDic "_d.p_id".toList (.list [.str "2".toList, .str "7".toList, .str "?".toList]) linkBlock [] none =
      .ok (.bad { values := some [.str "7".toList], parent := some (.str "_p.id".toList) }, none) ∧
    validateParent linkDic "_c.p_id".toList (.str "1".toList) linkBlock [] none = .ok (.good, none) ∧
    validateParent linkDic "_c.p_id".toList (.str "1".toList) {} [] none = .ok (.bad { parent := some (.str "_p.id".toList) }, none) ∧
    validateChild linkDic "_p.id".toList (.list [.str "1".toList, .str "2".toList]) linkBlock [] none =
      .ok (.bad { values := some [.str "7".toList], child := some (.str "_d.p_id".toList) }, none) := by decide +kernel

/-- C42 fails while optimisation is on: once one child of a parent has been checked, the next child of the same parent is
not looked at, although its values are wrong. -/
theorem C42_optimised_fails :
    letI := asciiFold
    validateParent linkDic "_c.p_id".toList (.str "1".toList) linkBlock [] (some {}) =
      .ok (.good, some { parents := [.str "_p.id".toList] }) ∧
    validateParent linkDic "_d.p_id".toList (.list [.str "2".toList, .str "7".toList, .str "?".toList]) linkBlock []
      (some { parents := [.str "_p.id".toList] }) = .ok (.skip, some { parents := [.str "_p.id".toList] }) := by decide +kernel

/-! ## C43 -/

/-- C43, first half: if the check succeeds, no two rows have the same values for all key items. -/
theorem C43_unique (D : Dic) (item : Str) (wb : Block) (prov : Dict Str PyVal) (keys : List Str) (rows : List (Str → Str))
    (h : KeyLoop D item wb prov keys rows)
    (hok : validateUniqueness D item (.list (rows.map fun r => .str (r item))) wb prov none = .ok (.good, none)) :
    rows.Pairwise fun r r' => ∃ k ∈ keys, r k ≠ r' k := by
  obtain ⟨o, h1, h2, -⟩ := uniqueness_run h
  rw [h1] at hok
  injection hok with hok
  injection hok with hok
  refine List.Pairwise.imp ?_ (h2 hok)
  intro r r' hne
  apply Classical.byContradiction
  intro hc
  apply hne
  congr 1
  apply List.map_congr_left
  intro k hk
  apply Classical.byContradiction
  intro hkk
  refine hc ⟨k, ?_, hkk⟩
  rcases List.mem_cons.1 hk with rfl | hk
  · exact h.mem
  · exact List.mem_of_mem_erase hk

/-- C43, second half: a loop that fails has two rows with the same key values, and what is reported is made of these
values. Missing: key values with blanks in them (`C43_join_fails`). -/
theorem C43_repeated_partial (D : Dic) (item : Str) (wb : Block) (prov : Dict Str PyVal) (keys : List Str) (rows : List (Str → Str))
    (h : KeyLoop D item wb prov keys rows) (hsp : ∀ r ∈ rows, ∀ k ∈ keys, ' ' ∉ r k) (o : Outcome)
    (hbad : validateUniqueness D item (.list (rows.map fun r => .str (r item))) wb prov none = .ok (o, none)) (ho : o ≠ .good) :
    ∃ s1 r s2 r', rows = s1 ++ r :: s2 ∧ r' ∈ s1 ∧ (∀ k ∈ keys, r' k = r k) ∧
      o = .bad { values := some [.str (joined (item :: keys.erase item |>.map r))] } := by
  obtain ⟨o', h1, -, h3⟩ := uniqueness_run h
  rw [h1] at hbad
  injection hbad with hbad
  injection hbad with hbad
  subst hbad
  obtain ⟨s1, r, s2, e1, e2, r', hr', e3⟩ := h3 ho
  refine ⟨s1, r, s2, r', e1, hr', ?_, e2⟩
  have hr'm : r' ∈ rows := by rw [e1]; exact List.mem_append_left _ hr'
  have hrm : r ∈ rows := by rw [e1]; simp
  have hin : ∀ k ∈ item :: keys.erase item, k ∈ keys := by
    intro k hk
    rcases List.mem_cons.1 hk with rfl | hk
    · exact h.mem
    · exact List.mem_of_mem_erase hk
  have hmap := joined_inj (by simp) (by
    intro s hs
    obtain ⟨k, hk, rfl⟩ := List.mem_map.1 hs
    exact hsp r' hr'm k (hin k hk)) (by
    intro s hs
    obtain ⟨k, hk, rfl⟩ := List.mem_map.1 hs
    exact hsp r hrm k (hin k hk)) e3
  intro k hk
  have hk' : k ∈ item :: keys.erase item := by
    by_cases hki : k = item
    · rw [hki]; exact List.mem_cons_self
    · exact List.mem_cons_of_mem _ ((List.mem_erase_of_ne hki).2 hk)
  exact List.map_inj_left.1 hmap k hk'

/-- C43: a key item that is neither given nor implicit makes the check fail. -/
theorem C43_missing (D : Dic) (item k : Str) (wb : Block) (prov : Dict Str PyVal) (b cb bk : Block) (c : Str) (kv : PyVal) (vals : List PyVal)
    (hb : D.find item = some b) (hc : b.getItem D.names.cat = .ok (.str c)) (hcb : D.find c = some cb)
    (hk : cb.getItem "_category_key.name".toList = .ok kv) (hkv : valuesOf kv = some [.str item, .str k])
    (ha : Absent wb prov k) (hbk : D.find k = some bk)
    (hm : bk.getItem D.names.mustExist = .error .key ∨ ∃ v, bk.getItem D.names.mustExist = .ok v ∧ v ≠ .str "implicit".toList) :
    validateUniqueness D item (.list vals) wb prov none = .ok (.bad { items := some [.str k] }, none) := by
  have h1 : ∃ m, attr bk D.names.mustExist = .ok m ∧ m ≠ some (.str "implicit".toList) := by
    rcases hm with hm | ⟨v, hm, hne⟩
    · exact ⟨none, attr_none hm, by simp⟩
    · exact ⟨some v, attr_some hm, by simpa using hne⟩
  obtain ⟨m, hm1, hm2⟩ := h1
  have her : [PyVal.str item, .str k].erase (.str item) = [.str k] := by simp
  have hmem : PyVal.str item ∈ [PyVal.str item, .str k] := by simp
  simp only [validateUniqueness, getDef, hb, attr_some hc, bind, Except.bind, getDefV, hcb, attr_some hk, Option.getD_some,
    slice_values hkv, hmem, not_true_eq_false, if_false, isText, Bool.false_eq_true, elements, checkUnique, her,
    otherData, provOrBlock_absent ha, hbk, hm1, hm2]

/-- A dictionary with a category that has two key items. -/
def keyDic : Dic :=
  letI := asciiFold
  let item : Block := (({} : Block).addItem "_item.category_id".toList (.str "x".toList)).1
  { names := ddl2Names
    find := fun s =>
      if s = "x".toList then
        some (({} : Block).addItem "_category_key.name".toList (.list [.str "_x.a".toList, .str "_x.b".toList])).1
      else if s = "_x.a".toList then some item
      else if s = "_x.b".toList then some item
      else none
    keys := ["x".toList, "_x.a".toList, "_x.b".toList] }

/-- C43 fails for key values with blanks: the rows `a b`, `c` and `a`, `b c` are different but are reported as equal. -/
theorem C43_join_fails :
    letI := asciiFold
    validateUniqueness keyDic "_x.a".toList (.list [.str "a b".toList, .str "a".toList])
      (({} : Block).addItem "_x.b".toList (.list [.str "c".toList, .str "b c".toList])).1 [] none =
      .ok (.bad { values := some [.str "a b c".toList] }, none) := by decide +kernel

/-- The hypotheses of the theorems on C43 for two rows that differ in the second key item only. -/
example : letI := asciiFold
    KeyLoop keyDic "_x.a".toList (({} : Block).addItem "_x.b".toList (.list [.str "c".toList, .str "d".toList])).1 []
      ["_x.a".toList, "_x.b".toList]
      [fun k => if k = "_x.a".toList then "a".toList else "c".toList, fun k => if k = "_x.a".toList then "a".toList else "d".toList] := by
  letI := asciiFold
  refine ⟨⟨_, "x".toList, _, .list [.str "_x.a".toList, .str "_x.b".toList], rfl, by decide +kernel, rfl, by decide +kernel, rfl⟩,
    by decide +kernel, by decide +kernel, ?_⟩
  intro k hk hne
  have : k = "_x.b".toList := by
    rcases List.mem_cons.1 hk with h | h
    · exact absurd h hne
    · exact List.mem_singleton.1 h
  subst this
  exact .inr ⟨rfl, by decide +kernel⟩

/-! ## C44 -/

/-- C44, exclusion: the check succeeds exactly when none of the names excluded by the item, nor another name for it, is in
the block or about to be added, whatever the case; a failure lists those that are. -/
theorem C44_exclusion (D : Dic) (item : Str) (wb : Block) (prov : Dict Str PyVal) (names : List Str)
    (ha : Alternates D item excluding (names.map .str)) :
    ∃ o, validateExclusion D item wb prov = .ok o ∧
      (o = .good ↔ ∀ n ∈ names, ¬ Listed (wb.keys ++ dkeys prov) n) ∧
      (o ≠ .good → ∃ l : List Str, o = .bad { items := some (l.map .str) } ∧ ∀ m, m ∈ l ↔ ∃ n ∈ names, Listed (wb.keys ++ dkeys prov) n ∧ m = lower n) := by
  have hm : mapE lowerV (names.map .str) = .ok (names.map lower) := by
    rw [mapE_map, mapE_ok (g := lower)]
    intro a _
    rfl
  have hL : ∀ n, Listed (wb.keys ++ dkeys prov) n ↔ lower n ∈ wb.keys.map lower ++ (dkeys prov).map lower := by
    intro n
    rw [← List.map_append, List.mem_map]
    rfl
  have hrun : validateExclusion D item wb prov = .ok (if (names.map lower).filter (fun a => decide (a ∈ wb.keys.map lower ++ (dkeys prov).map lower)) = []
      then .good else .bad { items := some (((names.map lower).filter fun a => decide (a ∈ wb.keys.map lower ++ (dkeys prov).map lower)).map .str) }) := by
    simp only [validateExclusion, getAlternates_excl ha, bind, Except.bind, hm]
  refine ⟨_, hrun, ?_, ?_⟩
  · split
    · rename_i h
      refine iff_of_true rfl ?_
      intro n hn hl
      have := List.filter_eq_nil_iff.1 h (lower n) (List.mem_map_of_mem hn)
      exact this (by simpa using (hL n).1 hl)
    · rename_i h
      refine iff_of_false (by simp) ?_
      intro hall
      apply h
      rw [List.filter_eq_nil_iff]
      intro a hma
      obtain ⟨n, hn, rfl⟩ := List.mem_map.1 hma
      have := hall n hn
      rw [hL] at this
      simpa using this
  · intro ho
    split at ho
    · exact absurd rfl ho
    · rename_i h
      refine ⟨_, if_neg h, ?_⟩
      intro m
      rw [List.mem_filter, List.mem_map]
      constructor
      · rintro ⟨⟨n, hn, rfl⟩, hd⟩
        exact ⟨n, hn, (hL n).2 (of_decide_eq_true hd), rfl⟩
      · rintro ⟨n, hn, hl, rfl⟩
        exact ⟨⟨n, hn, rfl⟩, decide_eq_true ((hL n).1 hl)⟩

/-- C44, dependencies, for dictionaries that write these names as the block has them: the check succeeds exactly when each
name that the item depends on, or one that can stand for it, is in the block or about to be added; a failure lists the
others. Missing: names written with capitals in the dictionary (`C44_case_fails`). -/
theorem C44_dependents_partial (D : Dic) (item : Str) (b wb : Block) (prov : Dict Str PyVal) (dv : PyVal) (deps : List Str)
    (hd : D.find item = some b) (hdep : b.getItem D.names.dep = .ok dv) (hdv : valuesOf dv = some (deps.map .str))
    (ha : ∀ n ∈ deps, ∃ alts, Alternates D n replacing alts) :
    ∃ o, validateDependents D item wb prov = .ok o ∧
      (o = .good ↔ ∀ n ∈ deps, Covered D (wb.keys ++ dkeys prov) n) ∧
      (o ≠ .good → ∃ l : List Str, o = .bad { items := some (l.map .str) } ∧ ∀ m, m ∈ l ↔ m ∈ deps ∧ ¬ Covered D (wb.keys ++ dkeys prov) m) := by
  classical
  have hpick : ∃ alts : Str → List PyVal, ∀ n ∈ deps, getAlternates D (.str n) = .ok (alts n) ∧
      (n ∉ wb.keys ++ dkeys prov → (((alts n).filter fun a => isIn a (wb.keys ++ dkeys prov)) = [] ↔ ¬ Covered D (wb.keys ++ dkeys prov) n)) := by
    refine ⟨fun n => if h : ∃ alts, Alternates D n replacing alts then h.choose else [], ?_⟩
    intro n hn
    have hex := ha n hn
    simp only [dif_pos hex]
    have hsp := hex.choose_spec
    refine ⟨getAlternates_spec hsp, ?_⟩
    intro hno
    exact covered_alts hsp hno
  obtain ⟨alts, halts⟩ := hpick
  have hmiss : (deps.map PyVal.str).filter (fun a => !isIn a (wb.keys ++ dkeys prov)) =
      (deps.filter fun n => decide (n ∉ wb.keys ++ dkeys prov)).map .str := by
    rw [List.filter_map]
    congr 1
    apply List.filter_congr
    intro n _
    simp [isIn]
  have hmap : mapE (fun a => (getAlternates D a).bind fun l => Except.ok (l, a)) ((deps.filter fun n => decide (n ∉ wb.keys ++ dkeys prov)).map .str) =
      .ok ((deps.filter fun n => decide (n ∉ wb.keys ++ dkeys prov)).map fun n => (alts n, PyVal.str n)) := by
    rw [mapE_map]
    apply mapE_ok
    intro n hn
    simp only [(halts n (List.mem_filter.1 hn).1).1, Except.bind]
  have hbad : (((deps.filter fun n => decide (n ∉ wb.keys ++ dkeys prov)).map fun n => (alts n, PyVal.str n)).filter
      fun p => decide ((p.1.filter fun a => isIn a (wb.keys ++ dkeys prov)) = [])).map (·.2) =
      (deps.filter fun n => decide (¬ Covered D (wb.keys ++ dkeys prov) n)).map .str := by
    rw [List.filter_map, List.map_map, List.filter_filter]
    have : (Prod.snd ∘ fun n : Str => (alts n, PyVal.str n)) = PyVal.str := rfl
    rw [this]
    congr 1
    apply List.filter_congr
    intro n hn
    simp only [Function.comp]
    by_cases h : n ∈ wb.keys ++ dkeys prov
    · have hc : Covered D (wb.keys ++ dkeys prov) n := .inl h
      simp [h, hc]
    · have := (halts n hn).2 h
      rw [decide_eq_true h, Bool.and_true, decide_eq_decide]
      exact this
  have hrun : validateDependents D item wb prov =
      .ok (if (deps.filter fun n => decide (¬ Covered D (wb.keys ++ dkeys prov) n)) = [] then .good
        else .bad { items := some ((deps.filter fun n => decide (¬ Covered D (wb.keys ++ dkeys prov) n)).map .str) }) := by
    simp only [validateDependents, hd, attr_some hdep, bind, Except.bind, slice_values hdv]
    rw [hmiss]
    simp only [Except.bind] at hmap
    rw [hmap]
    simp only
    rw [hbad]
    congr 1
    generalize hg : (((deps.filter fun n => decide (n ∉ wb.keys ++ dkeys prov)).map fun n => (alts n, PyVal.str n)).filter
      fun p => decide ((p.1.filter fun a => isIn a (wb.keys ++ dkeys prov)) = [])) = g at hbad
    by_cases hn : g = []
    · rw [if_pos hn, if_pos]
      rw [hn] at hbad
      exact List.map_eq_nil_iff.1 hbad.symm
    · rw [if_neg hn, if_neg]
      intro hc
      rw [hc] at hbad
      exact hn (List.map_eq_nil_iff.1 hbad)
  refine ⟨_, hrun, ?_, ?_⟩
  · split
    · rename_i h
      refine iff_of_true rfl ?_
      intro n hn
      have := List.filter_eq_nil_iff.1 h n hn
      simpa using this
    · rename_i h
      refine iff_of_false (by simp) ?_
      intro hall
      apply h
      rw [List.filter_eq_nil_iff]
      intro n hn
      simpa using hall n hn
  · intro ho
    split at ho
    · exact absurd rfl ho
    · rename_i h
      refine ⟨_, if_neg h, ?_⟩
      intro m
      rw [List.mem_filter, decide_eq_true_eq]

/-- A dictionary in which `_x.a` depends on an item whose name the dictionary writes with a capital. -/
def depDic (dep : Str) : Dic :=
  letI := asciiFold
  { names := ddl2Names
    find := fun s =>
      if s = "_x.a".toList then some (({} : Block).addItem "_item_dependent.dependent_name".toList (.str dep)).1
      else if s = dep then some {}
      else none
    keys := ["_x.a".toList, dep] }

/-- C44 fails for names with capitals, which are common in DDL2 dictionaries: `_x.Cartn_x` is in the block, where it is kept
in lower case, and is reported as missing. -/
theorem C44_case_fails :
    letI := asciiFold
    (({} : Block).addItem "_x.Cartn_x".toList (.str "1".toList)).1.contains "_x.Cartn_x".toList = true ∧
    validateDependents (depDic "_x.Cartn_x".toList) "_x.a".toList (({} : Block).addItem "_x.Cartn_x".toList (.str "1".toList)).1 [] =
      .ok (.bad { items := some [.str "_x.Cartn_x".toList] }) := by decide +kernel

/-- The hypotheses of `C44_dependents_partial`: a dependency that is present and one that is not. -/
example : letI := asciiFold
    Alternates (depDic "_x.b".toList) "_x.b".toList replacing [] ∧
    validateDependents (depDic "_x.b".toList) "_x.a".toList (({} : Block).addItem "_x.b".toList (.str "1".toList)).1 [] = .ok .good ∧
    validateDependents (depDic "_x.b".toList) "_x.a".toList {} [] = .ok (.bad { items := some [.str "_x.b".toList] }) := by
  letI := asciiFold
  refine ⟨⟨{}, [], [], rfl, .inl ⟨by decide +kernel, rfl⟩, .inl ⟨by decide +kernel, rfl⟩, rfl⟩, by decide +kernel, by decide +kernel⟩

/-- A dictionary in which `_x.a` excludes `_x.B` and has the other name `_x_a`. -/
def exclDic : Dic :=
  letI := asciiFold
  { names := ddl2Names
    find := fun s =>
      if s = "_x.a".toList then
        some (((({} : Block).addItem "_item_related.related_name".toList (.str "_x.B".toList)).1.addItem
          "_item_related.function_code".toList (.str "alternate_exclusive".toList)).1.addItem
          "_item_aliases.alias_name".toList (.str "_x_a".toList)).1
      else none
    keys := ["_x.a".toList] }

/-- The hypothesis of `C44_exclusion`, and both results. -/
example : letI := asciiFold
    Alternates exclDic "_x.a".toList excluding (["_x.B".toList, "_x_a".toList].map .str) ∧
    validateExclusion exclDic "_x.a".toList (({} : Block).addItem "_x.b".toList (.str "1".toList)).1 [] =
      .ok (.bad { items := some [.str "_x.b".toList] }) ∧
    validateExclusion exclDic "_x.a".toList (({} : Block).addItem "_x.c".toList (.str "1".toList)).1 [] = .ok .good := by
  letI := asciiFold
  refine ⟨⟨_, [(.str "_x.B".toList, .str "alternate_exclusive".toList)], [.str "_x_a".toList], rfl,
    .inr (.inl ⟨"_x.B".toList, "alternate_exclusive".toList, by decide +kernel, by decide +kernel, rfl⟩),
    .inr ⟨.str "_x_a".toList, by decide +kernel, rfl⟩, by decide +kernel⟩, by decide +kernel, by decide +kernel⟩

end Verif.Validate
