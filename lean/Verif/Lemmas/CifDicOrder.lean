import Verif.Lemmas.CifDicTree
/-! Helper lemmas about the order in which definitions are written. -/
set_option linter.unusedSectionVars false
namespace Verif.CifDic
open Validate
variable [CaseFold]

theorem filed_of_table {c : Coll} {L : Lang} {t : Dict Str Str} {i : List Imported} {top : Str} (hc : c.Consistent) (hs : c.scoping = .dictionary)
    (ht : c.topLevel = [top]) (hx : Texts c L) (hL : L ≠ .ddl1) (h : defTable c L = .ok t)
    (hd : ∀ k k' s s', Names c L k s → Names c L k' s' → ¬ Outer c L k → ¬ Outer c L k' → lower s = lower s' → k = k') :
    Filed ⟨c, t, L, i⟩ top := by
  have hout : ∀ k, k ∈ c.keys → (Outer c L k ↔ k = top) := by
    intro k hk
    have : Outer c L k ↔ k ∈ c.keys ∧ Coll.parentOf c k = none := by
      cases L with
      | ddl1 => exact absurd rfl hL
      | ddl2 => rfl
      | ddlm => rfl
    rw [this]
    have hm := Coll.mem_topLevel (c := c) hc.nd_table (j := k)
    rw [ht, List.mem_singleton] at hm
    rw [hm, hc.mem_table, ← hc.visible_all hs]
  have hid : ∀ j, j ∈ c.keys → Names c L j (idOf c L j) := fun j hj => by
    obtain ⟨_, _, _, e⟩ := idOf_spec hx hj
    exact (e _).2 rfl
  have h' := h
  rw [defTable_eq hx] at h'
  split at h'
  · injection h' with h'
    have hget : ∀ i k, dget t i = some k ↔ k ∈ c.keys ∧ k ≠ top ∧ i = lower (idOf c L k) := by
      intro i k
      constructor
      · intro hg
        have hmem : i ∈ dkeys t := dget_isSome.1 ⟨k, hg⟩
        rw [← h', mem_dkeys_dupdate] at hmem
        unfold dkeys entries at hmem
        simp only [List.map_nil, List.not_mem_nil, false_or, List.map_map, List.mem_map, List.mem_filter, decide_eq_true_eq, Function.comp] at hmem
        obtain ⟨j, ⟨hj, hjt⟩, e⟩ := hmem
        have hjo : ¬ Outer c L j := fun hh => hjt ((outer_iff hc hj).2 hh)
        have := dget_dupdate_last (k := i) (v := j) (entries c L) [] (by
          intro p hp
          unfold entries at hp
          simp only [List.mem_map, List.mem_filter, decide_eq_true_eq] at hp
          obtain ⟨j', ⟨hj', hjt'⟩, rfl⟩ := hp
          intro e'
          simp only at e' ⊢
          rw [(keys_low hc hj').2]
          exact hd _ _ _ _ (hid j' hj') (hid j hj) (fun hh => hjt' ((outer_iff hc hj').2 hh)) hjo (e'.trans e.symm))
        rw [h', hg] at this
        split at this
        · injection this with this
          subst this
          exact ⟨hj, fun e' => hjo ((hout _ hj).2 e'), e.symm⟩
        · cases this
      · rintro ⟨hk, hkt, rfl⟩
        have hko : ¬ Outer c L k := fun hh => hkt ((hout k hk).1 hh)
        rw [← h', dget_dupdate_last (v := k)]
        · rw [if_pos]
          unfold dkeys entries
          simp only [List.map_map, List.mem_map, List.mem_filter, decide_eq_true_eq, Function.comp]
          exact ⟨k, ⟨hk, fun hh => hko ((outer_iff hc hk).1 hh)⟩, rfl⟩
        · intro p hp
          unfold entries at hp
          simp only [List.mem_map, List.mem_filter, decide_eq_true_eq] at hp
          obtain ⟨j, ⟨hj, hjt⟩, rfl⟩ := hp
          intro e
          simp only at e ⊢
          rw [(keys_low hc hj).2]
          exact hd _ _ _ _ (hid j hj) (hid k hk) (fun hh => hjt ((outer_iff hc hj).2 hh)) hko e
    refine ⟨hc, ht, fun i k hg => ?_, fun k hk hkt => ?_, fun i i' k h1 h2 => ?_⟩
    · obtain ⟨h1, h2, _⟩ := (hget i k).1 hg
      exact ⟨(hc.mem_table k).2 ((hc.visible_all hs k).1 h1), h2⟩
    · exact ⟨_, (hget _ k).2 ⟨(hc.visible_all hs k).2 ((hc.mem_table k).1 hk), hkt, rfl⟩⟩
    · rw [((hget i k).1 h1).2.2, ((hget i' k).1 h2).2.2]
  · cases h'

section
variable {d : CifDic} {top root : Str}

theorem block_low (hF : Filed d top) {k : Str} (hk : k ∈ dkeys d.coll.childTable) : lower k = k :=
  hF.cons.lower_keys k ((hF.cons.mem_table k).1 hk)

theorem coll_get (hF : Filed d top) {k : Str} (hk : k ∈ dkeys d.coll.childTable) : ∃ b, d.coll.getItem k = .ok b := by
  have hl := (hF.cons.mem_table k).1 hk
  have := (hF.cons.mem_dict k).2 hl
  obtain ⟨b, hb⟩ := dget_isSome.2 this
  exact ⟨b, by rw [Coll.getItem, block_low hF hk, if_pos hl, hb]⟩

/-- A block is read under its own name. -/
theorem get_block (hF : Filed d top) (hT : Tidy d top root) {k : Str} (hk : k ∈ dkeys d.coll.childTable) : d.getItem k = d.coll.getItem k := by
  obtain ⟨b, hb⟩ := coll_get hF hk
  unfold getItem byId
  rw [block_low hF hk]
  cases hg : dget d.table k with
  | none => simp only [hb]
  | some k' =>
    have := hT.clash k hk k' hg
    subst this
    simp only [hb]

/-- A definition is read under its identifier. -/
theorem get_ident (hR : Readable d) (hF : Filed d top) {i k : Str} (hg : dget d.table i = some k) : d.getItem i = d.coll.getItem k := by
  have hi : i ∈ d.keys := dget_isSome.1 ⟨k, hg⟩
  obtain ⟨b, hb⟩ := coll_get hF (hF.blocks i k hg).1
  unfold getItem byId
  rw [hR.low i hi, hg]
  simp only [hb]

theorem get_same (hR : Readable d) (hF : Filed d top) (hT : Tidy d top root) {i k : Str} (hg : dget d.table i = some k) :
    d.getItem k = d.getItem i := by
  rw [get_block hF hT (hF.blocks i k hg).1, get_ident hR hF hg]

theorem catOf_same (hR : Readable d) (hF : Filed d top) (hT : Tidy d top root) {i k : Str} (hg : dget d.table i = some k) :
    catOf d k = catOf d i := by
  unfold catOf
  rw [get_same hR hF hT hg]

theorem isCat_same (hR : Readable d) (hF : Filed d top) (hT : Tidy d top root) {i k : Str} (hg : dget d.table i = some k) :
    isCat d k = isCat d i := by
  unfold isCat scopeIs
  rw [get_same hR hF hT hg]

theorem block_plain (hR : Readable d) (hF : Filed d top) (hT : Tidy d top root) {k : Str} (hk : k ∈ dkeys d.coll.childTable) :
    ∃ b, d.getItem k = .ok b ∧ Plain b := by
  by_cases h : k = top
  · subst h
    obtain ⟨b, hb, hp, _⟩ := hT.top_plain
    exact ⟨b, (get_block hF hT hk).trans hb, hp⟩
  · obtain ⟨i, hg⟩ := hF.ident k hk h
    rw [get_same hR hF hT hg]
    exact hR.found i (dget_isSome.1 ⟨k, hg⟩)

theorem catOf_top (hF : Filed d top) (hT : Tidy d top root) (hk : top ∈ dkeys d.coll.childTable) : catOf d top = [] := by
  obtain ⟨b, hb, hp, hc⟩ := hT.top_plain
  have hg := (get_block hF hT hk).trans hb
  unfold catOf
  simp only [hg, getD_not hc]
  exact CaseFold.lower_ascii ([] : Str) (by simp)

theorem top_mem (hF : Filed d top) : top ∈ dkeys d.coll.childTable :=
  ((Coll.mem_topLevel hF.cons.nd_table).1 (by rw [hF.top_only]; simp)).1

/-- Names of blocks that are expanded. -/
def Opens (d : CifDic) (root c : Str) : Prop := c ∈ d.keys ∧ dget d.table c = some c ∧ (isCat d c = true ∨ c = root)

open Classical in
/-- The children of a block for output. -/
noncomputable def kidsB (d : CifDic) (root c : Str) : List Str :=
  if Opens d root c then Coll.pySort ((dkeys d.coll.childTable).filter fun a => decide (catOf d a = c)) else []

theorem mem_kidsB {c x : Str} (ho : Opens d root c) :
    x ∈ kidsB d root c ↔ x ∈ dkeys d.coll.childTable ∧ catOf d x = c := by
  unfold kidsB
  rw [if_pos ho, (Coll.pySort_perm _).mem_iff, List.mem_filter, decide_eq_true_eq]

theorem kidsB_opens {c x : Str} (h : x ∈ kidsB d root c) : Opens d root c := by
  unfold kidsB at h
  split at h
  · assumption
  · cases h

theorem opens_of_cat (hR : Readable d) (hF : Filed d top) (hT : Tidy d top root) {k : Str} (hk : k ∈ dkeys d.coll.childTable) (hne : k ≠ top)
    (hc : isCat d k = true) : Opens d root k := by
  obtain ⟨i, hg⟩ := hF.ident k hk hne
  have hi : i ∈ d.keys := dget_isSome.1 ⟨k, hg⟩
  rw [isCat_same hR hF hT hg] at hc
  obtain ⟨b, hb, hp⟩ := hR.found i hi
  have := hT.cats i k hg (.inl ((isCategory_iff hb hp).2 hc))
  subst this
  exact ⟨hi, hg, .inl hc⟩

theorem opens_root (hT : Tidy d top root) (hr : root ∈ d.keys) : Opens d root root := by
  obtain ⟨k, hg⟩ := dget_isSome.2 hr
  have := hT.cats root k hg (.inr rfl)
  subst this
  exact ⟨hr, hg, .inr rfl⟩

theorem kid_ne_top (hR : Readable d) (hF : Filed d top) (hT : Tidy d top root) {c x : Str} (h : x ∈ kidsB d root c) : x ≠ top := by
  rintro rfl
  have ho := kidsB_opens h
  have := (mem_kidsB ho).1 h
  rw [catOf_top hF hT this.1] at this
  exact hR.named c ho.1 this.2.symm

/-- The tree of blocks is the tree of definitions. -/
theorem descB_iff (hR : Readable d) (hF : Filed d top) (hT : Tidy d top root) {c : Str} (ho : Opens d root c) {x i : Str}
    (hg : dget d.table i = some x) : Forest.Desc (kidsB d root) (isCat d) c x ↔ Forest.Desc (kids d) (isCat d) c i := by
  have hkid : ∀ c x i, Opens d root c → dget d.table i = some x → (x ∈ kidsB d root c ↔ i ∈ kids d c) := by
    intro c x i ho hg
    rw [mem_kidsB ho]
    unfold kids
    rw [if_pos (hR.low c ho.1), List.mem_filter, decide_eq_true_eq, catOf_same hR hF hT hg]
    exact ⟨fun h => ⟨dget_isSome.1 ⟨x, hg⟩, h.2⟩, fun h => ⟨(hF.blocks i x hg).1, h.2⟩⟩
  constructor
  · intro h
    induction h generalizing i with
    | child h => exact .child ((hkid c _ i ho hg).1 h)
    | @deeper y x hy hyo hx ih =>
      have hyO := kidsB_opens hx
      exact .deeper (ih hyO.2.1) hyo ((hkid y x i hyO hg).1 hx)
  · intro h
    induction h generalizing x with
    | child h => exact .child ((hkid c x _ ho hg).2 h)
    | @deeper y i hy hyo hx ih =>
      have hyk : y ∈ d.keys := by
        rcases hy with hy | ⟨_, _, hy⟩ <;>
        · unfold kids at hy
          split at hy
          · exact (List.mem_filter.1 hy).1
          · cases hy
      obtain ⟨b, hb, hp⟩ := hR.found y hyk
      obtain ⟨k, hgk⟩ := dget_isSome.2 hyk
      have := hT.cats y k hgk (.inl ((isCategory_iff hb hp).2 hyo))
      subst this
      exact .deeper (ih hgk) hyo ((hkid k x i ⟨hyk, hgk, .inl hyo⟩ hg).2 hx)

theorem forestB (hR : Readable d) (ha : Acyclic d) (hF : Filed d top) (hT : Tidy d top root) :
    Forest.IsForest (kidsB d root) (isCat d) (dkeys d.coll.childTable) where
  sub := fun c x hx => ((mem_kidsB (kidsB_opens hx)).1 hx).1
  nodup := by
    intro c
    unfold kidsB
    split
    · exact (Coll.pySort_perm _).nodup_iff.2 (hF.cons.nd_table.filter _)
    · simp
  uniq := by
    intro c c' x h1 h2
    rw [← ((mem_kidsB (kidsB_opens h1)).1 h1).2, ← ((mem_kidsB (kidsB_opens h2)).1 h2).2]
  acyclic := by
    intro x hx
    have ho : Opens d root x := by
      rcases Forest.desc_head.1 hx with h | ⟨_, h, _⟩ <;> exact kidsB_opens h
    have := (descB_iff hR hF hT ho ho.2.1).1 hx
    exact (forest hR ha).acyclic x this

theorem childBlocks_eq (hR : Readable d) (hF : Filed d top) (hT : Tidy d top root) {c : Str} (ho : Opens d root c) :
    childBlocks d c = .ok (kidsB d root c) := by
  unfold childBlocks kidsB
  rw [if_pos ho, select_ok (p := fun a => decide (catOf d a = c))]
  intro a ha
  obtain ⟨b, hb, hp⟩ := block_plain hR hF hT ha
  rw [inCat_eq hb hp, hR.low c ho.1]

theorem items_eq (hR : Readable d) (hF : Filed d top) (hT : Tidy d top root) {c : Str} (hr : root ∉ kidsB d root c)
    (ho : Opens d root c) : select (isScope d "Item".toList) (kidsB d root c) = .ok ((kidsB d root c).filter fun y => !isCat d y) := by
  apply select_ok
  intro x hx
  have hxb := (mem_kidsB ho).1 hx
  obtain ⟨i, hg⟩ := hF.ident x hxb.1 (kid_ne_top hR hF hT hx)
  have hi : i ∈ d.keys := dget_isSome.1 ⟨x, hg⟩
  obtain ⟨b, hb, hp⟩ := hR.found i hi
  have hbx := (get_same hR hF hT hg).trans hb
  rw [isScope_eq hbx hp]
  congr 1
  have hir : i ≠ root := by
    rintro rfl
    have := hT.cats i x hg (.inr rfl)
    subst this
    exact hr hx
  rcases hT.scopes i hi hir with h | ⟨b', hb', h⟩
  · have hc := (isCategory_iff hb hp).1 h
    rw [isCat_same hR hF hT hg, hc]
    obtain ⟨b', hb', hh⟩ := h
    rw [hb] at hb'
    injection hb' with hb'
    subst hb'
    unfold scopeIs
    simp only [hbx, getD_has hh]
    decide +kernel
  · rw [hb] at hb'
    injection hb' with hb'
    subst hb'
    have hv : getD b scopeAttr (.str "Item".toList) = .ok (.str "Item".toList) := by
      rcases h with h | h
      · exact getD_not h
      · exact getD_has h
    unfold isCat scopeIs
    simp only [hbx, hv]
    decide +kernel

theorem collect_eq {f : Str → Except PyErr (List Str)} {T : Str → List Str} : ∀ (l : List Str), (∀ c ∈ l, f c = .ok (T c)) →
    collect f l = .ok (l.flatMap T)
  | [], _ => rfl
  | c :: cs, h => by
    have ih := collect_eq (f := f) (T := T) cs (fun x hx => h x (by simp [hx]))
    simp only [collect, h c (by simp), ih, List.flatMap_cons]

/-- What `recurse_child_list` gives for a category. -/
theorem recurseFuel_eq (hR : Readable d) (ha : Acyclic d) (hF : Filed d top) (hT : Tidy d top root) : ∀ (n : Nat) (c : Str), Opens d root c →
    (c = root ∨ Forest.Desc (kidsB d root) (isCat d) root c) → (c = root ∨ isCat d c = true) →
    Forest.size (kidsB d root) (isCat d) (dkeys d.coll.childTable) c < n →
    ∃ l, recurseFuel d n c = .ok (c :: l) ∧ l.Nodup ∧ (∀ x, x ∈ l ↔ Forest.Desc (kidsB d root) (isCat d) c x) ∧
      ∀ p x, p = c ∨ (isCat d p = true ∧ Forest.Desc (kidsB d root) (isCat d) c p) → x ∈ kidsB d root p → Forest.Before (c :: l) p x
  | 0, _, _, _, _, hs => by omega
  | n + 1, c, ho, hrc, hcc, hs => by
    have hB := forestB hR ha hF hT
    have hroot : root ∉ kidsB d root c := by
      intro hh
      rcases hrc with rfl | hd
      · exact hB.acyclic _ (.child hh)
      · rcases hcc with rfl | hcc
        · exact hB.acyclic _ (.child hh)
        · exact hB.acyclic _ (.deeper hd hcc hh)
    have hkidO : ∀ y ∈ kidsB d root c, isCat d y = true → Opens d root y := fun y hy hyo =>
      opens_of_cat hR hF hT (hB.sub _ _ hy) (kid_ne_top hR hF hT hy) hyo
    have hdesc : ∀ y ∈ kidsB d root c, isCat d y = true → Forest.Desc (kidsB d root) (isCat d) root y := by
      intro y hy hyo
      rcases hrc with rfl | hd
      · exact .child hy
      · rcases hcc with rfl | hcc
        · exact .child hy
        · exact .deeper hd hcc hy
    have : ∃ T : Str → List Str, ∀ y ∈ kidsB d root c, isCat d y = true →
        recurseFuel d n y = .ok (T y) ∧ (T y).Nodup ∧ (∀ x, x ∈ T y ↔ x = y ∨ Forest.Desc (kidsB d root) (isCat d) y x) ∧
        ∀ p x, p = y ∨ (isCat d p = true ∧ Forest.Desc (kidsB d root) (isCat d) y p) → x ∈ kidsB d root p → Forest.Before (T y) p x := by
      refine ⟨fun y => match recurseFuel d n y with | .ok l => l | .error _ => [], fun y hy hyo => ?_⟩
      have hsz := Forest.size_lt hB hy hyo
      obtain ⟨l, h1, h2, h3, h4⟩ := recurseFuel_eq hR ha hF hT n y (hkidO y hy hyo) (.inr (hdesc y hy hyo)) (.inr hyo) (by omega)
      simp only [h1]
      refine ⟨trivial, ?_, fun x => ?_, h4⟩
      · rw [List.nodup_cons]
        exact ⟨fun hh => hB.acyclic y ((h3 y).1 hh), h2⟩
      · rw [List.mem_cons, h3]
    obtain ⟨T, hTT⟩ := this
    have hb := Forest.below hB c T (fun y hy hyo => ⟨(hTT y hy hyo).2.1, (hTT y hy hyo).2.2.1⟩)
    refine ⟨(kidsB d root c).filter (fun y => !isCat d y) ++ ((kidsB d root c).filter (isCat d)).flatMap T, ?_, hb.1, hb.2, ?_⟩
    · have hcats : select (isScope d "Category".toList) (kidsB d root c) = .ok ((kidsB d root c).filter (isCat d)) := by
        apply select_ok
        intro a hm
        obtain ⟨b, hbb, hp⟩ := block_plain hR hF hT (hB.sub _ _ hm)
        exact isScope_cat hbb hp
      have hcol := collect_eq (f := recurseFuel d n) (T := T) ((kidsB d root c).filter (isCat d))
        (fun y hy => (hTT y (List.mem_filter.1 hy).1 (List.mem_filter.1 hy).2).1)
      rw [recurseFuel, childBlocks_eq hR hF hT ho]
      simp only [items_eq hR hF hT hroot ho, hcats, hcol, List.cons_append]
    · intro p x hp hx
      have hmem : x ∈ (kidsB d root c).filter (fun y => !isCat d y) ++ ((kidsB d root c).filter (isCat d)).flatMap T ∨ p ≠ c := by
        by_cases e : p = c
        · subst e
          exact .inl ((hb.2 x).2 (.child hx))
        · exact .inr e
      by_cases e : p = c
      · subst e
        rcases hmem with hm | hm
        · exact ⟨[], _, rfl, hm⟩
        · exact absurd rfl hm
      · rcases hp with hp | ⟨hpo, hpd⟩
        · exact absurd hp e
        · have hy : ∃ y ∈ kidsB d root c, isCat d y = true ∧ (p = y ∨ Forest.Desc (kidsB d root) (isCat d) y p) := by
            rcases Forest.desc_head.1 hpd with h | ⟨y, hy, hyo, hd⟩
            · exact ⟨p, h, hpo, .inl rfl⟩
            · exact ⟨y, hy, hyo, .inr hd⟩
          obtain ⟨y, hy, hyo, hd⟩ := hy
          have hbf := (hTT y hy hyo).2.2.2 p x (hd.imp id fun h => ⟨hpo, h⟩) hx
          have h2 := (Forest.Before.flatMap (T := T) (List.mem_filter.2 ⟨hy, hyo⟩) hbf).append_left
            ((kidsB d root c).filter fun y => !isCat d y)
          exact h2.append_left [c]

end
end Verif.CifDic
