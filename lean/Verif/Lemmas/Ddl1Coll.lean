import Verif.Lemmas.Ddl1
import Verif.Lemmas.CollectionOps
/-! Helper lemmas for DDL1 dictionaries: the blocks of the file. -/
set_option linter.unusedSectionVars false
namespace Verif.Ddl1
open CifDic Validate Spec
variable [CaseFold]

/-- A file without nesting that shows all its blocks and lets them be replaced. -/
structure Flat (c : Coll) : Prop where
  cons : c.Consistent
  flat : ∀ k, Coll.parentOf c k = none
  free : c.standard = none
  shows : c.scoping = .dictionary

theorem Flat.mem {c : Coll} (h : Flat c) {k : Str} : k ∈ c.lowerKeys ↔ ∃ b, dget c.dict k = some b := by
  rw [dget_isSome]
  exact (h.cons.mem_dict k).symm

theorem Flat.absent {c : Coll} (h : Flat c) {k : Str} : k ∉ c.lowerKeys ↔ dget c.dict k = none := by
  rw [h.mem]
  cases dget c.dict k <;> simp

theorem Flat.low {c : Coll} (h : Flat c) {k : Str} {b : Block} (hb : dget c.dict k = some b) : lower k = k :=
  h.cons.lower_keys k (h.mem.2 ⟨b, hb⟩)

theorem Flat.get {c : Coll} (h : Flat c) {k : Str} {b : Block} (hb : dget c.dict (lower k) = some b) : c.getItem k = .ok b := by
  unfold Coll.getItem
  rw [if_pos (h.mem.2 ⟨b, hb⟩), hb]

theorem Flat.within {c : Coll} (h : Flat c) {a x : Str} (hw : Coll.Within c a x) : x = a := by
  rcases hw with e | hu
  · exact e
  · obtain ⟨p, hp, _⟩ := hu.parent
    rw [h.flat] at hp
    cases hp

theorem Flat.visible {c : Coll} (h : Flat c) {k : Str} : k ∈ c.keys ↔ k ∈ c.lowerKeys := h.cons.visible_all h.shows k

theorem fixName_solid {s : Str} (h : Solid s) : Coll.fixName s = s := by
  unfold Coll.fixName
  have : ∀ ch ∈ s, (if ch = ' ' ∨ ch = '\t' then '_' else ch) = ch := by
    intro ch hc
    rw [if_neg]
    rintro (rfl | rfl)
    · exact absurd (h _ hc).1 (by decide)
    · exact absurd (h _ hc).1 (by decide)
  rw [List.map_congr_left this, List.map_id']

theorem Flat.put {c : Coll} (h : Flat c) {name : Str} (hs : Solid name) (hl : name.length ≤ 75) (hn : dget c.dict (lower name) = none) (b : Block) :
    ∃ c', putE c (.str name) b = .ok c' ∧ Flat c' ∧ c'.unicode = c.unicode ∧
      ∀ x, dget c'.dict x = if x = lower name then some { b with unicode := c.unicode } else dget c.dict x := by
  have hk : lower name ∉ c.lowerKeys := h.absent.2 hn
  have e : c.newBlock name b true none = (c.added (lower name) ⟨{ b with unicode := c.unicode }, name, none⟩, .ok (lower name)) := by
    unfold Coll.newBlock Coll.prepare
    rw [if_neg (by rw [h.free]; exact nofun)]
    simp only
    rw [if_neg (by omega)]
    simp only [if_true]
    rw [fixName_solid hs, if_neg hk, Coll.addBlock_added h.cons hk (fun p hp => by cases hp)]
    rfl
  refine ⟨c.added (lower name) ⟨{ b with unicode := c.unicode }, name, none⟩, ?_, ⟨?_, ?_, h.free, h.shows⟩, rfl, ?_⟩
  · unfold putE
    simp only [e]
  · exact h.cons.added hk (CaseFold.lower_lower name) nofun
  · intro k
    rw [Coll.parentOf_added (fun hm => hk ((h.cons.mem_table _).1 hm))]
    split
    · rfl
    · exact h.flat k
  · intro x
    simp only [Coll.added, dget_append]
    split
    · rename_i e
      rw [e, hn]
      simp [dget]
    · rename_i e
      have : ¬ lower name = x := fun h => e h.symm
      simp [dget, this]

theorem Flat.del {c : Coll} (h : Flat c) {key : Str} {b : Block} (hb : dget c.dict key = some b) :
    ∃ c', delE c key = .ok c' ∧ Flat c' ∧ c'.unicode = c.unicode ∧ ∀ x, dget c'.dict x = if x = key then none else dget c.dict x := by
  have hlow := h.low hb
  have hm : key ∈ c.lowerKeys := h.mem.2 ⟨b, hb⟩
  have hP : ∀ x, (fun x => decide (x ≠ key)) x = true ↔ ¬ Coll.Within c (lower key) x := by
    intro x
    rw [hlow, decide_eq_true_eq]
    exact ⟨fun hne hw => hne (h.within hw), fun hw e => hw (.inl e)⟩
  have e := Coll.delItem_eq' h.cons.keyed (key := key) (by rw [hlow]; exact hm)
    (fun x hw => by rw [h.within hw, hlow]; exact h.visible.2 hm) hP
  refine ⟨Coll.restrict c (fun x => decide (x ≠ key)), ?_, ⟨?_, ?_, h.free, h.shows⟩, rfl, ?_⟩
  · unfold delE
    rw [e]
  · exact h.cons.restrict (by
      intro x y hy
      rw [h.flat] at hy
      cases hy)
  · intro k
    rw [Coll.parentOf_restrict, h.flat k]
    split <;> rfl
  · intro x
    simp only [Coll.restrict, dget_filter c.dict (fun x => decide (x ≠ key)) x]
    by_cases e : x = key <;> simp [e]

theorem Flat.set {c : Coll} (h : Flat c) {key : Str} {b : Block} (hb : dget c.dict key = some b) (b' : Block) :
    Flat { c with dict := dset c.dict key b' } ∧ ∀ x, dget (dset c.dict key b') x = if x = key then some b' else dget c.dict x := by
  refine ⟨⟨?_, h.flat, h.free, h.shows⟩, ?_⟩
  · refine consistent_dict h.cons (nodup_dkeys_dset _ _ _ h.cons.nd_dict) ?_
    intro k
    rw [mem_dkeys_dset]
    refine ⟨?_, .inr⟩
    rintro (rfl | hk)
    · exact dget_isSome.1 ⟨b, hb⟩
    · exact hk
  · intro x
    rw [dget_dset]
    by_cases e : x = key
    · rw [if_pos e.symm, if_pos e]
    · rw [if_neg (fun h => e h.symm), if_neg e]

theorem Flat.items {c : Coll} (h : Flat c) : ∃ l, items c = .ok l ∧ l.map (·.1) = c.keys ∧ ∀ k b, (k, b) ∈ l ↔ dget c.dict k = some b := by
  have key : ∀ ks : List Str, (∀ k ∈ ks, k ∈ c.lowerKeys) → ∃ l, mapE (fun k => match c.getItem k with
    | .error e => .error e
    | .ok b => .ok (k, b)) ks = .ok l ∧ l.map (·.1) = ks ∧ ∀ k b, (k, b) ∈ l ↔ k ∈ ks ∧ dget c.dict k = some b := by
    intro ks
    induction ks with
    | nil => intro _; exact ⟨[], rfl, rfl, by simp⟩
    | cons k r ih =>
      intro hk
      obtain ⟨l, h1, h2, h3⟩ := ih (fun x hx => hk x (List.mem_cons_of_mem _ hx))
      obtain ⟨b, hb⟩ := h.mem.1 (hk k (by simp))
      have hg : c.getItem k = .ok b := h.get (by rw [h.low hb]; exact hb)
      refine ⟨(k, b) :: l, ?_, by simp [h2], ?_⟩
      · simp only [mapE, hg, h1]
      · intro k' b'
        simp only [List.mem_cons, h3, Prod.mk.injEq]
        constructor
        · rintro (⟨rfl, rfl⟩ | ⟨h4, h5⟩)
          · exact ⟨.inl rfl, hb⟩
          · exact ⟨.inr h4, h5⟩
        · rintro ⟨h4 | h4, h5⟩
          · subst h4
            rw [hb] at h5
            injection h5 with h5
            exact .inl ⟨rfl, h5.symm⟩
          · exact .inr ⟨h4, h5⟩
  obtain ⟨l, h1, h2, h3⟩ := key c.keys (fun k hk => h.visible.1 hk)
  refine ⟨l, h1, h2, fun k b => ?_⟩
  rw [h3]
  exact ⟨fun hh => hh.2, fun hb => ⟨h.visible.2 (h.mem.2 ⟨b, hb⟩), hb⟩⟩

/-! ## The first loop -/

/-- Block `b'` holds the definition of `n` in block `b`, and nothing else has changed. -/
structure Inst (b : Block) (n : Str) (b' : Block) : Prop where
  wf : b'.WF
  limit : ∀ m, b'.maxName = some m → 75 ≤ m
  name : Has b' nameAttr (.str n)
  same : ∀ x, x ≠ nameAttr → dget b'.block x = dget b.block x

theorem Inst.unicode {b b' : Block} {n : Str} (h : Inst b n b') (u : Bool) : Inst b n { b' with unicode := u } :=
  ⟨Block.wf_settings h.wf _ _ _, h.limit, h.name, h.same⟩

/-- A definition for each name of a column. -/
theorem copies {b : Block} (hw : b.WF) : ∀ (ns : List Str) {c : Coll} (_ : Flat c) (_ : ∀ n ∈ ns, Solid n ∧ n.length ≤ 75)
    (_ : (ns.map lower).Nodup) (_ : ∀ n ∈ ns, dget c.dict (lower n) = none),
    ∃ c', foldE (copyOne b) c (ns.map .str) = .ok c' ∧ Flat c' ∧ c'.unicode = c.unicode ∧
      (∀ n ∈ ns, ∃ b', dget c'.dict (lower n) = some b' ∧ Inst b n b') ∧ ∀ x, x ∉ ns.map lower → dget c'.dict x = dget c.dict x
  | [], c, hf, _, _, _ => ⟨c, rfl, hf, rfl, by simp, fun _ _ => rfl⟩
  | n :: r, c, hf, hs, hn, ha => by
    rw [List.map_cons, List.nodup_cons] at hn
    have hwc : (copied b).WF := Block.wf_settings hw _ _ _
    obtain ⟨b', e1, k1, g1⟩ := setE_new hwc (a := nameAttr) (v := .str n) (attrOk (fun m hm => by cases hm) (by simp [setAttrs'])) (.inl rfl)
      (storable_str (hs n (by simp)).1.printable)
    rw [low_name] at k1
    have hi : Inst b n b' := ⟨k1.wf, by rw [k1.max]; exact nofun, g1, fun x hx => k1.same x (by simpa using hx)⟩
    obtain ⟨c1, e2, f1, u1, d1⟩ := hf.put (hs n (by simp)).1 (hs n (by simp)).2 (ha n (by simp)) b'
    have hne : ∀ m ∈ r, lower m ≠ lower n := fun m hm e => hn.1 (List.mem_map.2 ⟨m, hm, e⟩)
    obtain ⟨c2, e3, f2, u2, d2, d2'⟩ := copies hw r f1 (fun m hm => hs m (List.mem_cons_of_mem _ hm)) hn.2
      (fun m hm => by rw [d1, if_neg (hne m hm)]; exact ha m (List.mem_cons_of_mem _ hm))
    refine ⟨c2, ?_, f2, u2.trans u1, ?_, ?_⟩
    · have : copyOne b c (.str n) = .ok c1 := by
        unfold copyOne
        rw [e1]
        exact e2
      simp only [List.map_cons, foldE, this, e3]
    · intro m hm
      rcases List.mem_cons.1 hm with rfl | hm
      · refine ⟨{ b' with unicode := c.unicode }, ?_, hi.unicode _⟩
        rw [d2' _ hn.1, d1, if_pos rfl]
      · exact d2 m hm
    · intro x hx
      simp only [List.map_cons, List.mem_cons, not_or] at hx
      rw [d2' x hx.2, d1, if_neg hx.1]

theorem DefOk.wf {b : Block} (h : DefOk b) : b.WF := (Block.reachable_wf h.reach).1

theorem NamesOf.unique {b : Block} {ns ns' : List Str} (h : NamesOf b ns) (h' : NamesOf b ns') : ns = ns' := by
  cases h with
  | one h1 =>
    cases h' with
    | one h2 =>
      have := Has.unique h1 h2
      injection this with this
      rw [this]
    | many h2 => cases Has.unique h1 h2
  | many h1 =>
    cases h' with
    | one h2 => cases Has.unique h1 h2
    | many h2 =>
      have := Has.unique h1 h2
      injection this with this
      exact (List.map_inj_right (fun a b e => by injection e)).1 this

/-- One round of the first loop. -/
theorem expandOne_ok {c : Coll} (hf : Flat c) {k : Str} {b : Block} (hb : dget c.dict k = some b) (hok : DefOk b) {ns : List Str} (hns : NamesOf b ns)
    (ha : ∀ n ∈ ns, dget c.dict (lower n) = none) :
    ∃ c', expandOne c (k, b) = .ok c' ∧ Flat c' ∧ c'.unicode = c.unicode ∧ (∀ n ∈ ns, ∃ b', dget c'.dict (lower n) = some b' ∧ Inst b n b') ∧
      ∀ x, x ∉ ns.map lower → dget c'.dict x = if x = k then none else dget c.dict x := by
  obtain ⟨ns', hns', hnd, hsol⟩ := hok.named
  cases hns.unique hns'
  have hlow := hf.low hb
  have hkn : ∀ n ∈ ns, n ≠ k := by
    rintro n hn rfl
    have := ha n hn
    rw [hlow, hb] at this
    cases this
  have hkl : k ∉ ns.map lower := by
    intro hm
    obtain ⟨n, hn, e⟩ := List.mem_map.1 hm
    have := ha n hn
    rw [e, hb] at this
    cases this
  have hdrop : ∀ c1, Flat c1 → c1.unicode = c.unicode → (∀ n ∈ ns, ∃ b', dget c1.dict (lower n) = some b' ∧ Inst b n b') →
      (∀ x, x ∉ ns.map lower → dget c1.dict x = dget c.dict x) → ∃ c', dropOld c1 k (ns.map .str) = .ok c' ∧ Flat c' ∧ c'.unicode = c.unicode ∧
        (∀ n ∈ ns, ∃ b', dget c'.dict (lower n) = some b' ∧ Inst b n b') ∧ ∀ x, x ∉ ns.map lower → dget c'.dict x = if x = k then none else dget c.dict x := by
    intro c1 f1 u1 d1 d1'
    have hb1 : dget c1.dict k = some b := by rw [d1' k hkl, hb]
    obtain ⟨c2, e2, f2, u2, d2⟩ := f1.del hb1
    refine ⟨c2, ?_, f2, u2.trans u1, ?_, ?_⟩
    · unfold dropOld
      rw [if_neg, e2]
      intro hm
      obtain ⟨n, hn, e⟩ := List.mem_map.1 hm
      injection e with e
      exact hkn n hn e
    · intro n hn
      obtain ⟨b', q1, q2⟩ := d1 n hn
      refine ⟨b', ?_, q2⟩
      rw [d2, if_neg, q1]
      intro e
      exact hkl (List.mem_map.2 ⟨n, hn, e⟩)
    · intro x hx
      rw [d2]
      split
      · rfl
      · exact d1' x hx
  have hcn : b.contains nameAttr = true := by
    cases hns with
    | one h => exact h.1
    | many h => exact h.1
  unfold expandOne
  simp only
  rw [if_pos hcn]
  cases hns with
  | @one n h =>
    rw [h.2]
    simp only
    obtain ⟨c1, e1, f1, u1, d1⟩ := hf.put (hsol n (by simp)).1 (hsol n (by simp)).2.1 (ha n (by simp)) b
    rw [e1]
    refine hdrop c1 f1 u1 ?_ ?_
    · intro m hm
      rw [List.mem_singleton] at hm
      subst hm
      refine ⟨_, by rw [d1, if_pos rfl], ?_⟩
      exact Inst.unicode ⟨hok.wf, hok.limit, h, fun _ _ => rfl⟩ _
    · intro x hx
      rw [d1, if_neg]
      simpa using hx
  | many h =>
    rw [h.2]
    simp only
    obtain ⟨c1, e1, f1, u1, d1, d1'⟩ := copies hok.wf ns hf (fun n hn => ⟨(hsol n hn).1, (hsol n hn).2.1⟩) hnd ha
    rw [e1]
    exact hdrop c1 f1 u1 d1 d1'

/-- The first loop. -/
theorem expandAll {c0 : Coll} (hr : Regular c0) : ∀ (l : List (Str × Block)) {c : Coll} (_ : Flat c) (_ : (l.map (·.1)).Nodup)
    (_ : ∀ k b, (k, b) ∈ l → dget c0.dict k = some b ∧ dget c.dict k = some b)
    (_ : ∀ k b n, (k, b) ∈ l → Defines c0 k b n → dget c.dict (lower n) = none),
    ∃ c', foldE expandOne c l = .ok c' ∧ Flat c' ∧ c'.unicode = c.unicode ∧
      (∀ k b n, (k, b) ∈ l → Defines c0 k b n → ∃ b', dget c'.dict (lower n) = some b' ∧ Inst b n b') ∧
      ∀ x, (∀ k b n, (k, b) ∈ l → Defines c0 k b n → x ≠ lower n) →
        dget c'.dict x = if x ∈ l.map (·.1) ∧ x ≠ dicBlock then none else dget c.dict x
  | [], c, hf, _, _, _ => ⟨c, rfl, hf, rfl, by simp, fun x _ => by simp⟩
  | (k, b) :: r, c, hf, hn, hl, ha => by
    rw [List.map_cons, List.nodup_cons] at hn
    obtain ⟨hb0, hb⟩ := hl k b (by simp)
    have tail : ∀ {c1 : Coll}, Flat c1 → c1.unicode = c.unicode → expandOne c (k, b) = .ok c1 →
        (∀ n, Defines c0 k b n → ∃ b', dget c1.dict (lower n) = some b' ∧ Inst b n b') →
        (∀ x, (∀ n, Defines c0 k b n → x ≠ lower n) → dget c1.dict x = if x = k ∧ x ≠ dicBlock then none else dget c.dict x) →
        ∃ c', foldE expandOne c ((k, b) :: r) = .ok c' ∧ Flat c' ∧ c'.unicode = c.unicode ∧
        (∀ k' b' n, (k', b') ∈ (k, b) :: r → Defines c0 k' b' n → ∃ b'', dget c'.dict (lower n) = some b'' ∧ Inst b' n b'') ∧
        ∀ x, (∀ k' b' n, (k', b') ∈ (k, b) :: r → Defines c0 k' b' n → x ≠ lower n) →
          dget c'.dict x = if x ∈ ((k, b) :: r).map (·.1) ∧ x ≠ dicBlock then none else dget c.dict x := by
      intro c1 f1 u1 e1 d1 d1'
      have hother : ∀ k' b', (k', b') ∈ r → ∀ n, Defines c0 k b n → k' ≠ lower n := by
        intro k' b' hm n hd e
        exact hr.keys _ _ _ hd (e ▸ (hr.cons.mem_dict _).1 (dget_isSome.1 ⟨b', (hl k' b' (List.mem_cons_of_mem _ hm)).1⟩))
      have hkk : ∀ k' b', (k', b') ∈ r → k' ≠ k := by
        rintro k' b' hm rfl
        exact hn.1 (List.mem_map.2 ⟨_, hm, rfl⟩)
      have hna : ∀ k' b' n', (k', b') ∈ r → Defines c0 k' b' n' → ∀ n, Defines c0 k b n → lower n' ≠ lower n := by
        intro k' b' n' hm hd n hd' e
        exact hkk k' b' hm (hr.apart _ _ _ _ _ _ hd hd' e).1
      have hnk : ∀ k' b' n', Defines c0 k' b' n' → lower n' ≠ k := by
        intro k' b' n' hd e
        exact hr.keys _ _ _ hd (e ▸ (hr.cons.mem_dict _).1 (dget_isSome.1 ⟨b, hb0⟩))
      obtain ⟨c2, e2, f2, u2, d2, d2'⟩ := expandAll hr r f1 hn.2
        (fun k' b' hm => ⟨(hl k' b' (List.mem_cons_of_mem _ hm)).1, by
          rw [d1' k' (hother k' b' hm), if_neg (fun h => hkk k' b' hm h.1)]
          exact (hl k' b' (List.mem_cons_of_mem _ hm)).2⟩)
        (fun k' b' n' hm hd => by
          rw [d1' _ (hna k' b' n' hm hd), if_neg (fun h => hnk k' b' n' hd h.1)]
          exact ha k' b' n' (List.mem_cons_of_mem _ hm) hd)
      refine ⟨c2, by simp only [foldE, e1, e2], f2, u2.trans u1, ?_, ?_⟩
      · intro k' b' n hm hd
        rcases List.mem_cons.1 hm with e | hm
        · injection e with e1 e2
          subst e1 e2
          obtain ⟨b'', q1, q2⟩ := d1 n hd
          refine ⟨b'', ?_, q2⟩
          rw [d2' _ (fun k2 b2 n2 hm2 hd2 e => hna k2 b2 n2 hm2 hd2 n hd e.symm), if_neg, q1]
          rintro ⟨hm2, _⟩
          obtain ⟨⟨k2, b2⟩, hm2, e⟩ := List.mem_map.1 hm2
          exact hother k2 b2 hm2 n hd e
        · exact d2 k' b' n hm hd
      · intro x hx
        rw [d2' x (fun k' b' n hm => hx k' b' n (List.mem_cons_of_mem _ hm)), d1' x (fun n => hx k b n (by simp))]
        simp only [List.map_cons, List.mem_cons]
        by_cases h1 : x ∈ r.map (·.1) ∧ x ≠ dicBlock
        · rw [if_pos h1, if_pos ⟨.inr h1.1, h1.2⟩]
        · rw [if_neg h1]
          by_cases h2 : x = k ∧ x ≠ dicBlock
          · rw [if_pos h2, if_pos ⟨.inl h2.1, h2.2⟩]
          · rw [if_neg h2, if_neg]
            rintro ⟨h3 | h3, h4⟩
            · exact h2 ⟨h3, h4⟩
            · exact h1 ⟨h3, h4⟩
    by_cases hk : k = dicBlock
    · subst hk
      obtain ⟨m, hm, _, _, hno⟩ := hr.dic
      rw [hb0] at hm
      injection hm with hm
      subst hm
      refine tail hf rfl ?_ (fun n hd => absurd rfl hd.1.2) ?_
      · unfold expandOne
        simp only
        rw [if_neg (by rw [hno nameAttr (by simp)]; decide)]
        unfold dropOld
        rw [if_pos (by simp)]
      · intro x _
        rw [if_neg]
        rintro ⟨h1, h2⟩
        exact h2 h1
    · have hdb : DefBlock c0 k b := ⟨hb0, hk⟩
      obtain ⟨ns, hns, _, _⟩ := (hr.defs k b hdb).named
      have hd : ∀ n, Defines c0 k b n ↔ n ∈ ns := by
        intro n
        constructor
        · rintro ⟨_, ns', h1, h2⟩
          rw [h1.unique hns] at h2
          exact h2
        · intro h
          exact ⟨hdb, ns, hns, h⟩
      obtain ⟨c1, e1, f1, u1, d1, d1'⟩ := expandOne_ok hf hb (hr.defs k b hdb) hns (fun n hn => ha k b n (by simp) ((hd n).2 hn))
      refine tail f1 u1 e1 (fun n h => d1 n ((hd n).1 h)) ?_
      intro x hx
      rw [d1' x (fun hm => by
        obtain ⟨n, hn, e⟩ := List.mem_map.1 hm
        exact hx n ((hd n).2 hn) e.symm)]
      by_cases e : x = k
      · rw [if_pos e, if_pos ⟨e, e ▸ hk⟩]
      · rw [if_neg e, if_neg (fun h => e h.1)]

/-- After the first loop: the block of the dictionary, and a block for each name. -/
structure Expanded (c0 : Coll) (c : Coll) : Prop where
  flat : Flat c
  uni : c.unicode = c0.unicode
  dic : dget c.dict dicBlock = dget c0.dict dicBlock
  defs : ∀ k b n, Defines c0 k b n → ∃ b', dget c.dict (lower n) = some b' ∧ Inst b n b'
  only : ∀ x b', dget c.dict x = some b' → x ≠ dicBlock → ∃ k b n, Defines c0 k b n ∧ x = lower n

theorem Regular.flat0 {c : Coll} (h : Regular c) : Flat { c with standard := none } where
  cons := by
    have hu : ∀ a x, Coll.Under { c with standard := none } a x → Coll.Under c a x := by
      intro a x hh
      induction hh with
      | child hp => exact .child hp
      | deeper _ hp ih => exact .deeper ih hp
    exact ⟨h.cons.nd_dict, h.cons.nd_table, h.cons.nd_keys, h.cons.nd_order, h.cons.nd_visible, h.cons.mem_dict, h.cons.mem_table, h.cons.mem_order,
      h.cons.lower_keys, h.cons.parents, fun k hk => h.cons.acyclic k (hu k k hk), h.cons.visible_all, h.cons.visible_top⟩
  flat := h.flat
  free := rfl
  shows := h.shows

theorem expand_ok {c : Coll} (h : Regular c) : ∃ c', expand { c with standard := none } = .ok c' ∧ Expanded c c' := by
  obtain ⟨l, h1, h2, h3⟩ := h.flat0.items
  have hmem : ∀ k b, (k, b) ∈ l ↔ dget c.dict k = some b := h3
  obtain ⟨c', e, f, u, d, d'⟩ := expandAll h l h.flat0 (by rw [h2]; exact h.cons.nd_visible)
    (fun k b hm => ⟨(hmem k b).1 hm, (hmem k b).1 hm⟩)
    (fun k b n _ hd => (h.flat0.absent).1 (h.keys k b n hd))
  refine ⟨c', ?_, f, u, ?_, ?_, ?_⟩
  · unfold expand
    rw [h1]
    exact e
  · obtain ⟨m, hm, _⟩ := h.dic
    rw [d', if_neg (fun hh => hh.2 rfl)]
    intro k b n _ hd e
    exact h.keys k b n hd (e ▸ (h.cons.mem_dict _).1 (dget_isSome.1 ⟨m, hm⟩))
  · intro k b n hd
    exact d k b n ((hmem k b).2 hd.1.1) hd
  · intro x b' hb hx
    apply Classical.byContradiction
    intro hno
    have := d' x (fun k b n _ hd e => hno ⟨k, b, n, hd, e⟩)
    rw [hb] at this
    split at this
    · cases this
    · rename_i hc
      exact hc ⟨List.mem_map.2 ⟨(x, b'), (hmem x b').2 this.symm, rfl⟩, hx⟩

end Verif.Ddl1
