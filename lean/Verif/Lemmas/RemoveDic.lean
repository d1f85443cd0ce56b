import Verif.Lemmas.EditDic
import Verif.Lemmas.CifDicTree
/-! Lemmas for removing definitions. -/
namespace Verif.CifDic
open Validate
set_option linter.unusedSectionVars false
variable [CaseFold]

/-- `d` is `d0` without the definitions in `R`. -/
structure Minus (d0 : CifDic) (R : Str → Prop) (d : CifDic) : Prop where
  kept : Kept d
  imports : d.imports = d0.imports
  gone : ∀ i, R i → dget d.table i = none
  stays : ∀ i, ¬ R i → dget d.table i = dget d0.table i
  look_eq : ∀ i, ¬ R i → look d i = look d0 i
  parent : ∀ k ∈ d.coll.lowerKeys, Coll.parentOf d.coll k = Coll.parentOf d0.coll k

theorem Minus.refl {d : CifDic} (h : Kept d) : Minus d (fun _ => False) d where
  kept := h
  imports := rfl
  gone _ h := h.elim
  stays _ _ := rfl
  look_eq _ _ := rfl
  parent _ _ := rfl

theorem Minus.congr {d0 d : CifDic} {R R' : Str → Prop} (h : Minus d0 R d) (e : ∀ i ∈ d0.keys, R i ↔ R' i) : Minus d0 R' d := by
  have hn : ∀ i, i ∉ d0.keys → dget d.table i = none := by
    intro i hi
    by_cases hr : R i
    · exact h.gone i hr
    · rw [h.stays i hr]; exact dget_eq_none.2 hi
  have hn0 : ∀ i, i ∉ d0.keys → dget d0.table i = none := fun i hi => dget_eq_none.2 hi
  refine ⟨h.kept, h.imports, fun i hi => ?_, fun i hi => ?_, fun i hi => ?_, h.parent⟩
  · by_cases hm : i ∈ d0.keys
    · exact h.gone i ((e i hm).2 hi)
    · exact hn i hm
  · by_cases hm : i ∈ d0.keys
    · exact h.stays i (fun hr => hi ((e i hm).1 hr))
    · rw [hn i hm, hn0 i hm]
  · by_cases hm : i ∈ d0.keys
    · exact h.look_eq i (fun hr => hi ((e i hm).1 hr))
    · simp only [look, hn i hm, hn0 i hm, Option.bind_none]

theorem Minus.mem {d0 d : CifDic} {R : Str → Prop} (h : Minus d0 R d) {i : Str} : i ∈ d.keys ↔ i ∈ d0.keys ∧ ¬ R i := by
  unfold keys
  rw [← dget_isSome, ← dget_isSome]
  by_cases hr : R i
  · rw [h.gone i hr]; simp [hr]
  · rw [h.stays i hr]; simp [hr]

theorem Minus.getItem {d0 d : CifDic} {R : Str → Prop} (h0 : Kept d0) (h : Minus d0 R d) {i : Str} (hi : i ∈ d.keys) :
    d.getItem i = d0.getItem i := by
  have hl := h.kept.low i hi
  have hm := h.mem.1 hi
  have hc : d.contains i = true := by simp only [contains, hl, decide_eq_true_eq]; exact hi
  have hc0 : d0.contains i = true := by simp only [contains, hl, decide_eq_true_eq]; exact hm.1
  obtain ⟨b, hb⟩ := h.kept.look_some.2 hi
  rw [(h.kept.getItem_look hc).2 (by rw [hl]; exact hb)]
  rw [h.look_eq i hm.2] at hb
  rw [(h0.getItem_look hc0).2 (by rw [hl]; exact hb)]

theorem Minus.readable {d0 d : CifDic} {R : Str → Prop} (hr : Readable d0) (h0 : Kept d0) (h : Minus d0 R d) : Readable d where
  nodup := h.kept.nodup
  low := h.kept.low
  named a ha := hr.named a (h.mem.1 ha).1
  found a ha := by
    rw [h.getItem h0 ha]
    exact hr.found a (h.mem.1 ha).1

theorem Minus.below {d0 d : CifDic} {R : Str → Prop} (h0 : Kept d0) (h : Minus d0 R d) {c x : Str} (hb : Below d c x) : Below d0 c x := by
  induction hb with
  | child hx hi =>
    unfold InCategory at hi
    rw [h.getItem h0 hx] at hi
    exact .child (h.mem.1 hx).1 hi
  | deeper hy hc hx hi ih =>
    unfold InCategory at hi
    rw [h.getItem h0 hx] at hi
    unfold IsCategory at hc
    rw [h.getItem h0 hy.key] at hc
    exact .deeper ih hc (h.mem.1 hx).1 hi

/-- Deleting a definition whose block encloses no other. -/
theorem Minus.del {d0 d : CifDic} {R : Str → Prop} (h : Minus d0 R d) {key k : Str} (hk : dget d.table (lower key) = some k)
    (hch : ∀ x, Coll.parentOf d.coll x ≠ some (lower k)) :
    ∃ d', delItem d key = (d', .ok ()) ∧ Minus d0 (fun i => R i ∨ i = lower key) d' := by
  have hd := h.kept
  obtain ⟨hbm, hbp⟩ := hd.blocks _ _ hk
  have hleaf : d.coll.children (lower k) = [] := by
    rw [List.eq_nil_iff_forall_not_mem]
    intro j hj
    rw [Coll.mem_children hd.cons.nd_table] at hj
    exact hch j hj
  refine ⟨_, delFuel_leaf hd.cons.keyed hk hbm (hd.visible hbm) hleaf, ?_⟩
  have hcl : Coll.Closed d.coll (fun x => decide (x ≠ lower k)) := by
    intro x y hy hx
    simp only [ne_eq, decide_not, Bool.not_eq_false', decide_eq_true_eq] at hx
    exact absurd (hx ▸ hy) (hch y)
  have hcons := hd.cons.restrict hcl
  have htab : ∀ i, dget (ddel d.table (lower key)) i = if i = lower key then none else dget d.table i := by
    intro i; rw [dget_ddel]; grind
  have hpar : ∀ x, x ≠ lower k → Coll.parentOf (d.coll.restrict fun x => decide (x ≠ lower k)) x = Coll.parentOf d.coll x := by
    intro x hx
    rw [Coll.parentOf_restrict, if_pos (by simpa using hx)]
  have hmk : ∀ x, x ∈ (d.coll.restrict fun x => decide (x ≠ lower k)).lowerKeys ↔ x ∈ d.coll.lowerKeys ∧ x ≠ lower k := by
    intro x; simp [Coll.restrict]
  have hget : ∀ i k', dget (ddel d.table (lower key)) i = some k' → i ≠ lower key ∧ dget d.table i = some k' ∧ lower k' ≠ lower k := by
    intro i k' hx
    rw [htab] at hx
    split at hx
    · cases hx
    · rename_i e
      exact ⟨e, hx, fun e' => e (hd.inj _ _ _ _ hx hk e')⟩
  refine ⟨⟨hcons, hd.shows, hd.refuses, ?_, nodup_dkeys_ddel _ _ hd.nodup, ?_, ?_, ?_, ?_, ?_⟩, h.imports, ?_, ?_, ?_, ?_⟩
  · obtain ⟨top, _, htm, ht⟩ := hd.top
    have htk : top ≠ lower k := fun e => hbp ((ht _ hbm).2 e.symm)
    refine ⟨top, root_of_mem hcons (fun x hx => ?_) ((hmk top).2 ⟨htm, htk⟩)⟩
    obtain ⟨x1, x2⟩ := (hmk x).1 hx
    rw [hpar x x2, ht x x1]
  · intro i hi
    obtain ⟨k', hk'⟩ := dget_isSome.2 hi
    exact hd.low i (dget_isSome.1 ⟨k', (hget i k' hk').2.1⟩)
  · intro i k' hx
    obtain ⟨_, hx, hne⟩ := hget i k' hx
    obtain ⟨b1, b2⟩ := hd.blocks _ _ hx
    exact ⟨(hmk _).2 ⟨b1, hne⟩, by rw [hpar _ hne]; exact b2⟩
  · intro i i' k1 k2 hx hx' e
    exact hd.inj _ _ _ _ (hget _ _ hx).2.1 (hget _ _ hx').2.1 e
  · intro x hx hp
    obtain ⟨x1, x2⟩ := (hmk x).1 hx
    rw [hpar x x2] at hp
    obtain ⟨i, k', hi', e⟩ := hd.ident x x1 hp
    refine ⟨i, k', ?_, e⟩
    show dget (ddel d.table (lower key)) i = some k'
    rw [htab, if_neg (fun e' => x2 (by rw [e', hk] at hi'; injection hi' with hi'; rw [← e, ← hi']))]
    exact hi'
  · intro i k' hx hi
    exact hd.clash _ _ (hget _ _ hx).2.1 ((hmk i).1 hi).1
  · intro i hi
    show dget (ddel d.table (lower key)) i = none
    rw [htab]
    rcases hi with hi | hi
    · rw [h.gone i hi]; simp
    · rw [if_pos hi]
  · intro i hi
    show dget (ddel d.table (lower key)) i = _
    rw [htab, if_neg (fun e => hi (.inr e))]
    exact h.stays i (fun hr => hi (.inl hr))
  · intro i hi
    rw [← h.look_eq i (fun hr => hi (.inl hr))]
    simp only [look, htab]
    rw [if_neg (fun e => hi (.inr e))]
    cases hx : dget d.table i with
    | none => rfl
    | some k' =>
      have hne : lower k' ≠ lower k := fun e' => hi (.inr (hd.inj _ _ _ _ hx hk e'))
      simp only [Option.bind_some, Coll.restrict]
      rw [dget_filter _ (fun x => decide (x ≠ lower k)), if_pos (by simpa using hne)]
  · intro x hx
    obtain ⟨x1, x2⟩ := (hmk x).1 hx
    rw [hpar x x2, h.parent x x1]

/-- The set of removed definitions contains what is below a removed category. -/
def Shut (d0 : CifDic) (R : Str → Prop) : Prop := ∀ y x, R y → isCat d0 y = true → Below d0 y x → R x

theorem goes_iff {d0 : CifDic} (hr : Readable d0) {key : Str} (hk : lower key ∈ d0.keys) (h0 : Kept d0) {x : Str} :
    Goes d0 key x ↔ x = lower key ∨ (isCat d0 (lower key) = true ∧ Below d0 (lower key) x) := by
  obtain ⟨b, hb, hp⟩ := hr.found _ hk
  unfold Goes
  rw [below_lower, ← isCategory_iff hb hp]
  have hc : d0.contains key = true := by simp only [contains, decide_eq_true_eq]; exact hk
  have hc' : d0.contains (lower key) = true := by simp only [contains, CaseFold.lower_lower, decide_eq_true_eq]; exact hk
  have e : d0.getItem key = d0.getItem (lower key) := by
    obtain ⟨b', hb'⟩ := h0.look_some.2 hk
    rw [(h0.getItem_look hc).2 hb', (h0.getItem_look hc').2 (by rw [CaseFold.lower_lower]; exact hb')]
  unfold IsCategory
  rw [e]

theorem below_trans {d : CifDic} (hr : Readable d) {a b c : Str} (h1 : Below d a b) (hb : isCat d b = true) (h2 : Below d b c) : Below d a c := by
  obtain ⟨bb, hbb, hp⟩ := hr.found _ h1.key
  have hbc := (isCategory_iff hbb hp).2 hb
  induction h2 with
  | child hx hi => exact .deeper h1 hbc hx hi
  | deeper _ hc hx hi ih => exact .deeper ih hc hx hi

theorem below_head {d : CifDic} (hr : Readable d) {c x : Str} (hl : lower c = c) (hc : c ≠ []) :
    Below d c x ↔ ∃ y ∈ kids d c, x = y ∨ (isCat d y = true ∧ Below d y x) := by
  rw [← below_iff hr hl hc, Forest.desc_head]
  constructor
  · rintro (h | ⟨y, hy, ho, hd⟩)
    · exact ⟨x, h, .inl rfl⟩
    · have hk := ((mem_kids hr hl hc).1 hy).1
      exact ⟨y, hy, .inr ⟨ho, (below_iff hr (hr.low y hk) (hr.named y hk)).1 hd⟩⟩
  · rintro ⟨y, hy, h⟩
    rcases h with rfl | ⟨ho, hb⟩
    · exact .inl hy
    · have hk := ((mem_kids hr hl hc).1 hy).1
      exact .inr ⟨y, hy, ho, (below_iff hr (hr.low y hk) (hr.named y hk)).2 hb⟩

theorem isCat_eq {d0 d : CifDic} {R : Str → Prop} (h0 : Kept d0) (h : Minus d0 R d) {i : Str} (hi : i ∈ d.keys) : isCat d i = isCat d0 i := by
  unfold isCat scopeIs
  rw [h.getItem h0 hi]

theorem kids_minus {d0 d : CifDic} {R : Str → Prop} (h0 : Kept d0) (h : Minus d0 R d) {c x : Str} :
    x ∈ kids d c ↔ x ∈ kids d0 c ∧ ¬ R x := by
  unfold kids
  split
  · rw [List.mem_filter, List.mem_filter, h.mem]
    constructor
    · rintro ⟨⟨h1, h2⟩, h3⟩
      unfold catOf at h3 ⊢
      rw [h.getItem h0 (h.mem.2 ⟨h1, h2⟩)] at h3
      exact ⟨⟨h1, h3⟩, h2⟩
    · rintro ⟨⟨h1, h3⟩, h2⟩
      unfold catOf at h3 ⊢
      rw [h.getItem h0 (h.mem.2 ⟨h1, h2⟩)]
      exact ⟨⟨h1, h2⟩, h3⟩
  · simp

/-- The loop over the children. -/
theorem each_remove {d0 : CifDic} {f : CifDic → Str → CifDic × Except PyErr Unit} (hr : Readable d0) :
    ∀ (l : List Str), (∀ c ∈ l, c ∈ d0.keys) →
    (∀ c ∈ l, ∀ R d, Minus d0 R d → Shut d0 R → ∃ d', f d c = (d', .ok ()) ∧
      Minus d0 (fun i => R i ∨ (i = c ∨ (isCat d0 c = true ∧ Below d0 c i))) d') →
    ∀ R d, Minus d0 R d → Shut d0 R →
    ∃ d', each f d l = (d', .ok ()) ∧ Minus d0 (fun i => R i ∨ ∃ c ∈ l, i = c ∨ (isCat d0 c = true ∧ Below d0 c i)) d'
  | [], _, _, R, d, hm, _ => ⟨d, rfl, hm.congr (by simp)⟩
  | c :: cs, hk, hf, R, d, hm, hs => by
    obtain ⟨d1, e1, m1⟩ := hf c (by simp) R d hm hs
    have hs1 : Shut d0 (fun i => R i ∨ (i = c ∨ (isCat d0 c = true ∧ Below d0 c i))) := by
      rintro y x (hy | rfl | ⟨hc, hy⟩) ho hb
      · exact .inl (hs y x hy ho hb)
      · exact .inr (.inr ⟨ho, hb⟩)
      · exact .inr (.inr ⟨hc, below_trans hr hy ho hb⟩)
    obtain ⟨d2, e2, m2⟩ := each_remove hr cs (fun x hx => hk x (by simp [hx])) (fun x hx => hf x (by simp [hx])) _ d1 m1 hs1
    refine ⟨d2, by simp only [each, e1, seq_ok, e2], m2.congr fun i _ => ?_⟩
    simp only [List.mem_cons, exists_eq_or_imp, or_assoc]

theorem size_pos {kids : Str → List Str} {open_ : Str → Bool} {K : List Str} (hF : Forest.IsForest kids open_ K) {c y : Str} (hy : y ∈ kids c) :
    0 < Forest.size kids open_ K c := by
  classical
  unfold Forest.size
  rw [List.countP_pos_iff]
  exact ⟨y, hF.sub _ _ hy, by simpa using Forest.Desc.child hy⟩

theorem removeFuel_eq {d0 : CifDic} (h0 : Sound d0) (hr : Readable d0) (ha : Acyclic d0) (hn : Nested d0) : ∀ (n : Nat) (key : Str) (R : Str → Prop)
    (d : CifDic), lower key ∈ d0.keys → (isCat d0 (lower key) = true → Forest.size (kids d0) (isCat d0) d0.keys (lower key) < n) → 0 < n →
    Minus d0 R d → Shut d0 R →
    ∃ d', removeFuel n d key = (d', .ok ()) ∧
      Minus d0 (fun i => R i ∨ (i = lower key ∨ (isCat d0 (lower key) = true ∧ Below d0 (lower key) i))) d'
  | 0, _, _, _, _, _, h, _, _ => absurd h (Nat.lt_irrefl 0)
  | n + 1, key, R, d, hk, hsz, _, hm, hs => by
    have hll : lower (lower key) = lower key := CaseFold.lower_lower key
    by_cases hR : R (lower key)
    · have hc : d.contains key = false := by
        simp only [contains, decide_eq_false_iff_not]
        exact fun h => (hm.mem.1 h).2 hR
      refine ⟨d, by simp [removeFuel, hc], hm.congr fun i _ => ?_⟩
      constructor
      · exact .inl
      · rintro (h | rfl | ⟨h1, h2⟩)
        · exact h
        · exact hR
        · exact hs _ _ hR h1 h2
    · have hkd : lower key ∈ d.keys := hm.mem.2 ⟨hk, hR⟩
      have hc : d.contains key = true := by simp only [contains, decide_eq_true_eq]; exact hkd
      have hrd := hm.readable hr h0.toKept
      obtain ⟨b, hb, hp⟩ := hrd.found _ hkd
      obtain ⟨k, hkk⟩ := dget_isSome.2 hkd
      have hgk : d.getItem key = .ok b := by
        have hc' : d.contains (lower key) = true := by simp only [contains, hll, decide_eq_true_eq]; exact hkd
        rw [hm.kept.getItem_look hc', hll] at hb
        exact (hm.kept.getItem_look hc).2 hb
      have hg0 : d0.getItem (lower key) = .ok b := by rw [← hm.getItem h0.toKept hkd]; exact hb
      have hicat : isCat d0 (lower key) = isCat d (lower key) := (isCat_eq h0.toKept hm hkd).symm
      have hscope : ∃ v, attrD d key scopeAttr .none = .ok v ∧ (v = .str "Category".toList ↔ isCat d0 (lower key) = true) := by
        rw [← isCategory_iff hg0 hp]
        unfold attrD IsCategory Has
        simp only [hgk, hg0]
        cases hs : b.contains scopeAttr with
        | false =>
          refine ⟨.none, getD_not hs, ?_⟩
          constructor
          · intro h; cases h
          · rintro ⟨b', e, h, _⟩
            injection e with e
            rw [← e, hs] at h
            cases h
        | true =>
          obtain ⟨v, hv⟩ := hp.2.1 hs
          refine ⟨v, by unfold getD; rw [hs, if_pos rfl, hv], ?_⟩
          constructor
          · rintro rfl
            exact ⟨b, rfl, hs, hv⟩
          · rintro ⟨b', e, _, h⟩
            injection e with e
            rw [← e, hv] at h
            injection h
      obtain ⟨v, hv, hvc⟩ := hscope
      -- the block encloses nothing once the children are gone
      have hfinal : ∀ R' d', Minus d0 R' d' → ¬ R' (lower key) → (∀ x ∈ kids d0 (lower key), isCat d0 (lower key) = true → R' x) →
          ∃ d'', delItem d' key = (d'', .ok ()) ∧ Minus d0 (fun i => R' i ∨ i = lower key) d'' := by
        intro R' d' m' hR' hkids
        have hk' : dget d'.table (lower key) = some k := by
          rw [m'.stays _ hR', ← hm.stays _ hR]; exact hkk
        refine m'.del hk' fun x hx => ?_
        have hxm : x ∈ d'.coll.lowerKeys := by
          rw [← m'.kept.cons.mem_table]
          unfold Coll.parentOf at hx
          cases ht : dget d'.coll.childTable x with
          | none => rw [ht] at hx; cases hx
          | some y => exact dget_isSome.1 ⟨y, ht⟩
        obtain ⟨j, l, hj, el⟩ := m'.kept.ident x hxm (by rw [hx]; simp)
        have hjR : ¬ R' j := fun h => by rw [m'.gone j h] at hj; cases hj
        have hj0 : dget d0.table j = some l := by rw [← m'.stays j hjR]; exact hj
        have hk0 : dget d0.table (lower key) = some k := by rw [← m'.stays _ hR']; exact hk'
        rw [m'.parent x hxm] at hx
        obtain ⟨n1, n2⟩ := hn _ _ _ _ hk0 hj0 (by rw [el]; exact hx)
        exact hjR (hkids j ((mem_kids hr hll (hr.named _ hk)).2 ⟨dget_isSome.1 ⟨l, hj0⟩, n2⟩) ((isCategory_iff hg0 hp).1 n1))
      by_cases hcat : isCat d0 (lower key) = true
      · have e : immediateChildren d key = .ok (kids d (lower key)) := immediate_eq hrd key
        have hF := forest hr ha
        have hin : ∀ c ∈ kids d (lower key), c ∈ kids d0 (lower key) := fun c hc => ((kids_minus h0.toKept hm).1 hc).1
        have hks : ∀ c ∈ kids d (lower key), c ∈ d0.keys := fun c hc => hF.sub _ _ (hin c hc)
        have hpos : ∀ c ∈ kids d (lower key), 0 < n := fun c hc => by
          have := size_pos hF (hin c hc)
          have := hsz hcat
          omega
        obtain ⟨d1, e1, m1⟩ := each_remove (f := removeFuel n) hr (kids d (lower key)) hks (fun c hc R1 d1 m1 s1 => by
          have hcl := hr.low c (hks c hc)
          have := removeFuel_eq h0 hr ha hn n c R1 d1 (by rw [hcl]; exact hks c hc) (fun ho => by
            rw [hcl] at ho ⊢
            have := Forest.size_lt hF (hin c hc) ho
            have := hsz hcat
            omega) (hpos c hc) m1 s1
          rw [hcl] at this
          exact this) R d hm hs
        have hR1 : ¬ (R (lower key) ∨ ∃ c ∈ kids d (lower key), lower key = c ∨ (isCat d0 c = true ∧ Below d0 c (lower key))) := by
          rintro (h | ⟨c, hc, h⟩)
          · exact hR h
          · exact ha (lower key) ((below_head hr hll (hr.named _ hk)).2 ⟨c, hin c hc, h⟩)
        have hk1 : lower key ∈ d1.keys := m1.mem.2 ⟨hk, hR1⟩
        have hg1 : d1.getItem key = .ok b := by
          have hc1 : d1.contains key = true := by simp only [contains, decide_eq_true_eq]; exact hk1
          have hc1' : d1.contains (lower key) = true := by simp only [contains, hll, decide_eq_true_eq]; exact hk1
          have := (m1.getItem h0.toKept hk1).trans hg0
          rw [m1.kept.getItem_look hc1', hll] at this
          exact (m1.kept.getItem_look hc1).2 this
        obtain ⟨b', s, hb', hs', _⟩ := h0.ids _ hk
        have hid : attrI d1 key idAttr = .ok (.str s) := by
          unfold attrI
          rw [hg1]
          rw [hg0] at hb'
          injection hb' with hb'
          rw [hb']
          exact hs'.2
        obtain ⟨d2, e2, m2⟩ := hfinal _ d1 m1 hR1 (fun x hx _ => by
          by_cases hRx : R x
          · exact .inl hRx
          · exact .inr ⟨x, (kids_minus h0.toKept hm).2 ⟨hx, hRx⟩, .inl rfl⟩)
        refine ⟨d2, ?_, m2.congr fun i hi => ?_⟩
        · have hvv := hvc.2 hcat
          simp only [removeFuel, hc, hv, hvv, read, if_true, e, e1, seq_ok, hid, lowered, e2, not_true_eq_false, if_false]
        · constructor
          · rintro ((h | ⟨c, h1, h2⟩) | h)
            · exact .inl h
            · exact .inr (.inr ⟨hcat, (below_head hr hll (hr.named _ hk)).2 ⟨c, hin c h1, h2⟩⟩)
            · exact .inr (.inl h)
          · rintro (h | h | ⟨_, h⟩)
            · exact .inl (.inl h)
            · exact .inr h
            · obtain ⟨c, h1, h2⟩ := (below_head hr hll (hr.named _ hk)).1 h
              by_cases hRc : R c
              · refine .inl (.inl ?_)
                rcases h2 with rfl | ⟨h2, h3⟩
                · exact hRc
                · exact hs _ _ hRc h2 h3
              · exact .inl (.inr ⟨c, (kids_minus h0.toKept hm).2 ⟨h1, hRc⟩, h2⟩)
      · obtain ⟨d2, e2, m2⟩ := hfinal R d hm hR (fun _ _ h => absurd h hcat)
        refine ⟨d2, ?_, m2.congr fun i _ => by simp [hcat]⟩
        have hvv : ¬ v = .str "Category".toList := fun e => hcat (hvc.1 e)
        simp only [removeFuel, hc, hv, hvv, read, if_false, e2, not_true_eq_false]

end Verif.CifDic
