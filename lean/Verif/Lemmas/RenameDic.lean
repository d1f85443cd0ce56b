import Verif.Lemmas.EditDic
/-! Lemmas for renaming definitions. -/
namespace Verif.CifDic
open Validate
set_option linter.unusedSectionVars false
variable [CaseFold]

/-- Setting one attribute. -/
theorem Kept.setAttr_val {d d' : CifDic} (h : Kept d) {key a : Str} {v : PyVal} (hc : d.contains key = true) {b : Block} {u : Unit}
    (hb : look d (lower key) = some b) (hs : CifDic.setAttr d key a v = (d', .ok u)) :
    Like d d' ∧ ∃ b', (∀ i, look d' i = if i = lower key then some b' else look d i) ∧ (∀ x, b'.val x = if x = lower a then some v else b.val x) ∧
      ∀ x, x ∈ b'.keys ↔ x = lower a ∨ x ∈ b.keys := by
  obtain ⟨l, b0, b', h0, h1, h2⟩ := h.setAttr hc hs
  rw [hb] at h0
  injection h0 with h0
  subst h0
  refine ⟨l, b', h2, fun x => Block.val_setItem h1 x, fun x => ?_⟩
  obtain ⟨_, h3⟩ := Block.setItem_ok h1
  obtain ⟨sv, _, _, rfl⟩ := Block.addItem_ok h3 (by simp)
  exact Block.keys_store _ _ _ x

/-- A block moves into another. -/
theorem Kept.setParent {d : CifDic} (h : Kept d) {p c : Str} {c' : Coll} {u : Unit} (hs : d.coll.setParent p c = (c', .ok u))
    (hr : Coll.parentOf d.coll (lower c) ≠ none) (hw : ¬ Coll.Within d.coll (lower c) (lower p)) :
    Kept { d with coll := c' } ∧ (∀ i, look { d with coll := c' } i = look d i) ∧
      ∀ x, Coll.parentOf c' x = if x = lower c then some (lower p) else Coll.parentOf d.coll x := by
  have hcons := Coll.setParent_consistent h.cons p c hw
  rw [hs] at hcons
  unfold Coll.setParent at hs
  split at hs
  · cases hs
  split at hs
  · cases hs
  rename_i hp hk
  have hk := Classical.not_not.1 hk
  obtain ⟨pc, hpc⟩ := dget_isSome.mpr ((h.cons.mem_table _).mpr hk)
  rw [hpc] at hs
  injection hs with hs
  have hpar : ∀ x, Coll.parentOf c' x = if x = lower c then some (lower p) else Coll.parentOf d.coll x := by
    intro x
    rw [← hs]
    exact Coll.parentOf_setParent (c := d.coll) (pc := pc) x
  have hlk : c'.lowerKeys = d.coll.lowerKeys := by rw [← hs]; rfl
  have hdict : c'.dict = d.coll.dict := by rw [← hs]; rfl
  have hpn : ∀ x, Coll.parentOf c' x = none ↔ Coll.parentOf d.coll x = none := by
    intro x
    rw [hpar]
    split
    · rename_i e; subst e; simp [hr]
    · rfl
  refine ⟨⟨hcons, by rw [← hs]; exact h.shows, by rw [← hs]; exact h.refuses, ?_, h.nodup, h.low, ?_, h.inj, ?_, ?_⟩, fun i => ?_, hpar⟩
  · obtain ⟨top, _, htm, ht⟩ := h.top
    exact ⟨top, root_of_mem hcons (fun x hx => by rw [hpn]; exact ht x (by rw [← hlk]; exact hx)) (by rw [hlk]; exact htm)⟩
  · intro i k hi
    obtain ⟨h1, h2⟩ := h.blocks i k hi
    exact ⟨by rw [hlk]; exact h1, by rw [Ne, hpn]; exact h2⟩
  · intro k hk hp
    exact h.ident k (by rw [← hlk]; exact hk) (by rw [Ne, ← hpn]; exact hp)
  · intro i k hi hm
    exact h.clash i k hi (by rw [← hlk]; exact hm)
  · simp only [look, hdict]

/-- The end of a method that moves definition `old` to `new`, where it becomes `b4`, and locks the dictionary. -/
theorem finish {d d4 d5 : CifDic} {u : Unit} (hd : Sound d) (k4 : Kept d4) {old new s : Str} {b4 : Block}
    (hno : look d (lower new) = none ∨ lower new = lower old)
    (hv : ∀ i, look d4 i = if i = lower new then some b4 else if i = lower old then none else (look d i).map ({ · with overwrite := true }))
    (hid : b4.val idAttr = some (.str s)) (hs : lower s = lower new) (h5 : lock d4 = (d5, .ok u)) :
    Sound d5 ∧ Locked d5 ∧ (∀ x, x ∈ d5.keys ↔ (x ∈ d.keys ∧ x ≠ lower old) ∨ x = lower new) ∧
    (∀ n, lower n = lower new → d5.contains n = true ∧ d5.getItem n = .ok { b4 with overwrite := false }) ∧
    (∀ i, d.contains i = true → lower i ≠ lower old → Unchanged d d5 i) ∧ Like d4 d5 := by
  obtain ⟨d5', e5', l5, v5⟩ := k4.overwriteAll false
  have : d5 = d5' := (Prod.mk.inj ((h5.symm.trans e5' : (d5, Except.ok u) = (d5', .ok ())))).1
  subst this
  have k5 := l5.kept k4
  have hlook : ∀ i, look d5 i = if i = lower new then some { b4 with overwrite := false } else if i = lower old then none else
      (look d i).map ({ · with overwrite := false }) := by
    intro i
    rw [v5, hv]
    split
    · rfl
    · split
      · rfl
      · cases look d i <;> rfl
  have hkeys : ∀ x, x ∈ d5.keys ↔ (x ∈ d.keys ∧ x ≠ lower old) ∨ x = lower new := by
    intro x
    rw [← k5.look_some, hlook, ← hd.toKept.look_some]
    by_cases hx : x = lower new
    · simp [hx]
    · by_cases hx' : x = lower old
      · subst hx'; simp [hx]
      · simp only [hx, hx', if_false, or_false, ne_eq, not_false_eq_true, and_true]
        cases look d x <;> simp
  refine ⟨sound_if hd k5 fun i b hb => ?_, fun i b hc hg => ?_, hkeys, fun n hn => ?_, fun i hi hne => unchanged_if hd.toKept k5 hi fun b hb => ?_, l5⟩
  · rw [hlook] at hb
    split at hb
    · rename_i e
      injection hb with hb
      subst hb
      exact .inr ⟨s, hid, by rw [hs, e]⟩
    · split at hb
      · cases hb
      · cases hl : look d i with
        | none => rw [hl] at hb; cases hb
        | some b0 =>
          rw [hl] at hb
          injection hb with hb
          exact .inl ⟨b0, rfl, hb ▸ rfl⟩
  · rw [k5.getItem_look hc, v5] at hg
    cases hl : look d4 (lower i) with
    | none => rw [hl] at hg; cases hg
    | some b0 =>
      rw [hl] at hg
      injection hg with hg
      rw [← hg]
  · have hc : d5.contains n = true := by
      simp only [contains, hn, decide_eq_true_eq]
      exact (hkeys _).2 (.inr rfl)
    exact ⟨hc, (k5.getItem_look hc).2 (by rw [hn, hlook, if_pos rfl])⟩
  · have hnn : lower i ≠ lower new := by
      intro e
      rcases hno with h | h
      · rw [e, h] at hb; cases hb
      · exact hne (e.trans h)
    exact ⟨_, by rw [hlook, if_neg hnn, if_neg hne, hb]; rfl, sameDef_overwrite b false⟩

theorem getItem_overwrite {b : Block} {v : Bool} (a : Str) : ({ b with overwrite := v } : Block).getItem a = b.getItem a := rfl

theorem Like.within {d d' : CifDic} (h : Like d d') (a x : Str) : Coll.Within d'.coll a x ↔ Coll.Within d.coll a x := by
  rw [h.coll]
  unfold Coll.Within
  rw [under_dict]

theorem Like.parentOf {d d' : CifDic} (h : Like d d') : Coll.parentOf d'.coll = Coll.parentOf d.coll := by
  rw [h.coll]; rfl

theorem IsItem.ne {b : Block} (h : IsItem b) : getD b scopeAttr (.str "Item".toList) = .ok (.str "Item".toList) := by
  rcases h with h | h
  · exact getD_not h
  · exact getD_has h

theorem contains_of_look {d : CifDic} (h : Kept d) {n : Str} {b : Block} (hl : look d (lower n) = some b) : d.contains n = true := by
  simp only [contains, decide_eq_true_eq]
  exact h.look_some.1 ⟨b, hl⟩

theorem nodup_idobj : ([idAttr, objAttr].map lower).Nodup := by
  simp only [List.map_cons, List.map_nil, low_id, low_obj]
  decide

theorem nodup_objid : ([(objAttr, PyVal.str []), (idAttr, .str [])].map fun p => lower p.1).Nodup := by
  simp only [List.map_cons, List.map_nil, low_obj, low_id]; decide

theorem nodup_catid : ([catAttr, idAttr].map lower).Nodup := by
  simp only [List.map_cons, List.map_nil, low_id, low_cat]
  decide

theorem not_saves_rename : ∀ a ∈ [idAttr, objAttr, catAttr], a ≠ Block.saves := by decide

theorem scope_kept {b b2 : Block} {v : PyVal} (hx : ∀ x, b2.val x = if x = lower catAttr then some v else b.val x)
    (hy : ∀ x, x ∈ b2.keys ↔ x = lower catAttr ∨ x ∈ b.keys) :
    (IsItem b → IsItem b2) ∧ ∀ w, Has b scopeAttr w → Has b2 scopeAttr w := by
  have hne : ¬ scopeAttr = catAttr := by decide
  have hs : ∀ w, Has b scopeAttr w → Has b2 scopeAttr w := by
    intro w h
    refine has_of_val (by decide) ?_
    rw [hx, low_scope, low_cat, if_neg hne]
    have := val_of_has h
    rwa [low_scope] at this
  refine ⟨fun h => ?_, hs⟩
  rcases h with h | h
  · left
    rw [Block.contains_false] at h ⊢
    rw [hy, low_scope, low_cat]
    rw [low_scope] at h
    exact fun e => e.elim hne h
  · exact .inr (hs _ h)

theorem Child.overwrite {newname c n : Str} {b b' : Block} {v : Bool} (h : Child newname c n b b') : Child newname c n b { b' with overwrite := v } := h

/-- One child. -/
theorem recategorise_step {newname : Str} {d d' : CifDic} {u : Unit} (k : Kept d) {c : Str} {b : Block} (hl : lower c = c)
    (hb : look d c = some b)
    (hP : ∀ o, Has b objAttr (.str o) → lower (newname ++ '.' :: o) ∈ d.keys → lower (newname ++ '.' :: o) ∈ d.coll.lowerKeys)
    (h : recategorise newname d c = (d', .ok u)) :
    Kept d' ∧ ∃ n b', Child newname c n b b' ∧ (n = c ∨ n ∉ d.keys) ∧
      (∀ i, look d' i = if i = n then some b' else if i = c then none else look d i) ∧
      (∀ x ∈ d.keys, (x = c → n = c) → x ∈ d.coll.lowerKeys → x ∈ d'.coll.lowerKeys) ∧ (n ≠ c → n ∈ d'.coll.lowerKeys) := by
  have hc : d.contains c = true := contains_of_look k (by rw [hl]; exact hb)
  unfold recategorise at h
  obtain ⟨d1, u1, h1, h⟩ := seq_inv h
  obtain ⟨l1, b1, v1, x1, y1⟩ := k.setAttr_val hc (by rw [hl]; exact hb) h1
  rw [hl] at v1
  have k1 := l1.kept k
  have hb1 : look d1 c = some b1 := by rw [v1, if_pos rfl]
  have hc1 : d1.contains c = true := contains_of_look k1 (by rw [hl]; exact hb1)
  have hg1 : d1.getItem c = .ok b1 := (k1.getItem_look hc1).2 (by rw [hl]; exact hb1)
  obtain ⟨item, hit, h⟩ := read_inv h
  have hne : ¬ scopeAttr = catAttr := by decide
  have hback : ∀ w, Has b1 scopeAttr w → Has b scopeAttr w := by
    intro w hw
    refine has_of_val (by decide) ?_
    have := val_of_has hw
    rw [x1, low_scope, low_cat, if_neg hne] at this
    rw [low_scope]; exact this
  have hsplit : (item = true ∧ IsItem b) ∨ (item = false ∧ ∃ sc, Has b scopeAttr sc ∧ sc ≠ .str "Item".toList) := by
    simp only [isScope, attrD, hg1] at hit
    cases hs : b1.contains scopeAttr with
    | false =>
      rw [getD_not hs] at hit
      injection hit with hit
      refine .inl ⟨by rw [← hit]; simp, .inl ?_⟩
      rw [Block.contains_false] at hs ⊢
      intro e
      exact hs ((y1 _).2 (.inr e))
    | true =>
      cases hgi : b1.getItem scopeAttr with
      | error e => simp only [getD, hs, if_true, hgi] at hit; cases hit
      | ok v =>
        have hv := hback v ⟨hs, hgi⟩
        simp only [getD, hs, if_true, hgi] at hit
        injection hit with hit
        by_cases e : v = .str "Item".toList
        · exact .inl ⟨by rw [← hit]; simp [e], .inr (e ▸ hv)⟩
        · exact .inr ⟨by rw [← hit]; exact decide_eq_false e, v, hv, e⟩
  rcases hsplit with ⟨rfl, hi⟩ | ⟨rfl, sc, hsc, hni⟩
  · rw [if_pos rfl] at h
    obtain ⟨obj, hobj, h⟩ := read_inv h
    obtain ⟨newid, hnew, h⟩ := read_inv h
    obtain ⟨d2, u2, h2, h⟩ := seq_inv h
    obtain ⟨o, rfl⟩ : ∃ o, obj = .str o := by
      cases obj <;> simp only [catobjName] at hnew <;> first | exact ⟨_, rfl⟩ | cases hnew
    simp only [catobjName] at hnew
    injection hnew with hnew
    subst hnew
    have hho : Has b objAttr (.str o) := by
      simp only [attrI, hg1] at hobj
      have := Block.val_of_getItem hobj
      rw [x1, low_obj, low_cat, if_neg (by decide)] at this
      exact has_of_val (by decide) (by rw [low_obj]; exact this)
    obtain ⟨l2, b2, v2, x2, _⟩ := k1.setAttr_val hc1 (by rw [hl]; exact hb1) h2
    rw [hl] at v2
    have k2 := l2.kept k1
    have hb2 : look d2 c = some b2 := by rw [v2, if_pos rfl]
    have hc2 : d2.contains c = true := contains_of_look k2 (by rw [hl]; exact hb2)
    have hlk : d2.coll.lowerKeys = d.coll.lowerKeys := by rw [l2.coll, l1.coll]
    have hfresh : lower (newname ++ '.' :: o) ∉ d.keys := by
      intro hm
      have hm2 := hP o hho hm
      simp only [List.drop_succ_cons, List.drop_zero] at h
      unfold rename at h
      split at h
      · cases h
      · rw [if_pos rfl] at h
        obtain ⟨_, _, h', _⟩ := seq_inv h
        unfold baseRename at h'
        rw [if_pos (by rw [hlk]; exact hm2)] at h'
        cases h'
    simp only [List.drop_succ_cons, List.drop_zero] at h
    have hn2 : d2.contains (newname ++ '.' :: o) = false := by
      rw [l2.contains, l1.contains]
      simp only [contains, decide_eq_false_iff_not]
      exact hfresh
    obtain ⟨k3, _, _, v3, hf, ⟨kk, bb, info, hkk, hcoll, _⟩, t3⟩ := k2.rename hc2 hn2 h
    rw [hl] at v3 hkk
    refine ⟨k3, lower (newname ++ '.' :: o), b2, .inl ⟨hi, o, hho, rfl, ?_⟩, .inr hfresh, fun i => ?_, fun x hx hxc hxm => ?_, fun _ => ?_⟩
    · refine edited_of_val nodup_catid (fun p hp => not_saves_rename p.1 (by
        have : p.1 ∈ [catAttr, idAttr] := List.mem_map.2 ⟨p, hp, rfl⟩
        revert this; simp; intro h; rcases h with h | h <;> simp [h])) (fun x => ?_)
      rw [x2, x1]
      rfl
    · rw [v3, hb2]
      split
      · rfl
      · split
        · rfl
        · rename_i hic
          rw [v2, if_neg hic, v1, if_neg hic]
    · rw [hcoll]
      have hxm2 : x ∈ d2.coll.lowerKeys := by rw [hlk]; exact hxm
      refine (show x ∈ _ ++ [lower (newname ++ '.' :: o)] from List.mem_append_left _ (List.mem_filter.2 ⟨hxm2, ?_⟩))
      simp only [decide_eq_true_eq]
      intro e
      obtain ⟨k', hk'⟩ := dget_isSome.2 hx
      have hk2 : dget d2.table x = some k' := by rw [l2.table, l1.table]; exact hk'
      have hxe := k2.inj _ _ _ _ hk2 hkk ((k2.clash _ _ hk2 hxm2).trans e)
      rw [hxc hxe] at hfresh
      exact hfresh (hxe ▸ hx)
    · exact (k3.blocks (lower (newname ++ '.' :: o)) _ (by rw [t3, if_pos rfl])).1
  · rw [if_neg (by simp)] at h
    obtain ⟨e, -⟩ := Prod.mk.inj h
    subst e
    refine ⟨k1, c, b1, .inr ⟨⟨sc, hsc, hni⟩, rfl, ?_⟩, .inl rfl, fun i => ?_, fun x _ _ hxm => ?_, fun h => absurd rfl h⟩
    · refine edited_of_val (by simp) (fun p hp => not_saves_rename p.1 (by
        simp at hp; subst hp; simp)) (fun x => ?_)
      rw [x1]
      rfl
    · rw [v1]
      split
      · rfl
      · rfl
    · rw [l1.coll]; exact hxm

/-- All children. -/
theorem each_recategorise {newname : Str} : ∀ (l : List Str) {d d' : CifDic} {u : Unit}, Kept d → l.Nodup → (∀ c ∈ l, c ∈ d.keys) →
    (∀ c ∈ l, ∀ b, look d c = some b → ∀ o, Has b objAttr (.str o) → lower (newname ++ '.' :: o) ∈ d.keys →
      lower (newname ++ '.' :: o) ∈ d.coll.lowerKeys) →
    each (recategorise newname) d l = (d', .ok u) →
    Kept d' ∧ ∃ f : Str → Str,
      (∀ c ∈ l, ∃ b b', look d c = some b ∧ look d' (f c) = some b' ∧ Child newname c (f c) b b') ∧
      (∀ i ∈ d.keys, i ∉ l → look d' i = look d i ∧ ∀ c ∈ l, f c ≠ i) ∧
      ∀ i, i ∈ d'.keys ↔ (i ∈ d.keys ∧ i ∉ l) ∨ ∃ c ∈ l, i = f c
  | [], d, d', u, k, _, _, _, h => by
    simp only [each] at h
    obtain ⟨e, -⟩ := Prod.mk.inj h
    subst e
    exact ⟨k, id, by simp, by simp, by simp⟩
  | c :: cs, d, d', u, k, hn, hk, hP, h => by
    simp only [each] at h
    obtain ⟨d1, u1, h1, h⟩ := seq_inv h
    obtain ⟨hcn, hn⟩ := List.nodup_cons.1 hn
    have hck := hk c (by simp)
    obtain ⟨b, hb⟩ := k.look_some.2 hck
    obtain ⟨k1, n, b', hch, hnc, v1, hlow, hnl⟩ := recategorise_step k (k.low c hck) hb (hP c (by simp) b hb) h1
    have hkeys1 : ∀ i, i ∈ d1.keys ↔ (i ∈ d.keys ∧ i ≠ c) ∨ i = n := by
      intro i
      rw [← k1.look_some, v1, ← k.look_some]
      by_cases e1 : i = n
      · simp [e1]
      · by_cases e2 : i = c
        · subst e2; simp [e1]
        · simp [e1, e2]
    have hne : ∀ i ∈ d.keys, i ≠ c → i ≠ n := by
      intro i hi hic e
      rcases hnc with h | h
      · exact hic (e.trans h)
      · exact h (e ▸ hi)
    have hcs : ∀ x ∈ cs, x ≠ c := fun x hx e => hcn (e ▸ hx)
    have hlook1 : ∀ i ∈ d.keys, i ≠ c → look d1 i = look d i := by
      intro i hi hic
      rw [v1, if_neg (hne i hi hic), if_neg hic]
    obtain ⟨k2, f, hf1, hf2, hf3⟩ := each_recategorise cs k1 hn (fun x hx => (hkeys1 x).2 (.inl ⟨hk x (by simp [hx]), hcs x hx⟩))
      (fun x hx bx hbx o ho hm => by
        have hxk := hk x (by simp [hx])
        rw [hlook1 x hxk (hcs x hx)] at hbx
        rcases (hkeys1 _).1 hm with ⟨hm, hmc⟩ | hm
        · exact hlow _ hm (fun e => absurd e hmc) (hP x (by simp [hx]) bx hbx o ho hm)
        · by_cases e : n = c
          · have hd : lower (newname ++ '.' :: o) ∈ d.keys := by rw [hm.trans e]; exact hck
            exact hlow _ hd (fun _ => e) (hP x (by simp [hx]) bx hbx o ho hd)
          · rw [hm]; exact hnl e) h
    refine ⟨k2, fun x => if x = c then n else f x, fun x hx => ?_, fun i hi hil => ?_, fun i => ?_⟩
    · rcases List.mem_cons.1 hx with rfl | hx
      · dsimp only
        rw [if_pos rfl]
        have hnk : n ∈ d1.keys := (hkeys1 n).2 (.inr rfl)
        have hncs : n ∉ cs := by
          intro hm
          rcases hnc with h | h
          · exact hcn (h ▸ hm)
          · exact h (hk n (by simp [hm]))
        exact ⟨b, b', hb, ((hf2 n hnk hncs).1).trans (by rw [v1, if_pos rfl]), hch⟩
      · dsimp only
        rw [if_neg (hcs x hx)]
        obtain ⟨bx, bx', p1, p2, p3⟩ := hf1 x hx
        exact ⟨bx, bx', (hlook1 x (hk x (by simp [hx])) (hcs x hx)) ▸ p1, p2, p3⟩
    · have hic : i ≠ c := fun e => hil (by simp [e])
      have hics : i ∉ cs := fun e => hil (by simp [e])
      obtain ⟨p1, p2⟩ := hf2 i ((hkeys1 i).2 (.inl ⟨hi, hic⟩)) hics
      refine ⟨p1.trans (hlook1 i hi hic), fun x hx => ?_⟩
      rcases List.mem_cons.1 hx with rfl | hx
      · dsimp only; rw [if_pos rfl]; exact fun e => hne i hi hic e.symm
      · dsimp only; rw [if_neg (hcs x hx)]; exact p2 x hx
    · have hncs : n ∉ cs := by
        intro hm
        rcases hnc with h | h
        · exact hcn (h ▸ hm)
        · exact h (hk n (by simp [hm]))
      rw [hf3, hkeys1]
      constructor
      · rintro (⟨⟨hi, hic⟩ | rfl, hics⟩ | ⟨x, hx, rfl⟩)
        · exact .inl ⟨hi, by simp [hic, hics]⟩
        · exact .inr ⟨c, by simp, by dsimp only; rw [if_pos rfl]⟩
        · exact .inr ⟨x, by simp [hx], by dsimp only; rw [if_neg (hcs x hx)]⟩
      · rintro (⟨hi, hil⟩ | ⟨x, hx, rfl⟩)
        · simp only [List.mem_cons, not_or] at hil
          exact .inl ⟨.inl ⟨hi, hil.1⟩, hil.2⟩
        · rcases List.mem_cons.1 hx with rfl | hx
          · dsimp only; rw [if_pos rfl]; exact .inl ⟨.inr rfl, hncs⟩
          · dsimp only; rw [if_neg (hcs x hx)]; exact .inr ⟨x, hx, rfl⟩

end Verif.CifDic
