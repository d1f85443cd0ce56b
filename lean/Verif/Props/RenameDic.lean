import Verif.Lemmas.RenameDic
import Verif.Props.EditDic
import Verif.Props.RemoveDic
import Verif.Lemmas.CifDicTree
/-! # C69: renaming and moving definitions -/
namespace Verif.CifDic
open Validate
set_option linter.unusedSectionVars false
variable [CaseFold]

/-- C69 for a change of the object name. Missing: new names that are in use already, see `C69_hidden_fails` and `C69_same_fails`. -/
theorem C69_name_partial {d d' : CifDic} (hd : Sound d) {name obj cat r : Str} {b : Block} (hc : d.contains name = true)
    (hb : d.getItem name = .ok b) (ht : b.contains titleAttr = false) (hcat : Has b catAttr (.str cat))
    (hn : d.contains (joined cat obj) = false) (h : changeName d name obj = (d', .ok r)) :
    r = joined cat obj ∧ Sound d' ∧ Locked d' ∧ (∀ x, x ∈ d'.keys ↔ (x ∈ d.keys ∧ x ≠ lower name) ∨ x = lower r) ∧
    (∃ b', (∀ n, lower n = lower r → d'.contains n = true ∧ d'.getItem n = .ok b') ∧
      Edited b b' [(idAttr, .str r), (objAttr, .str obj)]) ∧
    ∀ i, d.contains i = true → lower i ≠ lower name → Unchanged d d' i := by
  unfold changeName at h
  obtain ⟨b0, hb0, h⟩ := read_inv h
  rw [hb] at hb0
  injection hb0 with hb0
  subst hb0
  rw [if_pos (by rw [ht]; simp)] at h
  obtain ⟨v, hv, h⟩ := read_inv h
  rw [hcat.2] at hv
  injection hv with hv
  subst hv
  obtain ⟨newid, hnew, h⟩ := read_inv h
  simp only [catobjName] at hnew
  injection hnew with hnew
  obtain ⟨d1, e1, l1, v1⟩ := hd.toKept.overwriteAll true
  rw [show unlock d = (d1, .ok ()) from e1, seq_ok] at h
  obtain ⟨d2, u2, h2, h⟩ := seq_inv h
  obtain ⟨d3, u3, h3, h⟩ := seq_inv h
  obtain ⟨d4, u4, h4, h⟩ := seq_inv h
  obtain ⟨d5, u5, h5, h⟩ := seq_inv h
  obtain ⟨e5, er⟩ := Prod.mk.inj h
  injection er with er
  subst e5 er
  unfold joined at hn
  rw [hnew] at hn
  have k1 := l1.kept hd.toKept
  have hbl := (hd.toKept.getItem_look hc).1 hb
  obtain ⟨k2, _, _, v2, _⟩ := k1.rename (by rw [l1.contains]; exact hc) (by rw [l1.contains]; exact hn) h2
  have hb2 : look d2 (lower newid) = some { b with overwrite := true } := by
    rw [v2, if_pos rfl, v1, hbl]; rfl
  obtain ⟨l3, b3, v3, x3, _⟩ := k2.setAttr_val (contains_of_look k2 hb2) hb2 h3
  have k3 := l3.kept k2
  have hb3 : look d3 (lower newid) = some b3 := by rw [v3, if_pos rfl]
  obtain ⟨l4, b4, v4, x4, _⟩ := k3.setAttr_val (contains_of_look k3 hb3) hb3 h4
  have k4 := l4.kept k3
  have hed : Edited b { b4 with overwrite := false } [(idAttr, .str newid), (objAttr, .str obj)] := by
    refine edited_of_val nodup_idobj (fun p hp => not_saves_rename p.1 (by
      have : p.1 ∈ [idAttr, objAttr] := List.mem_map.2 ⟨p, hp, rfl⟩
      revert this; simp; intro h; rcases h with h | h <;> simp [h])) (fun x => ?_)
    rw [(sameDef_overwrite b4 false).val, x4, x3]
    rfl
  have hid := val_of_has (hed.1 (idAttr, .str newid) (by simp))
  rw [low_id] at hid
  obtain ⟨f1, f2, f3, f4, f5, _⟩ := finish hd k4 (old := name) (new := newid) (s := newid) (b4 := b4)
    (.inl ((not_contains_look hd.toKept).1 hn)) (fun i => by
      rw [v4]
      split
      · rfl
      · rename_i hi
        rw [v3, if_neg hi, v2, if_neg hi]
        split
        · rfl
        · rw [v1]) hid rfl h5
  exact ⟨hnew.symm, f1, f2, f3, ⟨_, f4, hed⟩, f5⟩

/-- What both kinds of moves have in common. -/
theorem changeCategory_start {d d' : CifDic} (hd : Sound d) {name cat old r : Str} {b : Block} (hc : d.contains name = true)
    (hb : d.getItem name = .ok b) (hcat : Has b catAttr (.str old)) (hne : lower old ≠ lower cat) (hcc : d.contains cat = true)
    (h : changeCategory d name cat = (d', .ok r)) :
    ∃ d2 d3 c' b2 obj u5, b.lookup objAttr = some obj ∧ Kept d2 ∧ Like d d2 ∧
      (∀ i, look d2 i = if i = lower name then some b2 else (look d i).map ({ · with overwrite := true })) ∧
      (∀ x, b2.val x = if x = lower catAttr then some (.str cat) else b.val x) ∧ (∀ x, x ∈ b2.keys ↔ x = lower catAttr ∨ x ∈ b.keys) ∧
      reidentify d2 name cat obj = (d3, .ok r) ∧ d3.coll.setParent cat r = (c', .ok ()) ∧ lock { d3 with coll := c' } = (d', .ok u5) := by
  unfold changeCategory at h
  obtain ⟨v, hv, h⟩ := read_inv h
  simp only [attrI, hb, hcat.2] at hv
  injection hv with hv
  subst hv
  obtain ⟨lo, hlo, h⟩ := read_inv h
  simp only [lowered] at hlo
  injection hlo with hlo
  subst hlo
  rw [if_neg hne, if_neg (by rw [hcc]; simp)] at h
  obtain ⟨d1, e1, l1, v1⟩ := hd.toKept.overwriteAll true
  rw [show unlock d = (d1, .ok ()) from e1, seq_ok] at h
  obtain ⟨ob, hob, h⟩ := read_inv h
  obtain ⟨d2, u2, h2, h⟩ := seq_inv h
  obtain ⟨d3, newid, h3, h⟩ := seq_inv h
  have k1 := l1.kept hd.toKept
  have hc1 : d1.contains name = true := by rw [l1.contains]; exact hc
  have hbl := (hd.toKept.getItem_look hc).1 hb
  have hb1 : look d1 (lower name) = some { b with overwrite := true } := by rw [v1, hbl]; rfl
  have hob' : b.lookup objAttr = some ob := by
    simp only [attrI, (k1.getItem_look hc1).2 hb1] at hob
    rw [getItem_overwrite] at hob
    exact Block.lookup_some.2 hob
  obtain ⟨l2, b2, v2, x2, y2⟩ := k1.setAttr_val hc1 hb1 h2
  have k2 := l2.kept k1
  cases hsp : d3.coll.setParent cat newid with
  | mk c' res =>
    rw [hsp] at h
    cases res with
    | error e => cases h
    | ok u =>
      obtain ⟨d5, u5, h5, h⟩ := seq_inv h
      obtain ⟨e5, er⟩ := Prod.mk.inj h
      injection er with er
      subst e5 er
      exact ⟨d2, d3, c', b2, ob, u5, hob', k2, l1.trans l2, fun i => by rw [v2, v1], x2, y2, h3, hsp, h5⟩

/-- C69 for a move to another category: an item. Missing: new names that are in use already; categories kept in blocks not
named like them, see `C69_block_fails`. -/
theorem C69_item_partial {d d' : CifDic} (hd : Sound d) {name cat old r k : Str} {b : Block} (hc : d.contains name = true)
    (hb : d.getItem name = .ok b) (hcat : Has b catAttr (.str old)) (hne : lower old ≠ lower cat)
    (hitem : IsItem b) (hcc : d.contains cat = true)
    (hk : dget d.table (lower name) = some k) (hout : ¬ Coll.Within d.coll (lower k) (lower cat))
    (hn : ∀ o, Has b objAttr (.str o) → d.contains (joined cat o) = false) (h : changeCategory d name cat = (d', .ok r)) :
    (∃ o, Has b objAttr (.str o) ∧ r = joined cat o) ∧ Sound d' ∧ Locked d' ∧
    (∀ x, x ∈ d'.keys ↔ (x ∈ d.keys ∧ x ≠ lower name) ∨ x = lower r) ∧
    (∃ b', (∀ n, lower n = lower r → d'.contains n = true ∧ d'.getItem n = .ok b') ∧
      Edited b b' [(catAttr, .str cat), (idAttr, .str r)]) ∧
    (∀ i, d.contains i = true → lower i ≠ lower name → Unchanged d d' i) ∧ Coll.parentOf d'.coll (lower r) = some (lower cat) := by
  obtain ⟨d2, d3, c', b2, obj, u5, hobj, k2, l2, v2, x2, y2, h3, hsp, h5⟩ := changeCategory_start hd hc hb hcat hne hcc h
  have hb2 : look d2 (lower name) = some b2 := by rw [v2, if_pos rfl]
  have hc2 := contains_of_look k2 hb2
  unfold reidentify at h3
  obtain ⟨item, hit, h3⟩ := read_inv h3
  simp only [isScope, attrD, (k2.getItem_look hc2).2 hb2, ((scope_kept x2 y2).1 hitem).ne] at hit
  injection hit with hit
  rw [← hit, if_pos (by simp)] at h3
  obtain ⟨newid, hnew, h3⟩ := read_inv h3
  obtain ⟨da, ua, ha, h3⟩ := seq_inv h3
  obtain ⟨db, ub, hrb, h3⟩ := seq_inv h3
  obtain ⟨e3, er⟩ := Prod.mk.inj h3
  injection er with er
  subst e3 er
  obtain ⟨o, rfl⟩ : ∃ o, obj = .str o := by
    cases obj <;> simp only [catobjName] at hnew <;> first | exact ⟨_, rfl⟩ | cases hnew
  simp only [catobjName] at hnew
  injection hnew with hnew
  have hov : b.val (lower objAttr) = some (.str o) := by rw [← Block.lookup_val _ _ (by decide)]; exact hobj
  have hoh : Has b objAttr (.str o) := has_of_val (by decide) hov
  have hnn := hn o hoh
  unfold joined at hnn
  rw [hnew] at hnn
  obtain ⟨la, ba, va, xa, _⟩ := k2.setAttr_val hc2 hb2 ha
  have ka := la.kept k2
  have hba : look da (lower name) = some ba := by rw [va, if_pos rfl]
  have hca := contains_of_look ka hba
  have hna : da.contains newid = false := by rw [la.contains, l2.contains]; exact hnn
  obtain ⟨kb, _, _, vb, hfresh, ⟨k', bb, info, hk', hcoll, hip⟩, tb⟩ := ka.rename hca hna hrb
  have hkk : k' = k := by
    rw [la.table, l2.table, hk] at hk'
    injection hk' with hk'
    exact hk'.symm
  subst hkk
  have hbm : lower k' ∈ da.coll.lowerKeys := (ka.blocks _ _ (by rw [la.table, l2.table]; exact hk)).1
  have hcn : lower cat ≠ lower newid := by
    intro e
    have : lower cat ∈ d.keys := of_decide_eq_true hcc
    rw [e] at this
    simp [contains, this] at hnn
  have hw : ¬ Coll.Within db.coll (lower newid) (lower cat) := by
    rw [hcoll]
    rintro (e | hu)
    · exact hcn e
    · have := Coll.rekeyed_under ka.cons hbm hfresh hip hu
      rw [if_pos rfl, if_neg hcn] at this
      exact hout ((l2.trans la).within _ _ |>.1 (.inr this))
  have hroot : Coll.parentOf db.coll (lower newid) ≠ none := (kb.blocks (lower newid) newid (by rw [tb, if_pos rfl])).2
  obtain ⟨k4, v4, p4⟩ := kb.setParent hsp hroot hw
  have hed : Edited b { ba with overwrite := false } [(catAttr, .str cat), (idAttr, .str newid)] := by
    refine edited_of_val nodup_catid (fun p hp => not_saves_rename p.1 (by
      have : p.1 ∈ [catAttr, idAttr] := List.mem_map.2 ⟨p, hp, rfl⟩
      revert this; simp; intro h; rcases h with h | h <;> simp [h])) (fun x => ?_)
    rw [(sameDef_overwrite ba false).val, xa, x2]
    rfl
  have hid := val_of_has (hed.1 (idAttr, .str newid) (by simp))
  rw [low_id] at hid
  obtain ⟨f1, f2, f3, f4, f5, f6⟩ := finish hd k4 (old := name) (new := newid) (s := newid) (b4 := ba)
    (.inl ((not_contains_look hd.toKept).1 hnn)) (fun i => by
      rw [v4, vb, hba]
      split
      · rfl
      · split
        · rfl
        · rename_i hi
          rw [va, if_neg hi, v2, if_neg hi]) hid rfl h5
  refine ⟨⟨o, hoh, hnew.symm⟩, f1, f2, f3, ⟨_, f4, hed⟩, f5, ?_⟩
  rw [f6.parentOf]
  exact (p4 _).trans (if_pos rfl)

/-- C69 for a move to another category: a category, which keeps its name. Missing: categories kept in blocks not named like them, see
`C69_block_fails`; the new parent may be below the category that is moved, see `C69_cycle_fails`. -/
theorem C69_category_partial {d d' : CifDic} (hd : Sound d) {name cat old r k : Str} {b : Block} {sc : PyVal} (hc : d.contains name = true)
    (hb : d.getItem name = .ok b) (hcat : Has b catAttr (.str old)) (hne : lower old ≠ lower cat)
    (hsc : Has b scopeAttr sc) (hni : sc ≠ .str "Item".toList) (hcc : d.contains cat = true)
    (hk : dget d.table (lower name) = some k) (hout : ¬ Coll.Within d.coll (lower k) (lower cat))
    (h : changeCategory d name cat = (d', .ok r)) :
    r = name ∧ Sound d' ∧ Locked d' ∧ (∀ x, x ∈ d'.keys ↔ x ∈ d.keys) ∧
    (∃ b', (∀ n, lower n = lower name → d'.contains n = true ∧ d'.getItem n = .ok b') ∧ Edited b b' [(catAttr, .str cat)]) ∧
    (∀ i, d.contains i = true → lower i ≠ lower name → Unchanged d d' i) ∧ Coll.parentOf d'.coll (lower k) = some (lower cat) := by
  obtain ⟨d2, d3, c', b2, obj, u5, hobj, k2, l2, v2, x2, y2, h3, hsp, h5⟩ := changeCategory_start hd hc hb hcat hne hcc h
  have hb2 : look d2 (lower name) = some b2 := by rw [v2, if_pos rfl]
  have hc2 := contains_of_look k2 hb2
  unfold reidentify at h3
  obtain ⟨item, hit, h3⟩ := read_inv h3
  simp only [isScope, attrD, (k2.getItem_look hc2).2 hb2, getD_has ((scope_kept x2 y2).2 _ hsc)] at hit
  injection hit with hit
  rw [← hit, if_neg (by simpa using hni)] at h3
  obtain ⟨e3, er⟩ := Prod.mk.inj h3
  injection er with er
  subst e3 er
  have hkn : lower k = lower name := by
    refine hd.clash _ _ hk ?_
    unfold Coll.setParent at hsp
    split at hsp
    · cases hsp
    · split at hsp
      · cases hsp
      · rename_i hm
        have := Classical.not_not.1 hm
        rw [l2.coll] at this
        exact this
  have hw : ¬ Coll.Within d2.coll (lower name) (lower cat) := by rw [l2.within, ← hkn]; exact hout
  have hroot : Coll.parentOf d2.coll (lower name) ≠ none := by
    rw [l2.parentOf, ← hkn]
    exact (hd.blocks _ _ hk).2
  obtain ⟨k4, v4, p4⟩ := k2.setParent hsp hroot hw
  have hed : Edited b { b2 with overwrite := false } [(catAttr, .str cat)] := by
    refine edited_of_val (by simp) (fun p hp => not_saves_rename p.1 (by
      simp at hp; subst hp; simp)) (fun x => ?_)
    rw [(sameDef_overwrite b2 false).val, x2]
    rfl
  obtain ⟨s, hs, es⟩ := hd.look_id ((hd.toKept.getItem_look hc).1 hb)
  have hid : b2.val idAttr = some (.str s) := by
    rw [x2, low_cat, if_neg (by decide)]
    exact hs
  obtain ⟨f1, f2, f3, f4, f5, f6⟩ := finish hd k4 (old := name) (new := name) (s := s) (b4 := b2)
    (.inr rfl) (fun i => by
      rw [v4, v2]
      split
      · rfl
      · rfl) hid es h5
  refine ⟨rfl, f1, f2, fun x => ?_, ⟨_, f4, hed⟩, f5, ?_⟩
  · rw [f3]
    have : lower name ∈ d.keys := of_decide_eq_true hc
    by_cases hx : x = lower name
    · simp [hx, this]
    · simp [hx]
  · rw [f6.parentOf, hkn]
    exact (p4 _).trans (if_pos rfl)

/-- C69: nothing happens if the definition is in the category already or the category does not exist. -/
theorem C69_unmoved {d : CifDic} {name cat old : Str} {b : Block} (hb : d.getItem name = .ok b) (hcat : Has b catAttr (.str old))
    (h : lower old = lower cat ∨ d.contains cat = false) : changeCategory d name cat = (d, .ok name) := by
  unfold changeCategory
  simp only [attrI, hb, hcat.2, read, lowered]
  by_cases e : lower old = lower cat
  · rw [if_pos e]
  · rw [if_neg e, if_pos (by rcases h with h | h <;> simp_all)]

/-- C69 for a change of the name of a category. The items in it are listed without the underscore that their names begin with, so the
dictionary is in good order only if there are none. Missing: items found by their names, see `C69_underscore_fails`. -/
theorem C69_rename_partial {d d' : CifDic} (hd : Sound d) (hr : Readable d) {old new : Str} {b : Block} {u : Unit}
    (hb : d.getItem old = .ok b) (hself : ¬ InCategory d old (lower old))
    (hfresh : ∀ c ∈ d.keys, InCategory d old c → ∀ b, d.getItem c = .ok b → ∀ o, Has b objAttr (.str o) →
      d.contains (new ++ '.' :: o) = false)
    (h : changeCategoryName d old new = (d', .ok u)) :
    Kept d' ∧ Locked d' ∧
    (∃ b', (∀ n, lower n = lower new → d'.contains n = true ∧ d'.getItem n = .ok b') ∧
      Edited b b' [(objAttr, .str new), (idAttr, .str new)]) ∧
    (∀ i, d.contains i = true → lower i ≠ lower old → ¬ InCategory d old (lower i) → Unchanged d d' i) ∧
    (∃ f : Str → Str,
      (∀ c ∈ d.keys, InCategory d old c → ∃ b b', d.getItem c = .ok b ∧ Child new c (f c) b b' ∧
        ∀ n, lower n = f c → d'.contains n = true ∧ d'.getItem n = .ok b') ∧
      ∀ x, x ∈ d'.keys ↔ x = lower new ∨ (x ∈ d.keys ∧ x ≠ lower old ∧ ¬ InCategory d old x) ∨
        ∃ c ∈ d.keys, InCategory d old c ∧ x = f c) ∧
    ((∀ c ∈ d.keys, InCategory d old c → ∀ b, d.getItem c = .ok b → ¬ IsItem b) → Sound d') := by
  unfold changeCategoryName at h
  obtain ⟨d1, e1, l1, v1⟩ := hd.toKept.overwriteAll true
  rw [show unlock d = (d1, .ok ()) from e1, seq_ok] at h
  have k1 := l1.kept hd.toKept
  split at h
  · cases h
  rename_i hc1
  have hc1 : d1.contains old = true := by simpa using hc1
  have hc : d.contains old = true := by rw [← l1.contains]; exact hc1
  split at h
  · cases h
  rename_i hn1
  have hn1 : d1.contains new = false := by simpa using hn1
  have hn : d.contains new = false := by rw [← l1.contains]; exact hn1
  have hkeys1 : d1.keys = d.keys := by unfold keys; rw [l1.table]
  have hok : lower old ∈ d.keys := of_decide_eq_true hc
  have hgi : ∀ c ∈ d.keys, ∀ bb, d.getItem c = .ok bb → d1.getItem c = .ok { bb with overwrite := true } := by
    intro c hck bb hbb
    have hl := hd.low c hck
    have hcc : d.contains c = true := by simp only [contains, hl, decide_eq_true_eq]; exact hck
    refine (k1.getItem_look (by rw [l1.contains]; exact hcc)).2 ?_
    rw [v1, (hd.toKept.getItem_look hcc).1 hbb]
    rfl
  have hr1 : Readable d1 := by
    refine ⟨by rw [hkeys1]; exact hr.nodup, by rw [hkeys1]; exact hr.low, by rw [hkeys1]; exact hr.named, fun a ha => ?_⟩
    rw [hkeys1] at ha
    obtain ⟨bb, hbb, hp⟩ := hr.found a ha
    exact ⟨_, hgi a ha bb hbb, hp⟩
  have hin : ∀ c ∈ d.keys, (InCategory d1 (lower old) c ↔ InCategory d old c) := by
    intro c hck
    obtain ⟨bb, hbb, hp⟩ := hr.found c hck
    unfold InCategory
    rw [hbb, hgi c hck bb hbb]
    constructor
    · rintro ⟨x, s, e, hx, hs⟩
      injection e with e
      subst e
      exact ⟨bb, s, rfl, hx, hs.trans (CaseFold.lower_lower _)⟩
    · rintro ⟨x, s, e, hx, hs⟩
      injection e with e
      subst e
      exact ⟨_, s, rfl, hx, hs.trans (CaseFold.lower_lower _).symm⟩
  have hkid : ∀ c, c ∈ kids d1 (lower old) ↔ c ∈ d.keys ∧ InCategory d old c := by
    intro c
    rw [mem_kids hr1 (CaseFold.lower_lower _) (hr.named _ hok), hkeys1]
    exact ⟨fun ⟨h1, h2⟩ => ⟨h1, (hin c h1).1 h2⟩, fun ⟨h1, h2⟩ => ⟨h1, (hin c h1).2 h2⟩⟩
  have hkn : (kids d1 (lower old)).Nodup := by
    unfold kids
    split
    · exact hr1.nodup.filter _
    · exact List.nodup_nil
  rw [immediate_eq hr1] at h
  obtain ⟨ch, hch, h⟩ := read_inv h
  injection hch with hch
  subst hch
  obtain ⟨d2, u2, h2, h⟩ := seq_inv h
  obtain ⟨d3, u3, h3, h⟩ := seq_inv h
  obtain ⟨d4, u4, h4, h⟩ := seq_inv h
  obtain ⟨d5, u5, h5, h6⟩ := seq_inv h
  have hbl := (hd.toKept.getItem_look hc).1 hb
  obtain ⟨k2, _, _, v2, _, _, t2⟩ := k1.rename hc1 hn1 h2
  have hb2 : look d2 (lower new) = some { b with overwrite := true } := by
    rw [v2, if_pos rfl, v1, hbl]; rfl
  obtain ⟨l3, b3, v3, x3, _⟩ := k2.setAttr_val (contains_of_look k2 hb2) hb2 h3
  have k3 := l3.kept k2
  have hb3 : look d3 (lower new) = some b3 := by rw [v3, if_pos rfl]
  obtain ⟨l4, b4, v4, x4, _⟩ := k3.setAttr_val (contains_of_look k3 hb3) hb3 h4
  have k4 := l4.kept k3
  have hnk : lower new ∉ d.keys := by
    intro e
    simp [contains, e] at hn
  have hv4 : ∀ i, look d4 i = if i = lower new then some b4 else if i = lower old then none else
      (look d i).map ({ · with overwrite := true }) := by
    intro i
    rw [v4]
    split
    · rfl
    · rename_i hi
      rw [v3, if_neg hi, v2, if_neg hi]
      split
      · rfl
      · rw [v1]
  have hkeys4 : ∀ i, i ∈ d4.keys ↔ i = lower new ∨ (i ∈ d.keys ∧ i ≠ lower old) := by
    intro i
    rw [← k4.look_some, hv4, ← hd.toKept.look_some]
    by_cases e1 : i = lower new
    · simp [e1]
    · by_cases e2 : i = lower old
      · subst e2; simp [e1]
      · simp only [e1, e2, if_false, false_or, ne_eq, not_false_eq_true, and_true]
        cases look d i <;> simp
  have hcl : ∀ c ∈ kids d1 (lower old), c ∈ d.keys ∧ c ≠ lower old ∧ c ≠ lower new ∧ InCategory d old c := by
    intro c hcm
    obtain ⟨h1, h2⟩ := (hkid c).1 hcm
    exact ⟨h1, fun e => hself (e ▸ h2), fun e => hnk (e ▸ h1), h2⟩
  have hlk : ∀ c ∈ d.keys, ∀ bb, look d c = some bb ↔ d.getItem c = .ok bb := by
    intro c hck bb
    have hl := hd.low c hck
    rw [hd.toKept.getItem_look (by simp only [contains, hl, decide_eq_true_eq]; exact hck), hl]
  have hover : ∀ c ∈ kids d1 (lower old), ∀ b4, look d4 c = some b4 → ∃ bb, d.getItem c = .ok bb ∧ b4 = { bb with overwrite := true } := by
    intro c hcm bx hbx
    obtain ⟨g1, g2, g3, _⟩ := hcl c hcm
    rw [hv4, if_neg g3, if_neg g2] at hbx
    cases hl : look d c with
    | none => rw [hl] at hbx; cases hbx
    | some bb =>
      rw [hl] at hbx
      injection hbx with hbx
      exact ⟨bb, (hlk c g1 bb).1 hl, hbx.symm⟩
  have hnl4 : lower new ∈ d4.coll.lowerKeys := by
    rw [l4.coll, l3.coll]
    exact (k2.blocks (lower new) new (by rw [t2, if_pos rfl])).1
  obtain ⟨k5, f, hf1, hf2, hf3⟩ := each_recategorise (kids d1 (lower old)) k4 hkn
    (fun c hcm => (hkeys4 c).2 (.inr ⟨(hcl c hcm).1, (hcl c hcm).2.1⟩))
    (fun c hcm bx hbx o ho hm => by
      obtain ⟨bb, hbb, rfl⟩ := hover c hcm bx hbx
      rcases (hkeys4 _).1 hm with e | ⟨e, _⟩
      · rw [e]; exact hnl4
      · have := hfresh c (hcl c hcm).1 (hcl c hcm).2.2.2 bb hbb o ho
        simp [contains, e] at this) h5
  obtain ⟨d6, e6, l6, v6⟩ := k5.overwriteAll false
  have : d' = d6 := (Prod.mk.inj ((h6.symm.trans e6 : (d', Except.ok u) = (d6, .ok ())))).1
  subst this
  have k6 := l6.kept k5
  have hkeys6 : d'.keys = d5.keys := by unfold keys; rw [l6.table]
  have hfound : ∀ i bx, look d5 i = some bx → ∀ n, lower n = i → d'.contains n = true ∧ d'.getItem n = .ok { bx with overwrite := false } := by
    intro i bx hbx n hni
    have hl6 : look d' (lower n) = some { bx with overwrite := false } := by rw [hni, v6, hbx]; rfl
    have := contains_of_look k6 hl6
    exact ⟨this, (k6.getItem_look this).2 hl6⟩
  have hnew : look d5 (lower new) = some b4 := by
    rw [(hf2 (lower new) ((hkeys4 _).2 (.inl rfl)) (fun e => (hcl _ e).2.2.1 rfl)).1, hv4, if_pos rfl]
  have hed : Edited b { b4 with overwrite := false } [(objAttr, .str new), (idAttr, .str new)] := by
    refine edited_of_val nodup_objid (fun p hp => not_saves_rename p.1 (by
      have : p.1 ∈ [objAttr, idAttr] := List.mem_map.2 ⟨p, hp, rfl⟩
      revert this; simp; intro h; rcases h with h | h <;> simp [h])) (fun x => ?_)
    rw [(sameDef_overwrite b4 false).val, x4, x3]
    rfl
  have hother : ∀ i ∈ d.keys, i ≠ lower old → ¬ InCategory d old i → look d5 i = (look d i).map ({ · with overwrite := true }) := by
    intro i hi h1 h2
    rw [(hf2 i ((hkeys4 _).2 (.inr ⟨hi, h1⟩)) (fun e => h2 ((hkid i).1 e).2)).1, hv4, if_neg (fun e : i = lower new => hnk (e ▸ hi)), if_neg h1]
  have hchild : ∀ c ∈ d.keys, InCategory d old c → ∃ bb b', d.getItem c = .ok bb ∧ look d5 (f c) = some b' ∧ Child new c (f c) bb b' := by
    intro c hck hci
    have hcm := (hkid c).2 ⟨hck, hci⟩
    obtain ⟨bx, b', g1, g2, g3⟩ := hf1 c hcm
    obtain ⟨bb, hbb, rfl⟩ := hover c hcm bx g1
    exact ⟨bb, b', hbb, g2, g3⟩
  refine ⟨k6, fun i bx hci hg => ?_, ⟨_, hfound _ _ hnew, hed⟩, fun i hi h1 h2 => unchanged_if hd.toKept k6 hi fun bx hbx => ?_,
    ⟨f, fun c hck hci => ?_, fun x => ?_⟩, fun hno => ?_⟩
  · rw [k6.getItem_look hci, v6] at hg
    cases hl : look d5 (lower i) with
    | none => rw [hl] at hg; cases hg
    | some b0 =>
      rw [hl] at hg
      injection hg with hg
      rw [← hg]
  · exact ⟨_, by rw [v6, hother _ (of_decide_eq_true hi) h1 h2, hbx]; rfl, sameDef_overwrite bx false⟩
  · obtain ⟨bb, b', g1, g2, g3⟩ := hchild c hck hci
    exact ⟨bb, _, g1, g3.overwrite, hfound _ _ g2⟩
  · rw [hkeys6, hf3, hkeys4]
    constructor
    · rintro (⟨rfl | ⟨h1, h2⟩, h3⟩ | ⟨c, hcm, rfl⟩)
      · exact .inl rfl
      · exact .inr (.inl ⟨h1, h2, fun e => h3 ((hkid x).2 ⟨h1, e⟩)⟩)
      · exact .inr (.inr ⟨c, (hcl c hcm).1, (hcl c hcm).2.2.2, rfl⟩)
    · rintro (rfl | ⟨h1, h2, h3⟩ | ⟨c, hck, hci, rfl⟩)
      · exact .inl ⟨.inl rfl, fun e => (hcl _ e).2.2.1 rfl⟩
      · exact .inl ⟨.inr ⟨h1, h2⟩, fun e => h3 ((hkid x).1 e).2⟩
      · exact .inr ⟨c, (hkid c).2 ⟨hck, hci⟩, rfl⟩
  · refine sound_if hd k6 fun i bx hbx => ?_
    have hik : i ∈ d5.keys := by rw [← hkeys6]; exact k6.look_some.1 ⟨bx, hbx⟩
    rw [v6] at hbx
    rcases (hf3 i).1 hik with ⟨hi4, hil⟩ | ⟨c, hcm, rfl⟩
    · rcases (hkeys4 i).1 hi4 with rfl | ⟨h1, h2⟩
      · rw [hnew] at hbx
        injection hbx with hbx
        subst hbx
        have hid := val_of_has (hed.1 (idAttr, .str new) (by simp))
        rw [low_id] at hid
        exact .inr ⟨new, hid, rfl⟩
      · rw [hother i h1 h2 (fun e => hil ((hkid i).2 ⟨h1, e⟩))] at hbx
        cases hl : look d i with
        | none => rw [hl] at hbx; cases hbx
        | some b0 =>
          rw [hl] at hbx
          injection hbx with hbx
          exact .inl ⟨b0, rfl, hbx ▸ rfl⟩
    · obtain ⟨g1, _, _, g4⟩ := hcl c hcm
      obtain ⟨bb, b', p1, p2, p3⟩ := hchild c g1 g4
      rcases p3 with ⟨p3, _⟩ | ⟨_, p4, p5⟩
      · exact absurd p3 (hno c g1 g4 bb p1)
      · rw [p2] at hbx
        injection hbx with hbx
        subst hbx
        obtain ⟨s, hs, es⟩ := hd.look_id ((hlk c g1 bb).2 p1)
        refine .inr ⟨s, ?_, es.trans p4.symm⟩
        have := p5.2 idAttr (by
          intro p hp
          simp at hp
          subst hp
          show lower idAttr ≠ lower catAttr
          rw [low_id, low_cat]
          decide)
        rw [Block.lookup_val _ _ (by decide), Block.lookup_val _ _ (by decide), low_id] at this
        exact this.trans hs

/-- A definition of the sample, with attributes read from it. -/
theorem editDic_has {i : Str} (hi : letI := asciiFold; i ∈ (editDic 0).keys) : letI := asciiFold
    ∃ b, (editDic 0).getItem i = .ok b ∧ ∀ a v, a ≠ Block.saves →
      ((editDic 0).getItem i).toOption.bind (fun b => b.val (lower a)) = some v → Has b a v := by
  letI := asciiFold
  obtain ⟨b, s, h1, _, _⟩ := editDic_sound.ids i hi
  refine ⟨b, h1, fun a v ha h => has_of_val ha ?_⟩
  rw [h1] at h
  exact h

/-- Where only `top` encloses other blocks, nothing else is within a block. -/
theorem flat_within {d : CifDic} {top a x : Str} (h : (d.coll.childTable.all fun p => decide (p.2.parent = none ∨ p.2.parent = some top)) = true)
    (ha : a ≠ top) (hx : x ≠ a) : ¬ Coll.Within d.coll a x := by
  have key : ∀ y, Coll.parentOf d.coll y ≠ some a := by
    intro y hy
    simp only [List.all_eq_true, decide_eq_true_eq] at h
    unfold Coll.parentOf at hy
    cases hg : dget d.coll.childTable y with
    | none => rw [hg] at hy; cases hy
    | some pc =>
      rw [hg] at hy
      have hy : pc.parent = some a := hy
      rcases h _ (dget_mem hg) with e | e
      · have e : pc.parent = none := e
        rw [hy] at e; exact Option.some_ne_none _ e
      · have e : pc.parent = some top := e
        rw [hy] at e; exact ha (Option.some.inj e)
  rintro (e | hu)
  · exact hx e
  · have : ∀ z, ¬ Coll.Under d.coll a z := by
      intro z hz
      induction hz with
      | child h => exact key _ h
      | deeper _ _ ih => exact ih
    exact this _ hu

theorem has_str {b : Block} {a s t : Str} (h : Has b a (.str s)) (h' : Has b a (.str t)) : s = t :=
  PyVal.str.inj (Except.ok.inj (h.2.symm.trans h'.2))

/-- The object name is changed. -/
example : letI := asciiFold
    ∃ d', changeName (editDic 0) "_cell.length_a".toList "length_c".toList = (d', .ok "_cell.length_c".toList) ∧ Sound d' ∧ Locked d' ∧
      Unchanged (editDic 0) d' "_cell.length_b".toList := by
  letI := asciiFold
  have h := fst_eq (r := changeName (editDic 0) "_cell.length_a".toList "length_c".toList) (v := "_cell.length_c".toList) (by decide +kernel)
  obtain ⟨b, hb, hh⟩ := editDic_has (i := "_cell.length_a".toList) (by decide +kernel)
  have ht : ((editDic 0).getItem "_cell.length_a".toList).toOption.map (fun b => b.contains titleAttr) = some false := by decide +kernel
  rw [hb] at ht
  obtain ⟨_, h1, h2, _, _, h5⟩ := C69_name_partial editDic_sound (by decide +kernel) hb (Option.some.inj ht)
    (hh catAttr (.str "cell".toList) (by decide) (by decide +kernel)) (by decide +kernel) h
  exact ⟨_, h, h1, h2, h5 _ (by decide +kernel) (by decide +kernel)⟩

/-- An item goes to another category. -/
example : letI := asciiFold
    ∃ d', changeCategory (editDic 0) "_cell.length_a".toList "Angle".toList = (d', .ok "_Angle.length_a".toList) ∧ Sound d' ∧ Locked d' ∧
      Unchanged (editDic 0) d' "_cell.length_b".toList ∧ Coll.parentOf d'.coll (lower "_Angle.length_a".toList) = some (lower "Angle".toList) := by
  letI := asciiFold
  have h := fst_eq (r := changeCategory (editDic 0) "_cell.length_a".toList "Angle".toList) (v := "_Angle.length_a".toList) (by decide +kernel)
  obtain ⟨b, hb, hh⟩ := editDic_has (i := "_cell.length_a".toList) (by decide +kernel)
  have ht : ((editDic 0).getItem "_cell.length_a".toList).toOption.map (fun b => b.contains scopeAttr) = some false := by decide +kernel
  rw [hb] at ht
  have hobj := hh objAttr (.str "length_a".toList) (by decide) (by decide +kernel)
  have hcons := editDic_sound.cons
  obtain ⟨_, h1, h2, _, _, h5, h6⟩ := C69_item_partial editDic_sound (cat := "Angle".toList) (k := "cell.length_a".toList) (by decide +kernel) hb
    (hh catAttr (.str "cell".toList) (by decide) (by decide +kernel)) (by decide +kernel) (.inl (Option.some.inj ht)) (by decide +kernel)
    (by decide +kernel) (flat_within (top := "demo".toList) (by decide +kernel) (by decide +kernel) (by decide +kernel))
    (fun o ho => by
      rw [has_str ho hobj]
      decide +kernel) h
  exact ⟨_, h, h1, h2, h5 _ (by decide +kernel) (by decide +kernel), h6⟩

/-- A category goes to another category, with everything in it. -/
example : letI := asciiFold
    ∃ d', changeCategory (editDic 0) "ANGLE".toList "HEAD".toList = (d', .ok "ANGLE".toList) ∧ Sound d' ∧ Locked d' ∧
      Unchanged (editDic 0) d' "_angle.alpha".toList ∧ Coll.parentOf d'.coll (lower "ANGLE".toList) = some (lower "HEAD".toList) := by
  letI := asciiFold
  have h := fst_eq (r := changeCategory (editDic 0) "ANGLE".toList "HEAD".toList) (v := "ANGLE".toList) (by decide +kernel)
  obtain ⟨b, hb, hh⟩ := editDic_has (i := "angle".toList) (by decide +kernel)
  have hb' : (editDic 0).getItem "ANGLE".toList = .ok b := by
    rw [← hb]; decide +kernel
  obtain ⟨_, h1, h2, _, _, h5, h6⟩ := C69_category_partial editDic_sound (cat := "HEAD".toList) (k := "angle".toList) (by decide +kernel) hb'
    (hh catAttr (.str "Cell".toList) (by decide) (by decide +kernel)) (by decide +kernel)
    (hh scopeAttr (.str "Category".toList) (by decide) (by decide +kernel)) (by decide) (by decide +kernel)
    (by decide +kernel) (flat_within (top := "demo".toList) (by decide +kernel) (by decide +kernel) (by decide +kernel)) h
  exact ⟨_, h, h1, h2, h5 _ (by decide +kernel) (by decide +kernel), h6⟩

/-- Nothing to do. -/
example : letI := asciiFold
    outcome (changeCategory (editDic 0) "ANGLE".toList "cell".toList) = .ok "ANGLE".toList ∧
    outcome (changeCategory (editDic 0) "ANGLE".toList "atom".toList) = .ok "ANGLE".toList := by
  letI := asciiFold
  exact ⟨by decide +kernel, by decide +kernel⟩

section Samples
attribute [local instance] asciiFold

/-- The object name of a definition makes no name in use. -/
def freshIn (d : CifDic) (new : Str) : Except PyErr Block → Bool
  | .ok b =>
    match b.getItem objAttr with
    | .ok (.str o) => !d.contains (new ++ '.' :: o)
    | _ => true
  | .error _ => true

/-- A category in a block of another name. -/
def blockFrames : List (String × List (String × String)) :=
  [("HEAD", [("_definition.id", "HEAD"), ("_definition.scope", "Category"), ("_definition.class", "Head")]),
   ("block1", [("_definition.id", "CELL"), ("_definition.scope", "Category"), ("_name.category_id", "HEAD"), ("_name.object_id", "CELL")]),
   ("block2", [("_definition.id", "_angle.alpha"), ("_name.category_id", "angle"), ("_name.object_id", "alpha")])]

end Samples

/-- A category is renamed. -/
example : letI := asciiFold
    ∃ d', changeCategoryName (editDic 0) "Cell".toList "Lattice".toList = (d', .ok ()) ∧ Kept d' ∧ Locked d' ∧
      Unchanged (editDic 0) d' "_angle.alpha".toList ∧
      d'.keys = ["head".toList, "angle".toList, "_angle.alpha".toList, "lattice".toList, "lattice.length_a".toList, "lattice.length_b".toList] := by
  letI := asciiFold
  have h := fst_eq (r := changeCategoryName (editDic 0) "Cell".toList "Lattice".toList) (v := ()) (by decide +kernel)
  obtain ⟨b, hb, hh⟩ := editDic_has (i := "cell".toList) (by decide +kernel)
  have hb' : (editDic 0).getItem "Cell".toList = .ok b := by
    rw [← hb]; decide +kernel
  have hin : ∀ c ∈ (editDic 0).keys, InCategory (editDic 0) "Cell".toList c → catOf (editDic 0) c = "cell".toList := by
    intro c hc hi
    obtain ⟨bc, hbc, hp⟩ := editDic_readable.found c hc
    exact ((inCategory_iff hbc hp (by decide +kernel)).1 hi).trans (by decide +kernel)
  obtain ⟨h1, h2, _, h4, _⟩ := C69_rename_partial editDic_sound editDic_readable hb'
    (fun hi => absurd (hin _ (by decide +kernel) hi) (by decide +kernel)) (by
      intro c hc _ bc hbc o ho
      have hall : ((editDic 0).keys.all fun c => freshIn (editDic 0) "Lattice".toList ((editDic 0).getItem c)) = true := by decide +kernel
      have := List.all_eq_true.1 hall c hc
      rw [hbc] at this
      simp only [freshIn, ho.2] at this
      simpa using this) h
  exact ⟨_, h, h1, h2, h4 _ (by decide +kernel) (by decide +kernel)
    (fun hi => absurd (hin _ (by decide +kernel) hi) (by decide +kernel)), by decide +kernel⟩

/-- C69 fails for a new name that another definition has: that definition can no longer be found. -/
theorem C69_hidden_fails : letI := asciiFold
    Sound (editDic 0) ∧ (editDic 0).contains "_cell.length_b".toList = true ∧
    outcome (changeName (editDic 0) "_cell.length_a".toList "length_b".toList) = .ok "_cell.length_b".toList ∧
    attrAfter (changeName (editDic 0) "_cell.length_a".toList "length_b".toList) "_cell.length_b" "_description.text".toList =
      .ok (.str "The first edge.".toList) := by
  letI := asciiFold
  exact ⟨editDic_sound, by decide +kernel, by decide +kernel, by decide +kernel⟩

/-- C69 fails for the name that the definition has already: it can no longer be found. -/
theorem C69_same_fails : letI := asciiFold
    Sound (editDic 0) ∧ outcome (changeName (editDic 0) "_cell.length_a".toList "length_a".toList) = .ok "_cell.length_a".toList ∧
    (changeName (editDic 0) "_cell.length_a".toList "length_a".toList).1.contains "_cell.length_a".toList = false := by
  letI := asciiFold
  exact ⟨editDic_sound, by decide +kernel, by decide +kernel⟩

/-- C69 fails for the enclosing block, whose name is the one of the dictionary: it cannot be changed, and the dictionary stays open
to changes. -/
theorem C69_title_fails : letI := asciiFold
    Sound (editDic 0) ∧ (editDic 0).getItem "Demo".toList = .ok (itemsBlock [("_dictionary.title", "DEMO")]) ∧
    outcome (changeName (editDic 0) "Demo".toList "Other".toList) = .error .key ∧
    ¬ Locked (changeName (editDic 0) "Demo".toList "Other".toList).1 := by
  letI := asciiFold
  refine ⟨editDic_sound, by decide +kernel, by decide +kernel, fun hl => ?_⟩
  have h : (((changeName (editDic 0) "Demo".toList "Other".toList).1.getItem "cell".toList).toOption.map fun b => b.overwrite) = some true := by
    decide +kernel
  cases hg : (changeName (editDic 0) "Demo".toList "Other".toList).1.getItem "cell".toList with
  | error e => rw [hg] at h; cases h
  | ok b =>
    rw [hg] at h
    have h : b.overwrite = true := Option.some.inj h
    exact absurd (hl _ b (by decide +kernel) hg) (by simp [h])

/-- C69 fails for a category that goes into one below it: from then on the search for what is below it never ends. -/
theorem C69_cycle_fails : letI := asciiFold
    Sound (editDic 0) ∧ Acyclic (editDic 0) ∧ outcome (changeCategory (editDic 0) "CELL".toList "ANGLE".toList) = .ok "CELL".toList ∧
    allChildren (changeCategory (editDic 0) "CELL".toList "ANGLE".toList).1 "cell".toList = .error .depth := by
  letI := asciiFold
  exact ⟨editDic_sound, editDic_acyclic, by decide +kernel, by decide +kernel⟩

/-- C69 fails for a category kept in a block that is not named like it: nothing can be moved there, and what was done up to then
stays. -/
theorem C69_block_fails : letI := asciiFold
    outcome (changeCategory (framesDic blockFrames) "_angle.alpha".toList "CELL".toList) = .error .key ∧
    (framesDic blockFrames).keys = ["head".toList, "cell".toList, "_angle.alpha".toList] ∧
    (changeCategory (framesDic blockFrames) "_angle.alpha".toList "CELL".toList).1.keys = ["head".toList, "cell".toList, "_cell.alpha".toList] := by
  letI := asciiFold
  exact ⟨by decide +kernel, by decide +kernel, by decide +kernel⟩

/-- C69 fails for the items of a category that is renamed: their names are not in the dictionary. -/
theorem C69_underscore_fails : letI := asciiFold
    Sound (editDic 0) ∧ outcome (changeCategoryName (editDic 0) "ANGLE".toList "Corner".toList) = .ok () ∧
    attrAfter (changeCategoryName (editDic 0) "ANGLE".toList "Corner".toList) "Corner.alpha" idAttr = .ok (.str "_Corner.alpha".toList) ∧
    (changeCategoryName (editDic 0) "ANGLE".toList "Corner".toList).1.contains "_Corner.alpha".toList = false := by
  letI := asciiFold
  exact ⟨editDic_sound, by decide +kernel, by decide +kernel, by decide +kernel⟩

end Verif.CifDic
