import Verif.Spec.EditDic
import Verif.Lemmas.CifDicTree
import Verif.Lemmas.BlockValue
/-! Helper lemmas about the editing of dictionaries. -/
set_option linter.unusedSectionVars false
namespace Verif.CifDic
open Validate
variable [CaseFold]

theorem seq_ok {α β : Type} (d : CifDic) (a : α) (f : CifDic → α → CifDic × Except PyErr β) : seq (d, .ok a) f = f d a := rfl

theorem seq_inv {α β : Type} {r : CifDic × Except PyErr α} {f : CifDic → α → CifDic × Except PyErr β} {d' : CifDic} {v : β}
    (h : seq r f = (d', .ok v)) : ∃ d1 a, r = (d1, .ok a) ∧ f d1 a = (d', .ok v) := by
  obtain ⟨d1, x⟩ := r
  cases x with
  | error e => simp [seq] at h
  | ok a => exact ⟨d1, a, rfl, h⟩

theorem read_inv {α β : Type} {d : CifDic} {r : Except PyErr α} {f : α → CifDic × Except PyErr β} {d' : CifDic} {v : β}
    (h : read d r f = (d', .ok v)) : ∃ a, r = .ok a ∧ f a = (d', .ok v) := by
  cases r with
  | error e => simp [read] at h
  | ok a => exact ⟨a, rfl, h⟩

/-! ## Looking up -/

/-- The definition with a lower-case identifier. -/
def look (d : CifDic) (i : Str) : Option Block := (dget d.table i).bind fun k => dget d.coll.dict (lower k)

theorem Kept.byId {d : CifDic} (h : Kept d) {key k : Str} (hk : dget d.table (lower key) = some k) :
    ∃ b, dget d.coll.dict (lower k) = some b ∧ d.getItem key = .ok b ∧ locate d key = some (lower k) ∧ look d (lower key) = some b := by
  have hm := (h.blocks _ _ hk).1
  obtain ⟨b, hb⟩ := dget_isSome.mpr ((h.cons.mem_dict _).mpr hm)
  have e : CifDic.byId d key = .ok b := by
    simp only [CifDic.byId, hk, Coll.getItem, hm, if_true, hb]
  refine ⟨b, hb, by simp only [CifDic.getItem, e], by simp only [locate, e, hk, Option.map_some], ?_⟩
  simp only [look, hk, Option.bind_some, hb]

theorem contains_iff {d : CifDic} {key : Str} : d.contains key = true ↔ ∃ k, dget d.table (lower key) = some k := by
  rw [dget_isSome]
  exact decide_eq_true_iff

theorem Kept.getItem_look {d : CifDic} (h : Kept d) {key : Str} (hc : d.contains key = true) {b : Block} :
    d.getItem key = .ok b ↔ look d (lower key) = some b := by
  obtain ⟨k, hk⟩ := contains_iff.1 hc
  obtain ⟨b', _, h2, _, h4⟩ := h.byId hk
  rw [h2, h4]
  simp

theorem Kept.look_some {d : CifDic} (h : Kept d) {i : Str} : (∃ b, look d i = some b) ↔ i ∈ d.keys := by
  constructor
  · rintro ⟨b, hb⟩
    unfold look at hb
    cases hk : dget d.table i with
    | none => rw [hk] at hb; cases hb
    | some k => exact dget_isSome.1 ⟨k, hk⟩
  · intro hi
    obtain ⟨k, hk⟩ := dget_isSome.2 hi
    have hl := h.low i hi
    rw [← hl] at hk
    obtain ⟨b, _, _, _, h4⟩ := h.byId hk
    exact ⟨b, by rw [← hl]; exact h4⟩

/-- Only the contents of blocks differ. -/
structure Like (d d' : CifDic) : Prop where
  table : d'.table = d.table
  lang : d'.lang = d.lang
  imports : d'.imports = d.imports
  coll : d'.coll = { d.coll with dict := d'.coll.dict }
  dict : ∀ k, k ∈ dkeys d'.coll.dict ↔ k ∈ dkeys d.coll.dict
  nodup : (dkeys d.coll.dict).Nodup → (dkeys d'.coll.dict).Nodup

theorem Like.refl (d : CifDic) : Like d d := ⟨rfl, rfl, rfl, rfl, fun _ => .rfl, id⟩

theorem Like.trans {d d1 d2 : CifDic} (h : Like d d1) (h' : Like d1 d2) : Like d d2 :=
  ⟨h'.table.trans h.table, h'.lang.trans h.lang, h'.imports.trans h.imports, by rw [h'.coll, h.coll],
    fun k => (h'.dict k).trans (h.dict k), fun hn => h'.nodup (h.nodup hn)⟩

theorem parentOf_dict (c : Coll) (d : Dict Str Block) : Coll.parentOf { c with dict := d } = Coll.parentOf c := rfl

theorem under_dict {c : Coll} {d : Dict Str Block} {a x : Str} : Coll.Under { c with dict := d } a x ↔ Coll.Under c a x := by
  constructor
  · intro h
    induction h with
    | child hp => exact .child hp
    | deeper _ hp ih => exact .deeper ih hp
  · intro h
    induction h with
    | child hp => exact .child hp
    | deeper _ hp ih => exact .deeper ih hp

theorem consistent_dict {c : Coll} (h : c.Consistent) {d : Dict Str Block} (hn : (dkeys d).Nodup)
    (hm : ∀ k, k ∈ dkeys d ↔ k ∈ dkeys c.dict) : Coll.Consistent { c with dict := d } where
  nd_dict := hn
  nd_table := h.nd_table
  nd_keys := h.nd_keys
  nd_order := h.nd_order
  nd_visible := h.nd_visible
  mem_dict k := (hm k).trans (h.mem_dict k)
  mem_table := h.mem_table
  mem_order := h.mem_order
  lower_keys := h.lower_keys
  parents := h.parents
  acyclic k hu := h.acyclic k (under_dict.1 hu)
  visible_all := h.visible_all
  visible_top := h.visible_top

theorem Like.kept {d d' : CifDic} (h : Like d d') (hd : Kept d) : Kept d' := by
  have hc := consistent_dict hd.cons (h.nodup hd.cons.nd_dict) h.dict
  have ht := h.table
  obtain ⟨c', t', L', i'⟩ := d'
  have hco := h.coll
  simp only at hco ht hc ⊢
  subst ht
  rw [hco]
  exact ⟨hc, hd.shows, hd.refuses, hd.root, hd.nodup, hd.low, hd.blocks, hd.inj, hd.ident, hd.clash⟩

theorem Like.keys {d d' : CifDic} (h : Like d d') : d'.keys = d.keys := by unfold CifDic.keys; rw [h.table]

theorem Like.contains {d d' : CifDic} (h : Like d d') (k : Str) : d'.contains k = d.contains k := by
  unfold CifDic.contains; rw [h.keys]

/-- What writing a block through its identifier does. -/
theorem Kept.putBlock {d : CifDic} (h : Kept d) {key : Str} (hc : d.contains key = true) (b : Block) :
    Like d (putBlock d key b) ∧ ∀ i, look (CifDic.putBlock d key b) i = if i = lower key then some b else look d i := by
  obtain ⟨k, hk⟩ := contains_iff.1 hc
  obtain ⟨b0, hb0, _, hl, _⟩ := h.byId hk
  have hm : lower k ∈ dkeys d.coll.dict := dget_isSome.1 ⟨b0, hb0⟩
  have e : CifDic.putBlock d key b = { d with coll := { d.coll with dict := dset d.coll.dict (lower k) b } } := by
    simp only [CifDic.putBlock, hl]
  rw [e]
  refine ⟨⟨rfl, rfl, rfl, rfl, fun x => ?_, fun hn => nodup_dkeys_dset _ _ _ hn⟩, fun i => ?_⟩
  · simp only [mem_dkeys_dset]
    constructor
    · rintro (e | e)
      · first | exact e | (rw [e]; exact hm)
      · first | exact e | (rw [e]; exact hm)
    · intro hx
      first | exact .inr hx | exact .inl hx
  · simp only [look]
    by_cases hi : i = lower key
    · rw [if_pos hi, hi, hk]
      simp [dget_dset]
    · rw [if_neg hi]
      cases hik : dget d.table i with
      | none => rfl
      | some k' =>
        simp only [Option.bind_some]
        rw [dget_dset_ne]
        intro e
        exact hi (h.inj _ _ _ _ hik hk e.symm)

/-- What setting an attribute does, when it succeeds. -/
theorem Kept.setAttr {d d' : CifDic} (h : Kept d) {key a : Str} {v : PyVal} (hc : d.contains key = true)
    (hs : setAttr d key a v = (d', .ok ())) :
    Like d d' ∧ ∃ b b', look d (lower key) = some b ∧ b.setItem a v = (b', .ok ()) ∧
      ∀ i, look d' i = if i = lower key then some b' else look d i := by
  obtain ⟨k, hk⟩ := contains_iff.1 hc
  obtain ⟨b, hb, hg, hl, hlk⟩ := h.byId hk
  simp only [CifDic.setAttr, hg] at hs
  injection hs with h1 h2
  obtain ⟨p1, p2⟩ := h.putBlock hc (b.setItem a v).1
  rw [h1] at p1 p2
  exact ⟨p1, b, (b.setItem a v).1, hlk, by rw [← h2], p2⟩

theorem Kept.setOverwrite {d : CifDic} (h : Kept d) {key : Str} (v : Bool) (hc : d.contains key = true) :
    ∃ d', setOverwrite v d key = (d', .ok ()) ∧ Like d d' ∧
      ∀ i, look d' i = if i = lower key then (look d i).map ({ · with overwrite := v }) else look d i := by
  obtain ⟨k, hk⟩ := contains_iff.1 hc
  obtain ⟨b, hb, hg, hl, hlk⟩ := h.byId hk
  obtain ⟨p1, p2⟩ := h.putBlock hc { b with overwrite := v }
  refine ⟨_, by simp only [CifDic.setOverwrite, hg], p1, fun i => ?_⟩
  rw [p2]
  by_cases hi : i = lower key
  · rw [if_pos hi, if_pos hi, hi, hlk]; rfl
  · rw [if_neg hi, if_neg hi]

theorem eachOverwrite (v : Bool) : ∀ (l : List Str) (d : CifDic), Kept d → (∀ i ∈ l, i ∈ d.keys) →
    ∃ d', each (CifDic.setOverwrite v) d l = (d', .ok ()) ∧ Like d d' ∧
      ∀ i, look d' i = if i ∈ l then (look d i).map ({ · with overwrite := v }) else look d i
  | [], d, _, _ => ⟨d, rfl, Like.refl d, fun i => by simp⟩
  | k :: ks, d, h, hl => by
    have hk := hl k (by simp)
    have hlow := h.low k hk
    have hc : d.contains k = true := by simp only [contains, hlow, decide_eq_true_eq]; exact hk
    obtain ⟨d1, e1, l1, v1⟩ := h.setOverwrite v hc
    obtain ⟨d2, e2, l2, v2⟩ := eachOverwrite v ks d1 (l1.kept h) (fun i hi => by rw [l1.keys]; exact hl i (List.mem_cons_of_mem _ hi))
    refine ⟨d2, by rw [each, e1, seq_ok, e2], l1.trans l2, fun i => ?_⟩
    rw [v2, v1, hlow]
    by_cases h1 : i = k
    · subst h1
      by_cases h2 : i ∈ ks
      · simp only [h2, if_true, List.mem_cons, true_or]
        cases look d i <;> rfl
      · simp [h2]
    · by_cases h2 : i ∈ ks <;> simp [h1, h2]

/-- Locking or unlocking all definitions. -/
theorem Kept.overwriteAll {d : CifDic} (h : Kept d) (v : Bool) :
    ∃ d', each (CifDic.setOverwrite v) d d.keys = (d', .ok ()) ∧ Like d d' ∧
      ∀ i, look d' i = (look d i).map ({ · with overwrite := v }) := by
  obtain ⟨d', e, l, hv⟩ := eachOverwrite v d.keys d h (fun _ hi => hi)
  refine ⟨d', e, l, fun i => ?_⟩
  rw [hv]
  by_cases hi : i ∈ d.keys
  · rw [if_pos hi]
  · rw [if_neg hi]
    cases hl : look d i with
    | none => rfl
    | some b => exact absurd (h.look_some.1 ⟨b, hl⟩) hi

/-! ## Deleting a block without enclosed blocks -/

theorem delFuel_leaf {d : CifDic} {n : Nat} (hK : d.coll.Keyed) {key k : Str} (hk : dget d.table (lower key) = some k)
    (hm : lower k ∈ d.coll.lowerKeys) (hv : lower k ∈ d.coll.visible) (hch : d.coll.children (lower k) = []) :
    delFuel (n + 1) d key = ({ d with
      coll := d.coll.restrict (fun x => decide (x ≠ lower k)), table := ddel d.table (lower key) }, .ok ()) := by
  obtain ⟨b, hb⟩ := dget_isSome.mpr ((hK.mem_dict _).mpr hm)
  have hg : ∃ b, d.getItem k = .ok b := by
    have : d.coll.getItem k = .ok b := by simp only [Coll.getItem, hm, if_true, hb]
    unfold CifDic.getItem
    cases CifDic.byId d k with
    | ok b' => exact ⟨b', rfl⟩
    | error e => exact ⟨b, by simp only [this]⟩
  obtain ⟨b', hg⟩ := hg
  have hbd : baseDel (delFuel n) d k = ({ d with coll := d.coll.restrict (fun x => decide (x ≠ lower k)) }, .ok ()) := by
    simp only [baseDel, hg, hch, each, seq_ok, Coll.removeKey_eq hK hm hv]
  have hmem : lower key ∈ dkeys d.table := dget_isSome.1 ⟨k, hk⟩
  simp only [delFuel, hk, hbd, hmem, if_true]

theorem ddel_not_mem {β : Type} (t : Dict Str β) {k : Str} (h : k ∉ dkeys t) : ddel t k = t := by
  unfold ddel
  rw [List.filter_eq_self]
  intro a ha
  have : a.1 ∈ dkeys t := List.mem_map.2 ⟨a, ha, rfl⟩
  simp only [decide_eq_true_eq]
  intro e
  exact h (e ▸ this)

theorem delItem_block {d : CifDic} (hK : d.coll.Keyed) {k : Str} (hm : k ∈ d.coll.lowerKeys) (hv : k ∈ d.coll.visible)
    (hch : d.coll.children k = []) (hown : ∀ k', dget d.table k = some k' → lower k' = k) :
    delItem d k = ({ d with coll := d.coll.restrict (fun x => decide (x ≠ k)), table := ddel d.table k }, .ok ()) := by
  have hl := hK.lower_keys k hm
  cases hk : dget d.table k with
  | some k' =>
    have e := hown k' hk
    have := delFuel_leaf (n := d.coll.childTable.length) (key := k) hK (by rw [hl]; exact hk) (by rw [e]; exact hm) (by rw [e]; exact hv) (by rw [e]; exact hch)
    rw [e, hl] at this
    exact this
  | none =>
    obtain ⟨b, hb, _⟩ := Coll.getItem_ok hK hm
    have hg : d.getItem k = .ok b := by
      simp only [CifDic.getItem, CifDic.byId, hl, hk, hb]
    unfold delItem
    simp only [delFuel, hl, hk, baseDel, hg, hch, each, seq_ok, Coll.removeKey_eq hK hm hv,
      ddel_not_mem d.table (dget_eq_none.1 hk)]

/-! ## Renaming -/

theorem relinked_keyed {c : Coll} (h : c.Consistent) {old new : Str} (hnew : new ∉ c.lowerKeys) :
    Coll.Keyed { c with childTable := Coll.relinkTable c.childTable old new } := by
  have hlink : ∀ a x, Coll.Under { c with childTable := Coll.relinkTable c.childTable old new } a x → a ≠ new → Coll.Under c a x := by
    intro a x hu han
    induction hu with
    | child hp =>
      rw [Coll.parentOf_relinked] at hp
      refine .child ?_
      cases hq : Coll.parentOf c _ with
      | none => rw [hq] at hp; cases hp
      | some q =>
        rw [hq] at hp
        simp only [Coll.relink] at hp
        split at hp
        · injection hp with hp; exact absurd hp.symm han
        · exact hp
    | @deeper x y hu hp ih =>
      rw [Coll.parentOf_relinked] at hp
      refine .deeper ih ?_
      cases hq : Coll.parentOf c y with
      | none => rw [hq] at hp; cases hp
      | some q =>
        rw [hq] at hp
        simp only [Coll.relink] at hp
        split at hp
        · injection hp with hp
          subst hp
          have := Coll.under_mem hu
          simp only [Coll.dkeys_relinkTable] at this
          exact absurd ((h.mem_table _).mp this) hnew
        · exact hp
  refine ⟨h.nd_dict, ?_, h.nd_keys, h.nd_order, h.nd_visible, h.mem_dict, ?_, h.mem_order, h.lower_keys, ?_⟩
  · simp only [Coll.dkeys_relinkTable]; exact h.nd_table
  · simp only [Coll.dkeys_relinkTable]; exact h.mem_table
  · intro k hu
    by_cases hk : k = new
    · subst hk
      have := Coll.under_mem hu
      simp only [Coll.dkeys_relinkTable] at this
      exact hnew ((h.mem_table _).mp this)
    · exact h.acyclic k (hlink k k hu hk)

theorem relinked_leaf {c : Coll} (h : c.Consistent) {old new : Str} (hne : new ≠ old) :
    Coll.children { c with childTable := Coll.relinkTable c.childTable old new } old = [] := by
  rw [List.eq_nil_iff_forall_not_mem]
  intro j hj
  rw [Coll.mem_children (by simp only [Coll.dkeys_relinkTable]; exact h.nd_table)] at hj
  rw [Coll.parentOf_relinked] at hj
  exact Coll.relink_ne_old hne _ hj

theorem baseRekey_eq {d : CifDic} (h : d.coll.Consistent) {old new id : Str} (ho : old ∈ d.coll.lowerKeys) (hv : old ∈ d.coll.visible)
    (hnew : new ∉ d.coll.lowerKeys) (hown : ∀ k', dget d.table old = some k' → lower k' = old) :
    ∃ b info, dget d.coll.dict old = some b ∧ dget d.coll.childTable old = some info ∧
      baseRekey d old new id = ({ d with
        coll := d.coll.rekeyed old new b (if id = [] then info else ⟨id, info.parent⟩), table := ddel d.table old }, .ok ()) := by
  obtain ⟨b, info, hb, hi, e⟩ := Coll.rekey_eq (id := id) h ho hv hnew
  refine ⟨b, info, hb, hi, ?_⟩
  have hne : new ≠ old := fun e => hnew (e ▸ ho)
  have hlo := h.lower_keys old ho
  have hcg : d.coll.getItem old = .ok b := by simp only [Coll.getItem, hlo, ho, if_true, hb]
  have hg : d.getItem old = .ok b := by
    simp only [CifDic.getItem, CifDic.byId, hlo]
    cases hk : dget d.table old with
    | none => simp only [hcg]
    | some k' =>
      have := hown k' hk
      have hk' : d.coll.getItem k' = .ok b := by simp only [Coll.getItem, this, ho, if_true, hb]
      simp only [hk']
  have hK := relinked_keyed (old := old) h hnew
  have hdel := delItem_block (d := { d with coll := { d.coll with childTable := Coll.relinkTable d.coll.childTable old new } })
    hK ho hv (relinked_leaf h hne) hown
  have hw : ∀ x, Coll.Within { d.coll with childTable := Coll.relinkTable d.coll.childTable old new } old x ↔ x = old := by
    intro x
    rw [Coll.within_iff_head]
    constructor
    · rintro (e | ⟨j, hj, _⟩)
      · exact e
      · rw [Coll.parentOf_relinked] at hj
        exact absurd hj (Coll.relink_ne_old hne _)
    · exact Or.inl
  have hcd := Coll.delItem_eq' hK (key := old) (by rw [hlo]; exact ho)
    (by intro x hx; rw [hlo] at hx; rw [(hw x).mp hx]; exact hv)
    (P := fun x => decide (x ≠ old)) (by intro x; rw [hlo, hw]; simp)
  unfold Coll.rekey at e
  simp only [hcg, hi] at e
  rw [Coll.dupdate_moved _ _ _ h.nd_table, if_neg (Classical.not_not.mpr ((h.mem_order old).mpr ho)), hcd] at e
  simp only at e
  unfold baseRekey
  simp only [hg, hi]
  rw [Coll.dupdate_moved _ _ _ h.nd_table, if_neg (Classical.not_not.mpr ((h.mem_order old).mpr ho)), hdel, seq_ok]
  simp only
  injection e with e
  rw [← e]

theorem root_of_mem {c : Coll} (h : c.Consistent) {top : Str}
    (hm : ∀ x, x ∈ c.lowerKeys → (Coll.parentOf c x = none ↔ x = top)) (ht : top ∈ c.lowerKeys) : c.topLevel = [top] := by
  refine nodup_singleton_of (Coll.nodup_topLevel h.nd_table) fun x => ?_
  rw [Coll.mem_topLevel h.nd_table, h.mem_table]
  constructor
  · rintro ⟨h1, h2⟩; exact (hm x h1).1 h2
  · rintro rfl; exact ⟨ht, (hm x ht).2 rfl⟩

theorem Kept.top {d : CifDic} (h : Kept d) : ∃ top, d.coll.topLevel = [top] ∧ top ∈ d.coll.lowerKeys ∧
    ∀ x, x ∈ d.coll.lowerKeys → (Coll.parentOf d.coll x = none ↔ x = top) := by
  obtain ⟨top, ht⟩ := h.root
  have hm : ∀ x, x ∈ d.coll.topLevel ↔ x ∈ d.coll.lowerKeys ∧ Coll.parentOf d.coll x = none := fun x => by
    rw [Coll.mem_topLevel h.cons.nd_table, h.cons.mem_table]
  rw [ht] at hm
  refine ⟨top, ht, ((hm top).1 (by simp)).1, fun x hx => ?_⟩
  have := hm x
  simp only [List.mem_singleton] at this
  exact ⟨fun hp => this.2 ⟨hx, hp⟩, fun e => (this.1 e).2⟩

theorem Kept.visible {d : CifDic} (h : Kept d) {k : Str} (hk : k ∈ d.coll.lowerKeys) : k ∈ d.coll.visible :=
  (h.cons.visible_all h.shows k).2 hk

theorem Kept.own {d : CifDic} (h : Kept d) {k : Str} (hk : k ∈ d.coll.lowerKeys) : ∀ k', dget d.table k = some k' → lower k' = k :=
  fun k' hk' => h.clash k k' hk' hk

theorem Kept.rename {d d' : CifDic} (h : Kept d) {old new : Str} (hc : d.contains old = true) (hn : d.contains new = false)
    (hr : rename d old new = (d', .ok ())) :
    Kept d' ∧ d'.imports = d.imports ∧ (∀ i, i ∈ d'.keys ↔ (i ∈ d.keys ∧ i ≠ lower old) ∨ i = lower new) ∧
      (∀ i, look d' i = if i = lower new then look d (lower old) else if i = lower old then none else look d i) ∧
      lower new ∉ d.coll.lowerKeys ∧
      (∃ k b info, dget d.table (lower old) = some k ∧ d'.coll = d.coll.rekeyed (lower k) (lower new) b info ∧
        info.parent = Coll.parentOf d.coll (lower k)) ∧
      (∀ i, dget d'.table i = if i = lower new then some new else if i = lower old then none else dget d.table i) := by
  obtain ⟨k, hk⟩ := contains_iff.1 hc
  have hnk : lower new ∉ d.keys := by simpa [contains] using hn
  have hne : lower new ≠ lower old := fun e => hnk (e ▸ dget_isSome.1 ⟨k, hk⟩)
  obtain ⟨hbm, hbp⟩ := h.blocks _ _ hk
  have hll : lower (lower k) = lower k := CaseFold.lower_lower k
  simp only [CifDic.rename, hk, if_true] at hr
  obtain ⟨d1, u, h1, h2⟩ := seq_inv hr
  unfold baseRename at h1
  split at h1
  · cases h1
  rename_i hnew
  obtain ⟨b, info, hb, hi, e⟩ := baseRekey_eq (id := new) h.cons hbm (h.visible hbm) hnew (h.own hbm)
  rw [e] at h1
  have hd1 := (Prod.mk.inj h1).1
  clear h1 e
  subst hd1
  have hd' := (Prod.mk.inj h2).1
  clear h2
  subst hd'
  generalize hinfo : (if new = [] then info else ⟨new, info.parent⟩ : PC) = info'
  have hip : info'.parent = Coll.parentOf d.coll (lower k) := by
    rw [← hinfo, Coll.parentOf, hi]
    split <;> rfl
  have hlow : lower (lower new) = lower new := CaseFold.lower_lower new
  have hcons := h.cons.rekeyed (b := b) (info := info') hbm (h.visible hbm) hnew hlow hip
  have hnt : lower new ∉ dkeys d.coll.childTable := fun hm => hnew ((h.cons.mem_table _).1 hm)
  -- the table
  have hnone : ∀ i, i = lower k → i ≠ lower old → dget d.table i = none := by
    intro i hi hio
    cases hx : dget d.table i with
    | none => rfl
    | some k' =>
      have e1 := h.clash i k' hx (hi ▸ hbm)
      exact absurd (h.inj _ _ _ _ hx hk (e1.trans hi)) hio
  have htab : ∀ i, dget (ddel (dset (ddel d.table (lower k)) (lower new) new) (lower old)) i =
      if i = lower new then some new else if i = lower old then none else dget d.table i := by
    intro i
    have := hnone i
    rw [dget_ddel, dget_dset, dget_ddel]
    grind
  have hkeys : ∀ i, i ∈ dkeys (ddel (dset (ddel d.table (lower k)) (lower new) new) (lower old)) ↔
      (i ∈ d.keys ∧ i ≠ lower old) ∨ i = lower new := by
    intro i
    rw [← dget_isSome, htab]
    by_cases i1 : i = lower new
    · simp [i1]
    · by_cases i2 : i = lower old
      · simp [i2, hne.symm]
      · simp only [i1, i2, if_false, or_false]
        rw [dget_isSome]
        simp [keys, i2]
  have hpar := Coll.parentOf_rekeyed (b := b) (info := info') (old := lower k) hnt
  have hmk : ∀ x, x ∈ (d.coll.rekeyed (lower k) (lower new) b info').lowerKeys ↔ (x ∈ d.coll.lowerKeys ∧ x ≠ lower k) ∨ x = lower new := by
    intro x
    simp [Coll.rekeyed]
  have hrel : ∀ x, Coll.relink (lower k) (lower new) (Coll.parentOf d.coll x) = none ↔ Coll.parentOf d.coll x = none := by
    intro x
    cases Coll.parentOf d.coll x with
    | none => simp [Coll.relink]
    | some p => simp only [Coll.relink]; split <;> simp
  have hpn : ∀ x, x ≠ lower k → x ≠ lower new → (Coll.parentOf (d.coll.rekeyed (lower k) (lower new) b info') x = none ↔
      Coll.parentOf d.coll x = none) := by
    intro x h1 h2
    rw [hpar, if_neg h2, if_neg h1, hrel]
  have hold : ∀ i k', dget d.table i = some k' → i ≠ lower old → lower k' ≠ lower k :=
    fun i k' hx hio e => hio (h.inj _ _ _ _ hx hk e)
  have hnewk : ∀ i k', dget d.table i = some k' → lower k' ≠ lower new :=
    fun i k' hx e => hnew (e ▸ (h.blocks _ _ hx).1)
  have hget : ∀ i k', dget (ddel (dset (ddel d.table (lower k)) (lower new) new) (lower old)) i = some k' →
      (i = lower new ∧ k' = new) ∨ (i ≠ lower new ∧ i ≠ lower old ∧ dget d.table i = some k') := by
    intro i k' hx
    rw [htab] at hx
    split at hx
    · rename_i e; injection hx with hx; exact .inl ⟨e, hx.symm⟩
    · rename_i e
      split at hx
      · cases hx
      · rename_i e'; exact .inr ⟨e, e', hx⟩
  refine ⟨⟨hcons, h.shows, h.refuses, ?_, ?_, ?_, ?_, ?_, ?_, ?_⟩, rfl, hkeys, ?_, hnew, ⟨k, b, info', hk, rfl, hip⟩, htab⟩
  · obtain ⟨top, _, htm, ht⟩ := h.top
    have htk : top ≠ lower k := fun e => hbp ((ht _ hbm).2 e.symm)
    refine ⟨top, root_of_mem hcons (fun x hx => ?_) ((hmk top).2 (.inl ⟨htm, htk⟩))⟩
    rcases (hmk x).1 hx with ⟨x1, x2⟩ | rfl
    · rw [hpn x x2 (fun e => hnew (e ▸ x1)), ht x x1]
    · rw [hpar, if_pos rfl, hip]
      exact ⟨fun e => absurd e hbp, fun e => absurd (e ▸ htm) hnew⟩
  · exact nodup_dkeys_ddel _ _ (nodup_dkeys_dset _ _ _ (nodup_dkeys_ddel _ _ h.nodup))
  · intro i hi
    rcases (hkeys i).1 hi with ⟨h1, _⟩ | rfl
    · exact h.low i h1
    · exact hlow
  · intro i k' hx
    rcases hget i k' hx with ⟨rfl, rfl⟩ | ⟨i1, i2, hx⟩
    · refine ⟨(hmk _).2 (.inr rfl), ?_⟩
      rw [hpar, if_pos rfl, hip]
      exact hbp
    · obtain ⟨b1, b2⟩ := h.blocks _ _ hx
      refine ⟨(hmk _).2 (.inl ⟨b1, hold _ _ hx i2⟩), ?_⟩
      rw [Ne, hpn _ (hold _ _ hx i2) (hnewk _ _ hx)]
      exact b2
  · intro i i' k1 k2 hx hx' e
    rcases hget _ _ hx with ⟨e1, e2⟩ | ⟨i1, i2, hx⟩ <;> rcases hget _ _ hx' with ⟨e1', e2'⟩ | ⟨i1', i2', hx'⟩
    · rw [e1, e1']
    · rw [e2] at e; exact absurd e.symm (hnewk _ _ hx')
    · rw [e2'] at e; exact absurd e (hnewk _ _ hx)
    · exact h.inj _ _ _ _ hx hx' e
  · intro x hx hp
    rcases (hmk x).1 hx with ⟨x1, x2⟩ | rfl
    · rw [Ne, hpn x x2 (fun e => hnew (e ▸ x1))] at hp
      obtain ⟨i, k', hi', e⟩ := h.ident x x1 hp
      refine ⟨i, k', ?_, e⟩
      show dget (ddel (dset (ddel d.table (lower k)) (lower new) new) (lower old)) i = some k'
      rw [htab, if_neg (fun e' : i = lower new => hnk (by rw [← e']; exact dget_isSome.1 ⟨_, hi'⟩)), if_neg (fun e' => x2 (by
        rw [e', hk] at hi'; injection hi' with hi'; rw [← e, ← hi']))]
      exact hi'
    · exact ⟨lower new, new, by
        show dget (ddel (dset (ddel d.table (lower k)) (lower new) new) (lower old)) (lower new) = some new
        rw [htab, if_pos rfl], rfl⟩
  · intro i k' hx hi
    rcases hget i k' hx with ⟨rfl, rfl⟩ | ⟨i1, i2, hx⟩
    · rfl
    · rcases (hmk i).1 hi with ⟨x1, _⟩ | e
      · exact h.clash _ _ hx x1
      · exact absurd e i1
  · intro i
    have hdict : ∀ x, dget (d.coll.rekeyed (lower k) (lower new) b info').dict x =
        if x = lower new then some b else if x = lower k then none else dget d.coll.dict x := by
      intro x
      simp only [Coll.rekeyed, dget_append, dget_ddel]
      by_cases x1 : x = lower new
      · subst x1
        have := dget_eq_none.2 (fun hm => hnew ((h.cons.mem_dict _).1 hm))
        simp [dget, this]
      · have x1' : ¬ lower new = x := fun e => x1 e.symm
        by_cases x2 : x = lower k
        · subst x2; simp [dget, x1, x1']
        · simp only [x2, if_false, x1, dget, x1']
          grind
    simp only [look, htab]
    by_cases i1 : i = lower new
    · simp only [i1, if_true, Option.bind_some, hdict, hk, hb]
    · by_cases i2 : i = lower old
      · simp [i2, hne.symm]
      · simp only [i1, i2, if_false]
        cases hx : dget d.table i with
        | none => rfl
        | some k' =>
          simp only [Option.bind_some]
          rw [hdict, if_neg (hnewk _ _ hx), if_neg (hold _ _ hx i2)]

/-! ## Adding a block -/

theorem Kept.newBlock {d d1 : CifDic} (h : Kept d) {name r top : Str} {b : Block} {fix : Bool}
    (hf : (if fix then Coll.fixName name else name) = name)
    (ht : d.coll.topLevel = [top]) (hfresh : lower name ∉ d.coll.lowerKeys) (hn : d.contains name = false)
    (hr : baseNewBlock d name b fix (some top) = (d1, .ok r)) :
    r = lower name ∧ Kept { d1 with table := dset d1.table (lower name) r } ∧ d1.imports = d.imports ∧
      (∀ i, dget (dset d1.table (lower name) r) i = if i = lower name then some r else dget d.table i) ∧
      (∀ i, look { d1 with table := dset d1.table (lower name) r } i =
        if i = lower name then some (Coll.stored d.coll b) else look d i) := by
  have hnk : lower name ∉ d.keys := by simpa [contains] using hn
  obtain ⟨top', ht', htm, htop⟩ := h.top
  have htt : top' = top := by rw [ht] at ht'; simpa using ht'.symm
  subst htt
  have hlt := h.cons.lower_keys _ htm
  have hlow : lower (lower name) = lower name := CaseFold.lower_lower name
  have hst := Coll.prepare_fst d.coll b
  unfold baseNewBlock at hr
  split at hr
  · cases hr
  rename_i b' hb'
  rw [hb'] at hst
  simp only at hst
  split at hr
  · cases hr
  rw [hf] at hr
  simp only [basePlace, if_neg hfresh] at hr
  rw [Coll.addBlock_added h.cons hfresh (by intro p hp; injection hp with hp; rw [← hp, hlt]; exact htm), hst] at hr
  injection hr with e1 e2
  injection e2 with e2
  subst e1 e2
  simp only [Option.map_some, hlt]
  have hcons : (d.coll.added (lower name) ⟨Coll.stored d.coll b, name, some top'⟩).Consistent :=
    h.cons.added hfresh hlow (by intro p hp; injection hp with hp; rw [← hp]; exact htm)
  have hnt : lower name ∉ dkeys d.coll.childTable := fun hm => hfresh ((h.cons.mem_table _).1 hm)
  have hpar := Coll.parentOf_added (e := ⟨Coll.stored d.coll b, name, some top'⟩) hnt
  have hmk : ∀ x, x ∈ (d.coll.added (lower name) ⟨Coll.stored d.coll b, name, some top'⟩).lowerKeys ↔ x ∈ d.coll.lowerKeys ∨ x = lower name := by
    intro x; simp [Coll.added]
  have htab : ∀ i, dget (dset d.table (lower name) (lower name)) i = if i = lower name then some (lower name) else dget d.table i := by
    intro i; rw [dget_dset]; grind
  have hget : ∀ i k', dget (dset d.table (lower name) (lower name)) i = some k' →
      (i = lower name ∧ k' = lower name) ∨ (i ≠ lower name ∧ dget d.table i = some k') := by
    intro i k' hx
    rw [htab] at hx
    split at hx
    · rename_i e; injection hx with hx; exact .inl ⟨e, hx.symm⟩
    · rename_i e; exact .inr ⟨e, hx⟩
  have hnewk : ∀ i k', dget d.table i = some k' → lower k' ≠ lower name :=
    fun i k' hx e => hfresh (e ▸ (h.blocks _ _ hx).1)
  refine ⟨trivial, ⟨hcons, h.shows, h.refuses, ?_, ?_, ?_, ?_, ?_, ?_, ?_⟩, trivial, htab, ?_⟩
  · refine ⟨top', root_of_mem hcons (fun x hx => ?_) ((hmk _).2 (.inl htm))⟩
    rw [hpar]
    rcases (hmk x).1 hx with x1 | rfl
    · rw [if_neg (fun e : x = lower name => hfresh (e ▸ x1)), htop x x1]
    · rw [if_pos rfl]
      exact iff_of_false (by simp) (fun e => hfresh (e ▸ htm))
  · exact nodup_dkeys_dset _ _ _ h.nodup
  · intro i hi
    obtain ⟨k', hk'⟩ := dget_isSome.2 hi
    rcases hget i k' hk' with ⟨rfl, _⟩ | ⟨_, hx⟩
    · exact hlow
    · exact h.low i (dget_isSome.1 ⟨_, hx⟩)
  · intro i k' hx
    rcases hget i k' hx with ⟨_, rfl⟩ | ⟨_, hx⟩
    · rw [hlow]
      refine ⟨(hmk _).2 (.inr rfl), ?_⟩
      rw [hpar, if_pos rfl]
      simp
    · obtain ⟨b1, b2⟩ := h.blocks _ _ hx
      refine ⟨(hmk _).2 (.inl b1), ?_⟩
      rw [hpar, if_neg (hnewk _ _ hx)]
      exact b2
  · intro i i' k1 k2 hx hx' e
    rcases hget _ _ hx with ⟨e1, e2⟩ | ⟨i1, hx⟩ <;> rcases hget _ _ hx' with ⟨e1', e2'⟩ | ⟨i1', hx'⟩
    · rw [e1, e1']
    · rw [e2, hlow] at e; exact absurd e.symm (hnewk _ _ hx')
    · rw [e2', hlow] at e; exact absurd e (hnewk _ _ hx)
    · exact h.inj _ _ _ _ hx hx' e
  · intro x hx hp
    rcases (hmk x).1 hx with x1 | rfl
    · rw [hpar, if_neg (fun e : x = lower name => hfresh (e ▸ x1))] at hp
      obtain ⟨i, k', hi', e⟩ := h.ident x x1 hp
      refine ⟨i, k', ?_, e⟩
      show dget (dset d.table (lower name) (lower name)) i = some k'
      rw [htab, if_neg (fun e' : i = lower name => hnk (by rw [← e']; exact dget_isSome.1 ⟨_, hi'⟩))]
      exact hi'
    · exact ⟨lower name, lower name, by
        show dget (dset d.table (lower name) (lower name)) (lower name) = _
        rw [htab, if_pos rfl], hlow⟩
  · intro i k' hx hi
    rcases hget i k' hx with ⟨rfl, rfl⟩ | ⟨i1, hx⟩
    · exact hlow
    · rcases (hmk i).1 hi with x1 | e
      · exact h.clash _ _ hx x1
      · exact absurd e i1
  · intro i
    have hdict : ∀ x, dget (d.coll.added (lower name) ⟨Coll.stored d.coll b, name, some top'⟩).dict x =
        if x = lower name then some (Coll.stored d.coll b) else dget d.coll.dict x := by
      intro x
      simp only [Coll.added, dget_append]
      by_cases x1 : x = lower name
      · subst x1
        have := dget_eq_none.2 (fun hm => hfresh ((h.cons.mem_dict _).1 hm))
        simp [dget, this]
      · have x1' : ¬ lower name = x := fun e => x1 e.symm
        simp [dget, x1, x1']
    simp only [look, htab]
    by_cases i1 : i = lower name
    · simp only [i1, if_true, Option.bind_some, hlow, hdict]
    · simp only [i1, if_false]
      cases hx : dget d.table i with
      | none => rfl
      | some k' =>
        simp only [Option.bind_some]
        rw [hdict, if_neg (hnewk _ _ hx)]

/-! ## Attributes -/

theorem has_of_val {b : Block} {a : Str} {v : PyVal} (ha : a ≠ Block.saves) (h : b.val (lower a) = some v) : Has b a v := by
  rw [← Block.lookup_val b a ha] at h
  have h := Block.lookup_some.1 h
  refine ⟨?_, h⟩
  have := Block.val_of_getItem h
  unfold Block.val at this
  rw [Block.contains_iff]
  exact dget_isSome.1 (by
    cases hx : dget b.block (lower a) with
    | none => rw [hx] at this; cases this
    | some e => exact ⟨e, rfl⟩)

theorem val_of_has {b : Block} {a : Str} {v : PyVal} (h : Has b a v) : b.val (lower a) = some v := Block.val_of_getItem h.2

/-- The values after a series of assignments. -/
def valAfter (x : Str) (v : Option PyVal) : List (Str × PyVal) → Option PyVal
  | [] => v
  | p :: r => valAfter x (if x = lower p.1 then some p.2 else v) r

theorem setItem_shape {b b' : Block} {a : Str} {v : PyVal} (h : b.setItem a v = (b', .ok ())) :
    a ≠ Block.saves ∧ b'.overwrite = b.overwrite ∧ b'.unicode = b.unicode ∧ b'.maxName = b.maxName := by
  obtain ⟨h1, h2⟩ := Block.setItem_ok h
  obtain ⟨sv, _, _, rfl⟩ := Block.addItem_ok h2 (by simp)
  exact ⟨h1, rfl, rfl, rfl⟩

theorem Kept.setAttrs : ∀ (l : List (Str × PyVal)) {d d' : CifDic} (_ : Kept d) {key : Str} (_ : d.contains key = true)
    (_ : setAttrs d key l = (d', .ok ())) {b : Block} (_ : look d (lower key) = some b),
    Like d d' ∧ ∃ b', (∀ i, look d' i = if i = lower key then some b' else look d i) ∧ (∀ x, b'.val x = valAfter x (b.val x) l) ∧
      (∀ p ∈ l, p.1 ≠ Block.saves) ∧ b'.overwrite = b.overwrite
  | [], d, d', h, key, hc, hs, b, hb => by
    simp only [CifDic.setAttrs, Prod.mk.injEq, and_true] at hs
    subst hs
    refine ⟨Like.refl d, b, fun i => ?_, fun _ => rfl, by simp, rfl⟩
    split
    · rename_i e; rw [e, hb]
    · rfl
  | p :: r, d, d', h, key, hc, hs, b, hb => by
    obtain ⟨a, v⟩ := p
    simp only [CifDic.setAttrs] at hs
    obtain ⟨d1, u, h1, h2⟩ := seq_inv hs
    obtain ⟨l1, b0, b1, hb0, hset, hv⟩ := h.setAttr hc h1
    rw [hb] at hb0
    injection hb0 with hb0
    subst hb0
    obtain ⟨l2, b2, hv2, hx2, hs2, ho2⟩ := Kept.setAttrs r (l1.kept h) (by rw [l1.contains]; exact hc) h2 (b := b1) (by rw [hv, if_pos rfl])
    obtain ⟨q1, q2, _, _⟩ := setItem_shape hset
    refine ⟨l1.trans l2, b2, fun i => ?_, fun x => ?_, ?_, ho2.trans q2⟩
    · rw [hv2, hv]
      split <;> rfl
    · rw [hx2, Block.val_setItem hset]
      rfl
    · intro p hp
      rcases List.mem_cons.1 hp with rfl | hp
      · exact q1
      · exact hs2 p hp

theorem valAfter_not (x : Str) : ∀ (l : List (Str × PyVal)) (v : Option PyVal), (∀ p ∈ l, x ≠ lower p.1) → valAfter x v l = v
  | [], _, _ => rfl
  | p :: r, v, h => by
    rw [valAfter, if_neg (h p (by simp)), valAfter_not x r _ (fun q hq => h q (List.mem_cons_of_mem _ hq))]

theorem valAfter_mem {a : Str} {w : PyVal} : ∀ (l : List (Str × PyVal)) (v : Option PyVal), (l.map fun p => lower p.1).Nodup →
    (a, w) ∈ l → valAfter (lower a) v l = some w
  | [], _, _, h => by cases h
  | p :: r, v, hn, h => by
    rw [List.map_cons, List.nodup_cons] at hn
    rcases List.mem_cons.1 h with rfl | h
    · rw [valAfter, if_pos rfl, valAfter_not]
      intro q hq e
      exact hn.1 (List.mem_map.2 ⟨q, hq, e.symm⟩)
    · rw [valAfter, valAfter_mem r _ hn.2 h]

theorem low_id : lower idAttr = idAttr := CaseFold.lower_ascii _ (by decide)
theorem low_obj : lower objAttr = objAttr := CaseFold.lower_ascii _ (by decide)
theorem low_cat : lower catAttr = catAttr := CaseFold.lower_ascii _ (by decide)
theorem low_class : lower classAttr = classAttr := CaseFold.lower_ascii _ (by decide)
theorem low_scope : lower scopeAttr = scopeAttr := CaseFold.lower_ascii _ (by decide)
theorem low_text : lower textAttr = textAttr := CaseFold.lower_ascii _ (by decide)
theorem low_title : lower titleAttr = titleAttr := CaseFold.lower_ascii _ (by decide)

theorem edited_of_val {b b' : Block} {l : List (Str × PyVal)} (hn : (l.map fun p => lower p.1).Nodup) (hs : ∀ p ∈ l, p.1 ≠ Block.saves)
    (h : ∀ x, b'.val x = valAfter x (b.val x) l) : Edited b b' l := by
  constructor
  · intro p hp
    refine has_of_val (hs p hp) ?_
    rw [h]
    exact valAfter_mem _ _ hn hp
  · intro a ha
    by_cases hsv : a = Block.saves
    · subst hsv; rw [Block.lookup_saves, Block.lookup_saves]
    · rw [Block.lookup_val _ _ hsv, Block.lookup_val _ _ hsv, h, valAfter_not]
      exact fun q hq => ha q hq

/-! ## Comparing dictionaries -/

theorem SameDef.refl (b : Block) : SameDef b b := rfl

theorem SameDef.trans {b b1 b2 : Block} (h : SameDef b b1) (h' : SameDef b1 b2) : SameDef b b2 := by
  unfold SameDef at *
  rw [h', h]

theorem sameDef_overwrite (b : Block) (v : Bool) : SameDef b { b with overwrite := v } := rfl

theorem SameDef.val {b b' : Block} (h : SameDef b b') : b'.val = b.val := by
  unfold SameDef at h
  rw [h]; rfl

theorem SameDef.lookup {b b' : Block} (h : SameDef b b') (a : Str) : b'.lookup a = b.lookup a := by
  unfold SameDef at h
  rw [h]; rfl

theorem SameDef.has {b b' : Block} (h : SameDef b b') {a : Str} {v : PyVal} : Has b' a v ↔ Has b a v := by
  unfold SameDef at h
  rw [h]; rfl

theorem unchanged_of_look {d d' : CifDic} (h : Kept d) (h' : Kept d') {i : Str} (hc : d.contains i = true) {b b' : Block}
    (hb : look d (lower i) = some b) (hb' : look d' (lower i) = some b') (hs : SameDef b b') : Unchanged d d' i := by
  have hc' : d'.contains i = true := by
    have := h'.look_some.1 ⟨b', hb'⟩
    simp only [contains, decide_eq_true_eq]; exact this
  exact ⟨hc, hc', b, b', (h.getItem_look hc).2 hb, (h'.getItem_look hc').2 hb', hs⟩

theorem sound_of {d : CifDic} (h : Kept d) (hi : ∀ i b, look d i = some b → ∃ s, b.val idAttr = some (.str s) ∧ lower s = i) : Sound d where
  toKept := h
  ids i hm := by
    obtain ⟨b, hb⟩ := h.look_some.2 hm
    obtain ⟨s, hs, e⟩ := hi i b hb
    have hl := h.low i hm
    have hc : d.contains i = true := by simp only [contains, hl, decide_eq_true_eq]; exact hm
    exact ⟨b, s, (h.getItem_look hc).2 (by rw [hl]; exact hb), has_of_val (by decide) (by rw [low_id]; exact hs), e⟩

theorem Sound.look_id {d : CifDic} (h : Sound d) {i : Str} {b : Block} (hb : look d i = some b) :
    ∃ s, b.val idAttr = some (.str s) ∧ lower s = i := by
  have hm := h.toKept.look_some.1 ⟨b, hb⟩
  obtain ⟨b', s, h1, h2, h3⟩ := h.ids i hm
  have hl := h.low i hm
  have hc : d.contains i = true := by simp only [contains, hl, decide_eq_true_eq]; exact hm
  rw [h.toKept.getItem_look hc, hl, hb] at h1
  injection h1 with h1
  subst h1
  have := val_of_has h2
  rw [low_id] at this
  exact ⟨s, this, h3⟩

theorem sound_if {d d' : CifDic} (hd : Sound d) (k : Kept d')
    (h : ∀ i b', look d' i = some b' → (∃ b, look d i = some b ∧ SameDef b b') ∨ ∃ s, b'.val idAttr = some (.str s) ∧ lower s = i) : Sound d' := by
  refine sound_of k fun i b' hb' => ?_
  rcases h i b' hb' with ⟨b, hb, hs⟩ | hs
  · rw [hs.val]; exact hd.look_id hb
  · exact hs

theorem unchanged_if {d d' : CifDic} (hd : Kept d) (k : Kept d') {i : Str} (hi : d.contains i = true)
    (h : ∀ b, look d (lower i) = some b → ∃ b', look d' (lower i) = some b' ∧ SameDef b b') : Unchanged d d' i := by
  obtain ⟨b, hb⟩ := hd.look_some.2 (show lower i ∈ d.keys from of_decide_eq_true hi)
  obtain ⟨b', hb', hs⟩ := h b hb
  exact unchanged_of_look hd k hi hb hb' hs

theorem not_contains_look {d : CifDic} (hd : Kept d) {i : Str} : d.contains i = false ↔ look d (lower i) = none := by
  constructor
  · intro h
    cases hl : look d (lower i) with
    | none => rfl
    | some b =>
      have := hd.look_some.1 ⟨b, hl⟩
      simp [contains, this] at h
  · intro h
    cases hc : d.contains i with
    | false => rfl
    | true =>
      obtain ⟨b, hb⟩ := hd.look_some.2 (show lower i ∈ d.keys from of_decide_eq_true hc)
      rw [h] at hb; cases hb

theorem takeWhile_all {p : Char → Bool} : ∀ {l : Str} {c : Char}, c ∈ l.takeWhile p → p c = true
  | [], c, h => by cases h
  | x :: r, c, h => by
    rw [List.takeWhile_cons] at h
    split at h
    · rename_i hx
      rcases List.mem_cons.1 h with rfl | h
      · exact hx
      · exact takeWhile_all h
    · cases h

end Verif.CifDic
