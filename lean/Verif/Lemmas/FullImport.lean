import Verif.Spec.FullImport
import Verif.Lemmas.Ddl1
import Verif.Lemmas.LoopTables
import Verif.Lemmas.CollectionMerge
import Verif.Lemmas.CollectionTree
import Verif.Props.CifDicTree
/-! Helper lemmas about the import of definitions: the collections. -/
set_option linter.unusedSectionVars false
namespace Verif.CifDic
open Validate Ddl1
variable [CaseFold]

/-! ## Selecting blocks that do not enclose each other -/

theorem makebc_flat {c : Coll} (hc : c.Consistent) {names : List Str} (hn : (names.map lower).Nodup)
    (hm : ∀ x ∈ names.map lower, x ∈ c.lowerKeys) (hp : ∀ x ∈ names.map lower, ∀ p, Coll.parentOf c x = some p → p ∉ names.map lower) :
    ∃ c', c.makebc names = .ok c' ∧ c'.Consistent ∧ c'.scoping = .dictionary ∧ (∀ k, Coll.parentOf c' k = none) ∧
      (∀ k, k ∈ c'.lowerKeys ↔ k ∈ names.map lower) ∧ ∀ k ∈ names.map lower, dget c'.dict k = dget c.dict k := by
  unfold Coll.makebc
  simp only
  generalize hbl : names.map lower = bl at *
  have hkeys : dkeys (c.childTable.filter fun a => decide (a.1 ∈ bl)) = (dkeys c.childTable).filter fun x => decide (x ∈ bl) :=
    dkeys_filter _ (fun x => decide (x ∈ bl))
  rw [hkeys]
  obtain ⟨d, hd, hdk, hdg⟩ := Coll.pick_eq (d := c.dict) (ks := (dkeys c.childTable).filter fun x => decide (x ∈ bl))
    (fun x hx => (hc.mem_dict x).mpr ((hc.mem_table x).mp (List.mem_filter.mp hx).1))
  rw [hd]
  simp only
  have hmem : ∀ k, k ∈ (dkeys c.childTable).filter (fun x => decide (x ∈ bl)) ↔ k ∈ bl := by
    intro k
    rw [List.mem_filter, decide_eq_true_eq, hc.mem_table]
    exact ⟨fun h => h.2, fun h => ⟨hm k h, h⟩⟩
  have hmap : (c.childTable.filter fun a => decide (a.1 ∈ bl)).map (Coll.keepParent bl) =
      (c.childTable.filter fun a => decide (a.1 ∈ bl)).map fun a => (a.1, (⟨a.2.blockId, none⟩ : PC)) := by
    apply List.map_congr_left
    intro a ha
    rw [List.mem_filter, decide_eq_true_eq] at ha
    obtain ⟨ha, hb⟩ := ha
    obtain ⟨k, id, par⟩ := a
    cases par with
    | none => rfl
    | some p =>
      have hpar : Coll.parentOf c k = some p := by
        simp only [Coll.parentOf, dget_of_mem hc.nd_table ha]
      have := hp k hb p hpar
      simp only [Coll.keepParent, this, if_false]
  rw [hmap]
  have hdk' := Coll.dkeys_map_vals (c.childTable.filter fun a => decide (a.1 ∈ bl)) (fun _ (pc : PC) => (⟨pc.blockId, none⟩ : PC))
  rw [hkeys] at hdk'
  have hpar : ∀ k, Coll.parentOf { dict := d, childTable := (c.childTable.filter fun a => decide (a.1 ∈ bl)).map fun a => (a.1, (⟨a.2.blockId, none⟩ : PC)) } k = none := by
    intro k
    have := Coll.dget_map_vals (c.childTable.filter fun a => decide (a.1 ∈ bl)) (fun _ (pc : PC) => (⟨pc.blockId, none⟩ : PC)) k
    simp only [Coll.parentOf, this]
    cases dget (c.childTable.filter fun a => decide (a.1 ∈ bl)) k <;> rfl
  have hnd := hc.nd_table.filter fun x => decide (x ∈ bl)
  refine ⟨_, rfl, ?_, rfl, hpar, hmem, fun k hk => ?_⟩
  · constructor
    · show (dkeys d).Nodup
      rw [hdk]; exact hnd
    · exact (congrArg List.Nodup hdk').mpr hnd
    · exact hnd
    · exact hn
    · exact hnd
    · intro k
      show k ∈ dkeys d ↔ _
      rw [hdk]; rfl
    · intro k
      exact iff_of_eq (congrArg (k ∈ ·) hdk')
    · intro k
      exact (hmem k).symm
    · intro k hk
      exact hc.lower_keys k (hm k ((hmem k).1 hk))
    · intro k p h
      have := (hpar k).symm.trans h
      cases this
    · intro k h
      have : ∃ p, Coll.parentOf { dict := d, childTable := (c.childTable.filter fun a => decide (a.1 ∈ bl)).map fun a => (a.1, (⟨a.2.blockId, none⟩ : PC)) } k = some p := by
        cases h with
        | child h => exact ⟨_, h⟩
        | deeper _ h => exact ⟨_, h⟩
      obtain ⟨p, hp'⟩ := this
      rw [hpar] at hp'
      cases hp'
    · intro _ k; exact Iff.rfl
    · intro h; cases h
  · show dget d k = _
    rw [hdg, if_pos ((hmem k).2 hk)]

/-- Deleting blocks that enclose nothing. -/
theorem forEach_del : ∀ (ks : List Str) {c : Coll} (_ : c.Consistent) (_ : ∀ k, Coll.parentOf c k = none) (_ : c.scoping = .dictionary)
    (_ : ks.Nodup) (_ : ∀ k ∈ ks, k ∈ c.lowerKeys),
    Coll.forEach Coll.delItem c ks = (c.restrict (fun x => decide (x ∉ ks)), .ok ())
  | [], c, _, _, _, _, _ => by
    rw [Coll.restrict_true _ (by simp)]
    rfl
  | k :: ks, c, hc, hf, hs, hn, hm => by
    have hk := hm k (by simp)
    have hl := hc.lower_keys k hk
    have hun : ∀ a x, ¬ Coll.Under c a x := by
      intro a x h
      have : ∃ p, Coll.parentOf c x = some p := by
        cases h with
        | child h => exact ⟨_, h⟩
        | deeper _ h => exact ⟨_, h⟩
      obtain ⟨p, hp⟩ := this
      rw [hf] at hp
      cases hp
    have hw : ∀ x, Coll.Within c (lower k) x ↔ x = k := by
      intro x
      rw [hl]
      exact ⟨fun h => h.elim id (fun h => absurd h (hun _ _)), .inl⟩
    have hd := Coll.delItem_eq' hc.keyed (key := k) (by rw [hl]; exact hk)
      (fun x hx => by rw [(hw x).1 hx]; exact (hc.visible_all hs k).2 hk) (P := fun x => decide (x ≠ k)) (by intro x; rw [hw]; simp)
    have hcl : Coll.Closed c (fun x => decide (x ≠ k)) := fun x y h => by rw [hf] at h; cases h
    rw [List.nodup_cons] at hn
    have ih := forEach_del ks (c := c.restrict (fun x => decide (x ≠ k))) (hc.restrict hcl)
      (fun y => by rw [Coll.parentOf_restrict]; split <;> simp [hf]) hs hn.2
      (fun y hy => by
        simp only [Coll.restrict, List.mem_filter, decide_eq_true_eq]
        exact ⟨hm y (List.mem_cons_of_mem _ hy), fun e => hn.1 (e ▸ hy)⟩)
    simp only [Coll.forEach, hd]
    rw [ih, Coll.restrict_restrict]
    refine congrArg (fun x => (x, Except.ok ())) (Coll.restrict_congr c fun x => ?_)
    by_cases h1 : x = k <;> by_cases h2 : x ∈ ks <;> simp [h1, h2]

/-! ## The table of definitions -/

/-- Block `k` is inside another one and says that it is called `i`. -/
def Calls (c : Coll) (k i : Str) : Prop :=
  k ∈ c.lowerKeys ∧ Coll.parentOf c k ≠ none ∧ ∃ b s, dget c.dict k = some b ∧ b.val idAttr = some (.str s) ∧ lower s = i

theorem contains_val {b : Block} {a : Str} {v : PyVal} (h : b.val (lower a) = some v) : b.contains a = true := by
  unfold Block.val at h
  rw [Block.contains_iff]
  refine dget_isSome.1 ?_
  cases hx : dget b.block (lower a) with
  | none => rw [hx] at h; cases h
  | some e => exact ⟨e, rfl⟩

theorem retable_kept {c : Coll} {imports : List Imported} {top : Str} (hc : c.Consistent) (hs : c.scoping = .dictionary)
    (hr : c.standard ≠ none) (ht : c.topLevel = [top]) (hb : ∃ b, dget c.dict top = some b ∧ b.contains idAttr = false)
    (hids : ∀ k ∈ c.lowerKeys, Coll.parentOf c k ≠ none → ∃ i, Calls c k i)
    (hinj : ∀ k k' i, Calls c k i → Calls c k' i → k = k')
    (hclash : ∀ k i, Calls c k i → i ∈ c.lowerKeys → i = k) :
    ∃ t, defTable c .ddlm = .ok t ∧ Kept { coll := c, table := t, lang := .ddlm, imports := imports } ∧
      ∀ i k, dget t i = some k ↔ Calls c k i := by
  have hmt : ∀ x, x ∈ c.topLevel ↔ x ∈ c.lowerKeys ∧ Coll.parentOf c x = none := fun x => by
    rw [Coll.mem_topLevel hc.nd_table, hc.mem_table]
  have htop : ∀ x ∈ c.lowerKeys, Coll.parentOf c x = none ↔ x = top := by
    intro x hx
    have := hmt x
    rw [ht, List.mem_singleton] at this
    exact ⟨fun h => this.2 ⟨hx, h⟩, fun h => (this.1 h).2⟩
  have htm : top ∈ c.lowerKeys := ((hmt top).1 (by rw [ht]; simp)).1
  have hvis := hc.visible_all hs
  have hget : ∀ k ∈ c.lowerKeys, ∀ b, dget c.dict k = some b → c.getItem k = .ok b := by
    intro k hk b hb
    simp only [Coll.getItem, hc.lower_keys k hk, hk, if_true, hb]
  have hcspec : catIdSpec .ddlm = idAttr := rfl
  have hdspec : defIdSpec .ddlm = idAttr := rfl
  obtain ⟨bt, hbt, hbt'⟩ := hb
  have htexts : Texts c .ddlm := by
    intro k hk
    have hk := (hvis k).1 hk
    by_cases hp : Coll.parentOf c k = none
    · obtain rfl := (htop k hk).1 hp
      refine ⟨bt, hget _ hk _ hbt, fun a ha hca => ?_⟩
      rw [hcspec, hdspec, or_self] at ha
      rw [ha, hbt'] at hca
      cases hca
    · obtain ⟨i, _, _, b, s, h1, h2, h3⟩ := hids k hk hp
      refine ⟨b, hget _ hk _ h1, fun a ha _ => ⟨s, ?_⟩⟩
      rw [hcspec, hdspec, or_self] at ha
      rw [ha]
      exact (has_of_val (by decide) (by rw [low_id]; exact h2)).2
  have hnames : ∀ k s, Names c .ddlm k s ∧ ¬ Outer c .ddlm k ↔
      k ∈ c.lowerKeys ∧ Coll.parentOf c k ≠ none ∧ ∃ b, dget c.dict k = some b ∧ b.val idAttr = some (.str s) := by
    intro k s
    unfold Names Outer Identifier
    simp only [hcspec, hdspec]
    constructor
    · rintro ⟨⟨hk, b, hb, hi⟩, ho⟩
      have hp : Coll.parentOf c k ≠ none := fun e => ho ⟨hk, e⟩
      have hk' := (hvis k).1 hk
      obtain ⟨i, _, _, b', s', h1, h2, h3⟩ := hids k hk' hp
      have := hget _ hk' _ h1
      rw [hb] at this
      obtain rfl := (Except.ok.inj this)
      have hh := has_of_val (a := idAttr) (by decide) (by rw [low_id]; exact h2)
      refine ⟨hk', hp, b, h1, ?_⟩
      rcases hi with hi | ⟨hi, _⟩
      · have := val_of_has hi
        rw [low_id] at this
        exact this
      · rw [hh.1] at hi; cases hi
    · rintro ⟨hk, hp, b, h1, h2⟩
      exact ⟨⟨(hvis k).2 hk, b, hget _ hk _ h1, .inl (has_of_val (by decide) (by rw [low_id]; exact h2))⟩, fun ho => hp ho.2⟩
  have hcalls : ∀ k i, Calls c k i ↔ ∃ s, (Names c .ddlm k s ∧ ¬ Outer c .ddlm k) ∧ lower s = i := by
    intro k i
    constructor
    · rintro ⟨h1, h2, b, s, h3, h4, h5⟩
      exact ⟨s, (hnames k s).2 ⟨h1, h2, b, h3, h4⟩, h5⟩
    · rintro ⟨s, h, e⟩
      obtain ⟨h1, h2, b, h3, h4⟩ := (hnames k s).1 h
      exact ⟨h1, h2, b, s, h3, h4, e⟩
  have hnametop : ∀ s, Names c .ddlm top s → s = top := by
    rintro s ⟨_, b, hb, hi⟩
    have := hget _ htm _ hbt
    rw [hb] at this
    obtain rfl := (Except.ok.inj this)
    unfold Identifier at hi
    rw [hcspec, hdspec] at hi
    rcases hi with hi | ⟨_, hi | ⟨_, hi⟩⟩
    · have := hi.1; rw [hbt'] at this; cases this
    · have := hi.1; rw [hbt'] at this; cases this
    · exact PyVal.str.inj hi
  have hok : ∃ t, defTable c .ddlm = .ok t := by
    rcases C54_duplicates hc htexts with ⟨⟨k, k', s, hne, h1, h2⟩, _⟩ | h
    · exfalso
      have hm1 := (hvis k).1 h1.1
      have hm2 := (hvis k').1 h2.1
      have inner : ∀ k s, k ∈ c.lowerKeys → Coll.parentOf c k ≠ none → Names c .ddlm k s → Calls c k (lower s) :=
        fun k s _ hp h => (hcalls _ _).2 ⟨s, ⟨h, fun ho => hp ho.2⟩, rfl⟩
      by_cases p1 : Coll.parentOf c k = none <;> by_cases p2 : Coll.parentOf c k' = none
      · exact hne (((htop k hm1).1 p1).trans ((htop k' hm2).1 p2).symm)
      · obtain rfl := (htop k hm1).1 p1
        have e := hnametop s h1
        have h := inner k' s hm2 p2 h2
        have := hclash _ _ h (by rw [e, hc.lower_keys _ htm]; exact htm)
        rw [e, hc.lower_keys _ htm] at this
        exact hne this
      · obtain rfl := (htop k' hm2).1 p2
        have e := hnametop s h2
        have h := inner k s hm1 p1 h1
        have := hclash _ _ h (by rw [e, hc.lower_keys _ htm]; exact htm)
        rw [e, hc.lower_keys _ htm] at this
        exact hne this.symm
      · exact hne (hinj _ _ _ (inner k s hm1 p1 h1) (inner k' s hm2 p2 h2))
    · exact h.2
  obtain ⟨t, ht'⟩ := hok
  obtain ⟨hkn, hkm⟩ := C54_keys (i := imports) hc htexts ht'
  have hfwd : ∀ i k, Calls c k i → dget t i = some k := by
    intro i k h
    obtain ⟨s, ⟨h1, h2⟩, rfl⟩ := (hcalls k i).1 h
    exact table_get hc htexts ht' h1 h2 (fun k' s' h1' h2' e => hinj _ _ _ ((hcalls k' (lower s)).2 ⟨s', ⟨h1', h2'⟩, e⟩) h)
  have hiff : ∀ i k, dget t i = some k ↔ Calls c k i := by
    intro i k
    refine ⟨fun h => ?_, hfwd i k⟩
    have hi : i ∈ CifDic.keys ⟨c, t, .ddlm, imports⟩ := dget_isSome.1 ⟨k, h⟩
    obtain ⟨k', s, h1, h2, h3⟩ := (hkm i).1 hi
    have hca := (hcalls k' i).2 ⟨s, ⟨h1, h2⟩, h3⟩
    have := hfwd i k' hca
    rw [h] at this
    rw [Option.some.inj this]
    exact hca
  have hlow : ∀ i k, Calls c k i → lower k = k ∧ lower i = i := by
    rintro i k ⟨h1, _, b, s, _, _, rfl⟩
    exact ⟨hc.lower_keys k h1, CaseFold.lower_lower s⟩
  refine ⟨t, ht', ⟨hc, hs, hr, ⟨top, ht⟩, hkn, ?_, ?_, ?_, ?_, ?_⟩, hiff⟩
  · intro i hi
    obtain ⟨k, hk⟩ := dget_isSome.2 hi
    exact (hlow i k ((hiff i k).1 hk)).2
  · intro i k hk
    have h := (hiff i k).1 hk
    simp only [(hlow i k h).1]
    exact ⟨h.1, h.2.1⟩
  · intro i i' k k' h1 h2 e
    have c1 := (hiff i k).1 h1
    have c2 := (hiff i' k').1 h2
    rw [(hlow i k c1).1, (hlow i' k' c2).1] at e
    subst e
    obtain ⟨_, _, b, s, hb, hv, e1⟩ := c1
    obtain ⟨_, _, b', s', hb', hv', e2⟩ := c2
    rw [hb] at hb'
    obtain rfl := Option.some.inj hb'
    rw [hv] at hv'
    have := PyVal.str.inj (Option.some.inj hv')
    rw [← e1, ← e2, this]
  · intro k hk hp
    obtain ⟨i, hi⟩ := hids k hk hp
    exact ⟨i, k, (hiff i k).2 hi, hc.lower_keys k hk⟩
  · intro i k hk hi
    have h := (hiff i k).1 hk
    rw [(hlow i k h).1]
    exact (hclash k i h hi).symm

/-! ## The blocks to be added -/

theorem Sound.calls {d : CifDic} (h : Sound d) {k i : Str} : Calls d.coll k i ↔ ∃ k', dget d.table i = some k' ∧ lower k' = k := by
  have key : ∀ i k', dget d.table i = some k' → Calls d.coll (lower k') i := by
    intro i k' hk
    have hl := h.low i (dget_isSome.1 ⟨k', hk⟩)
    rw [← hl] at hk
    obtain ⟨b, h1, _, _, h4⟩ := h.toKept.byId hk
    obtain ⟨s, hs, e⟩ := h.look_id h4
    obtain ⟨b1, b2⟩ := h.blocks _ _ hk
    exact ⟨b1, b2, b, s, h1, hs, e.trans hl⟩
  constructor
  · rintro ⟨h1, h2, b, s, h3, h4, rfl⟩
    obtain ⟨i', k', hk, e⟩ := h.ident k h1 h2
    refine ⟨k', ?_, e⟩
    obtain ⟨_, _, b', s', hb', hv', e'⟩ := key i' k' hk
    rw [e, h3] at hb'
    obtain rfl := Option.some.inj hb'
    rw [h4] at hv'
    rw [PyVal.str.inj (Option.some.inj hv'), e']
    exact hk
  · rintro ⟨k', hk, rfl⟩
    exact key i k' hk

theorem look_of_calls {d : CifDic} {k i : Str} {b : Block} (h : ∃ k', dget d.table i = some k' ∧ lower k' = k)
    (hb : dget d.coll.dict k = some b) : look d i = some b := by
  obtain ⟨k', hk, e⟩ := h
  simp only [look, hk, Option.bind_some, e, hb]

theorem pruned {d imp : CifDic} (hi : Sound imp) (hf : FlatFrames imp) {frames : List Str} (hfr : ∀ i ∈ frames.map lower, i ∈ imp.keys)
    (hnd : (frames.map lower).Nodup) :
    ∃ cb cb', framesOf imp frames = .ok cb ∧ prune d cb = .ok cb' ∧ cb'.Consistent ∧ (∀ k, Coll.parentOf cb' k = none) ∧
      (∀ k, k ∈ cb'.lowerKeys ↔ ∃ i ∈ frames.map lower, i ∉ d.keys ∧ Calls imp.coll k i) ∧
      ∀ k ∈ cb'.lowerKeys, dget cb'.dict k = dget imp.coll.dict k := by
  let g : Str → Str := fun a => (dget imp.table (lower a)).getD []
  have hg : ∀ a ∈ frames, dget imp.table (lower a) = some (g a) := by
    intro a ha
    obtain ⟨k, hk⟩ := dget_isSome.2 (hfr _ (List.mem_map.2 ⟨a, ha, rfl⟩))
    show _ = some ((dget imp.table (lower a)).getD [])
    rw [hk]; rfl
  have hks : framesOf imp frames = imp.coll.makebc (frames.map g) := by
    unfold framesOf
    rw [mapE_ok (g := g) fun a ha => by rw [hg a ha]]
  have hcalls : ∀ a ∈ frames, Calls imp.coll (lower (g a)) (lower a) := fun a ha => hi.calls.2 ⟨g a, hg a ha, rfl⟩
  have hfn := nodup_of_map hnd
  have hmapmem : ∀ x, x ∈ (frames.map g).map lower ↔ ∃ a ∈ frames, lower (g a) = x := by
    intro x
    simp only [List.map_map, List.mem_map, Function.comp]
  have hn2 : ((frames.map g).map lower).Nodup := by
    rw [List.map_map, nodup_map_iff hfn]
    intro a ha b hb e
    have := hi.inj _ _ _ _ (hg a ha) (hg b hb) e
    exact (nodup_map_iff hfn).1 hnd a ha b hb this
  obtain ⟨cb, h1, h2, h3, h4, h5, h6⟩ := makebc_flat hi.cons (names := frames.map g) hn2
    (fun x hx => by
      obtain ⟨a, ha, rfl⟩ := (hmapmem x).1 hx
      exact (hcalls a ha).1)
    (fun x hx p hp hm => by
      obtain ⟨a, ha, rfl⟩ := (hmapmem p).1 hm
      exact (hcalls a ha).2.1 (hf _ _ hp))
  have hkeys : ∀ k, k ∈ cb.lowerKeys ↔ ∃ a ∈ frames, lower (g a) = k := fun k => (h5 k).trans (hmapmem k)
  -- which blocks go
  let old : Str → Bool := fun k => decide (∃ a ∈ frames, lower (g a) = k ∧ lower a ∈ d.keys)
  have hsel : doubleDefs d cb = .ok (cb.keys.filter old) := by
    unfold doubleDefs
    refine select_ok fun k hk => ?_
    have hk' := (h2.visible_all h3 k).1 hk
    obtain ⟨a, ha, rfl⟩ := (hkeys k).1 hk'
    obtain ⟨_, _, b, s, hb, hv, e⟩ := hcalls a ha
    have hcb : cb.getItem (lower (g a)) = .ok b := by
      simp only [Coll.getItem, h2.lower_keys _ hk', hk', if_true, h6 _ ((h5 _).1 hk'), hb]
    have hh := has_of_val (a := idAttr) (by decide) (by rw [low_id]; exact hv)
    simp only [hcb, getD, hh.1, if_true, hh.2, lowered]
    refine congrArg Except.ok ?_
    rw [e]
    simp only [contains, CaseFold.lower_lower]
    rw [Bool.eq_iff_iff]
    simp only [old, decide_eq_true_eq]
    constructor
    · intro hm
      exact ⟨a, ha, rfl, hm⟩
    · rintro ⟨a', ha', e1, hm⟩
      have := hi.inj _ _ _ _ (hg a' ha') (hg a ha) e1
      rw [← this]; exact hm
  have hdel := forEach_del (cb.keys.filter old) h2 h4 h3 (h2.nd_visible.filter _)
    (fun k hk => (h2.visible_all h3 k).1 (List.mem_filter.1 hk).1)
  have hcl : Coll.Closed cb (fun x => decide (x ∉ cb.keys.filter old)) := fun x y h => by rw [h4] at h; cases h
  refine ⟨cb, cb.restrict (fun x => decide (x ∉ cb.keys.filter old)), ?_, ?_, h2.restrict hcl, ?_, ?_, ?_⟩
  · rw [hks]
    exact h1
  · unfold prune
    rw [hsel]
    simp only [hdel]
  · intro k
    rw [Coll.parentOf_restrict]
    split <;> simp [h4]
  · intro k
    simp only [Coll.restrict, List.mem_filter, decide_eq_true_eq, not_and]
    constructor
    · rintro ⟨hk, hno⟩
      obtain ⟨a, ha, rfl⟩ := (hkeys k).1 hk
      refine ⟨lower a, List.mem_map.2 ⟨a, ha, rfl⟩, fun hm => ?_, hcalls a ha⟩
      exact hno ((h2.visible_all h3 _).2 hk) (by simp only [old, decide_eq_true_eq]; exact ⟨a, ha, rfl, hm⟩)
    · rintro ⟨i, hm, hnd', hc⟩
      obtain ⟨a, ha, rfl⟩ := List.mem_map.1 hm
      obtain ⟨k', hk', e⟩ := hi.calls.1 hc
      rw [hg a ha] at hk'
      obtain rfl := Option.some.inj hk'
      refine ⟨(hkeys k).2 ⟨a, ha, e⟩, fun _ hold => ?_⟩
      simp only [old, decide_eq_true_eq] at hold
      obtain ⟨a', ha', e1, hm'⟩ := hold
      have := hi.inj _ _ _ _ (hg a' ha') (hg a ha) (e1.trans e.symm)
      rw [this] at hm'
      exact hnd' hm'
  · intro k hk
    simp only [Coll.restrict, List.mem_filter, decide_eq_true_eq] at hk
    show dget (cb.dict.filter fun p => decide (p.1 ∉ cb.keys.filter old)) k = _
    rw [dget_filter cb.dict (fun x => decide (x ∉ cb.keys.filter old)), if_pos (by rw [decide_eq_true_eq, List.mem_filter]; exact hk.2)]
    exact h6 _ ((h5 k).1 hk.1)

/-! ## Adding them -/

theorem merged {d imp : CifDic} (hd : Filled d) (hi : Sound imp) (hf : FlatFrames imp) (hap : Apart d imp) {frames : List Str}
    (hfr : ∀ i ∈ frames.map lower, i ∈ imp.keys) (hnd : (frames.map lower).Nodup) {p : Str} (hp : p ∈ d.coll.lowerKeys) :
    ∃ cb cb' d0 d1, framesOf imp frames = .ok cb ∧ prune d cb = .ok cb' ∧ baseMergeFast d cb' (some p) = (d0, .ok ()) ∧
      retable d0 = (d1, .ok ()) ∧ Kept d1 ∧ d1.lang = .ddlm ∧
      (∀ i, look d1 i = if i ∈ d.keys then look d i else if i ∈ frames.map lower then look imp i else none) ∧
      (∀ i ∈ frames.map lower, i ∉ d.keys → ∃ k, dget d1.table i = some k ∧ ∀ x, Coll.parentOf d1.coll x ≠ some (lower k)) ∧
      (∀ i k, dget d.table i = some k → ∃ k', dget d1.table i = some k' ∧ lower k' = lower k) ∧
      d1.coll.topLevel = d.coll.topLevel ∧ (∀ k ∈ d.coll.lowerKeys, k ∈ d1.coll.lowerKeys ∧ dget d1.coll.dict k = dget d.coll.dict k) := by
  have hs := hd.sound
  obtain ⟨cb, nb, h1, h2, h3, h4, h5, h6⟩ := pruned (d := d) hi hf hfr hnd
  have hfresh : ∀ k ∈ d.coll.lowerKeys, k ∉ nb.lowerKeys := by
    intro k hk hn
    obtain ⟨i, hm, hno, hc⟩ := (h5 k).1 hn
    obtain ⟨k', hk', e⟩ := hi.calls.1 hc
    exact (hap i k' hk' hno).2.1 (e ▸ hk)
  have hlp : lower p = p := hs.cons.lower_keys p hp
  have hpp : ∀ q, some p = some q → lower q ∈ d.coll.lowerKeys := by
    intro q e; rw [← Option.some.inj e, hlp]; exact hp
  have hcons := Coll.mergeJoin_consistent hs.cons h3 hfresh (some p) hpp hs.shows
  have hpar : ∀ k, Coll.parentOf (d.coll.mergeJoin nb (some p)) k = if k ∈ nb.lowerKeys then some p else Coll.parentOf d.coll k := by
    intro k
    rw [Coll.parentOf_mergeJoin h3, h4]
    simp only [Coll.graft, Option.map_some, hlp]
  have hmem : ∀ k, k ∈ (d.coll.mergeJoin nb (some p)).lowerKeys ↔ k ∈ d.coll.lowerKeys ∨ k ∈ nb.lowerKeys := by
    intro k
    simp only [Coll.mergeJoin, List.mem_append, List.mem_filter, decide_eq_true_eq]
    by_cases hk : k ∈ d.coll.lowerKeys <;> simp [hk]
  have hdict : ∀ k, dget (d.coll.mergeJoin nb (some p)).dict k = if k ∈ nb.lowerKeys then dget imp.coll.dict k else dget d.coll.dict k := by
    intro k
    have : dget (d.coll.mergeJoin nb (some p)).dict k = (dget nb.dict k).or (dget d.coll.dict k) := dget_dupdate _ _ h3.nd_dict k
    rw [this]
    by_cases hk : k ∈ nb.lowerKeys
    · rw [if_pos hk, h6 k hk]
      obtain ⟨i, _, _, _, _, b, s, hb, _⟩ := (h5 k).1 hk
      rw [hb]; rfl
    · rw [if_neg hk, dget_eq_none.2 (fun h => hk ((h3.mem_dict k).1 h))]
      rfl
  have hnb : ∀ k i, k ∈ nb.lowerKeys → (Calls (d.coll.mergeJoin nb (some p)) k i ↔ Calls imp.coll k i) := by
    intro k i hk
    unfold Calls
    rw [hpar, if_pos hk, hdict, if_pos hk]
    obtain ⟨i', _, _, c1, c2, _⟩ := (h5 k).1 hk
    constructor
    · rintro ⟨_, _, h⟩; exact ⟨c1, c2, h⟩
    · rintro ⟨_, _, h⟩; exact ⟨(hmem k).2 (.inr hk), by simp, h⟩
  have hdb : ∀ k i, k ∈ d.coll.lowerKeys → (Calls (d.coll.mergeJoin nb (some p)) k i ↔ Calls d.coll k i) := by
    intro k i hk
    unfold Calls
    rw [hpar, if_neg (hfresh k hk), hdict, if_neg (hfresh k hk)]
    constructor
    · rintro ⟨_, h2, h⟩; exact ⟨hk, h2, h⟩
    · rintro ⟨_, h2, h⟩; exact ⟨(hmem k).2 (.inl hk), h2, h⟩
  have hcases : ∀ k i, Calls (d.coll.mergeJoin nb (some p)) k i →
      (k ∈ d.coll.lowerKeys ∧ Calls d.coll k i) ∨ (k ∈ nb.lowerKeys ∧ Calls imp.coll k i ∧ i ∈ frames.map lower ∧ i ∉ d.keys) := by
    intro k i h
    rcases (hmem k).1 h.1 with hk | hk
    · exact .inl ⟨hk, (hdb k i hk).1 h⟩
    · have hc := (hnb k i hk).1 h
      obtain ⟨i', hm, hno, hc'⟩ := (h5 k).1 hk
      have : i = i' := by
        obtain ⟨k1, e1, e1'⟩ := hi.calls.1 hc
        obtain ⟨k2, e2, e2'⟩ := hi.calls.1 hc'
        exact hi.inj _ _ _ _ e1 e2 (e1'.trans e2'.symm)
      subst this
      exact .inr ⟨hk, hc, hm, hno⟩
  obtain ⟨top, ht, htm, htop⟩ := hs.toKept.top
  have htl : (d.coll.mergeJoin nb (some p)).topLevel = [top] := by
    refine root_of_mem hcons (fun x hx => ?_) ((hmem top).2 (.inl htm))
    rw [hpar]
    rcases (hmem x).1 hx with hk | hk
    · rw [if_neg (hfresh x hk), htop x hk]
    · rw [if_pos hk]
      exact iff_of_false (by simp) (fun e => hfresh top htm (e ▸ hk))
  have hkeysd : ∀ k i, Calls d.coll k i → i ∈ d.keys := by
    intro k i h
    obtain ⟨k', hk', _⟩ := hs.calls.1 h
    exact dget_isSome.1 ⟨k', hk'⟩
  obtain ⟨t, e1, e2, e3⟩ := retable_kept (imports := d.imports) hcons hs.shows hs.refuses htl
    (by
      obtain ⟨b, hb, hb'⟩ := hd.outer top (by rw [ht]; simp)
      refine ⟨b, ?_, hb'⟩
      rw [hdict, if_neg (hfresh top htm)]
      simp only [Coll.getItem, hs.cons.lower_keys top htm, htm, if_true] at hb
      cases hx : dget d.coll.dict top with
      | none => rw [hx] at hb; cases hb
      | some b' => rw [hx] at hb; rw [Except.ok.inj hb])
    (by
      intro k hk hpk
      rcases (hmem k).1 hk with hk | hk
      · rw [hpar, if_neg (hfresh k hk)] at hpk
        obtain ⟨i, k', hi', e⟩ := hs.ident k hk hpk
        exact ⟨i, (hdb k i hk).2 (hs.calls.2 ⟨k', hi', e⟩)⟩
      · obtain ⟨i, _, _, hc⟩ := (h5 k).1 hk
        exact ⟨i, (hnb k i hk).2 hc⟩)
    (by
      intro k k' i hk hk'
      rcases hcases k i hk with ⟨a1, a2⟩ | ⟨a1, a2, a3, a4⟩ <;> rcases hcases k' i hk' with ⟨b1, b2⟩ | ⟨b1, b2, b3, b4⟩
      · obtain ⟨x, x1, x2⟩ := hs.calls.1 a2
        obtain ⟨y, y1, y2⟩ := hs.calls.1 b2
        rw [x1] at y1
        rw [← x2, ← y2, Option.some.inj y1]
      · exact absurd (hkeysd _ _ a2) b4
      · exact absurd (hkeysd _ _ b2) a4
      · obtain ⟨x, x1, x2⟩ := hi.calls.1 a2
        obtain ⟨y, y1, y2⟩ := hi.calls.1 b2
        rw [x1] at y1
        rw [← x2, ← y2, Option.some.inj y1])
    (by
      intro k i hk him
      rcases hcases k i hk with ⟨a1, a2⟩ | ⟨a1, a2, a3, a4⟩
      · obtain ⟨x, x1, x2⟩ := hs.calls.1 a2
        rcases (hmem i).1 him with h | h
        · rw [← x2]; exact (hs.clash _ _ x1 h).symm
        · exfalso
          obtain ⟨j, hm, hno, hc⟩ := (h5 i).1 h
          obtain ⟨y, y1, y2⟩ := hi.calls.1 hc
          exact (hap j y y1 hno).2.2 (by rw [y2]; exact hkeysd _ _ a2)
      · obtain ⟨x, x1, x2⟩ := hi.calls.1 a2
        rcases (hmem i).1 him with h | h
        · exact absurd h (hap i x x1 a4).1
        · obtain ⟨j, hm, hno, hc⟩ := (h5 i).1 h
          rw [← x2]; exact (hi.clash _ _ x1 hc.1).symm)
  refine ⟨cb, nb, { d with coll := d.coll.mergeJoin nb (some p) }, { d with coll := d.coll.mergeJoin nb (some p), table := t }, h1, h2,
    ?_, ?_, ?_, hd.lang, ?_, ?_, ?_, htl.trans ht.symm, ?_⟩
  · unfold baseMergeFast
    have : (d.coll.lowerKeys.filter fun k => decide (k ∈ nb.lowerKeys)) = [] := by
      rw [List.filter_eq_nil_iff]
      intro k hk
      simp only [decide_eq_true_eq]
      exact hfresh k hk
    simp only [this]
    rw [if_neg (by simp)]
  · unfold retable
    simp only [hd.lang, e1, read]
  · have : ({ d with coll := d.coll.mergeJoin nb (some p), table := t } : CifDic) =
      { coll := d.coll.mergeJoin nb (some p), table := t, lang := .ddlm, imports := d.imports } := by
      rw [← hd.lang]
    rw [this]
    exact e2
  · intro i
    simp only [look]
    by_cases hid : i ∈ d.keys
    · rw [if_pos hid]
      obtain ⟨k, hk⟩ := dget_isSome.2 hid
      have hc := hs.calls.2 ⟨k, hk, rfl⟩
      have := (e3 i (lower k)).2 ((hdb _ _ hc.1).2 hc)
      rw [this, hk]
      simp only [Option.bind_some, CaseFold.lower_lower]
      rw [hdict, if_neg (hfresh _ hc.1)]
    · rw [if_neg hid]
      by_cases him : i ∈ frames.map lower
      · rw [if_pos him]
        obtain ⟨k, hk⟩ := dget_isSome.2 (hfr i him)
        have hc := hi.calls.2 ⟨k, hk, rfl⟩
        have hkn := (h5 (lower k)).2 ⟨i, him, hid, hc⟩
        have := (e3 i (lower k)).2 ((hnb _ _ hkn).2 hc)
        rw [this, hk]
        simp only [Option.bind_some, CaseFold.lower_lower]
        rw [hdict, if_pos hkn]
      · rw [if_neg him]
        cases hx : dget t i with
        | none => rfl
        | some k =>
          exfalso
          rcases hcases k i ((e3 i k).1 hx) with ⟨_, a2⟩ | ⟨_, _, a3, _⟩
          · exact hid (hkeysd _ _ a2)
          · exact him a3
  · intro i him hid
    obtain ⟨k, hk⟩ := dget_isSome.2 (hfr i him)
    have hc := hi.calls.2 ⟨k, hk, rfl⟩
    have hkn := (h5 (lower k)).2 ⟨i, him, hid, hc⟩
    refine ⟨lower k, (e3 i (lower k)).2 ((hnb _ _ hkn).2 hc), fun x hx => ?_⟩
    simp only [CaseFold.lower_lower] at hx
    rw [hpar] at hx
    split at hx
    · exact hfresh p hp (by rw [Option.some.inj hx]; exact hkn)
    · exact hfresh _ (hs.cons.parents _ _ hx) hkn
  · intro i k hk
    have hc := hs.calls.2 ⟨k, hk, rfl⟩
    exact ⟨lower k, (e3 i (lower k)).2 ((hdb _ _ hc.1).2 hc), CaseFold.lower_lower k⟩
  · intro k hk
    refine ⟨(hmem k).2 (.inl hk), ?_⟩
    simp only
    rw [hdict, if_neg (hfresh k hk)]

end Verif.CifDic
