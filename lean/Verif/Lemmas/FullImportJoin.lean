import Verif.Lemmas.FullImport
import Verif.Lemmas.RemoveDic
/-! Helper lemmas about the import of definitions: joining the categories. -/
set_option linter.unusedSectionVars false
namespace Verif.CifDic
open Validate Ddl1 Import
variable [CaseFold]

theorem low_import : lower importAttr = importAttr := CaseFold.lower_ascii _ (by decide)

/-- A block that can be changed. -/
def Usable (b : Block) : Prop := b.Reachable ∧ ∀ m, b.maxName = some m → 75 ≤ m

/-- Only attribute `x` may differ. -/
structure Alt (b b' : Block) (x : Str) : Prop where
  usable : Usable b'
  same : ∀ y, y ≠ x → dget b'.block y = dget b.block y

/-- Changing the category of a block. -/
theorem moved_block {b : Block} (h : Usable b) {cat : Str} (hc : Printable cat) :
    ∃ b2, ({ b with overwrite := true } : Block).setItem catAttr (.str cat) = (b2, .ok ()) ∧
      Alt b { b2 with overwrite := false } catAttr ∧ Has { b2 with overwrite := false } catAttr (.str cat) := by
  have hr1 : ({ b with overwrite := true } : Block).Reachable := .step b (.configure true b.maxName b.unicode) h.1 trivial
  obtain ⟨b2, h1, h2, h3⟩ := addItem_new (b := { b with overwrite := true }) (Block.reachable_wf hr1).1 (a := catAttr) (v := .str cat)
    (nameOk (b := { b with overwrite := true }) h.2 (r := catAttr.tail) (by unfold Solid; decide) (by decide)) (.inl rfl) (storable_str hc)
  have hr2 : b2.Reachable := by
    have := Block.Reachable.step _ (.add catAttr (.str cat) false) hr1 (by show lower catAttr ≠ Block.saves; rw [low_cat]; decide)
    simp only [Block.step, h1] at this
    exact this
  have hr3 : ({ b2 with overwrite := false } : Block).Reachable := .step b2 (.configure false b2.maxName b2.unicode) hr2 trivial
  refine ⟨b2, ?_, ⟨⟨hr3, fun m hm => h.2 m ?_⟩, fun y hy => ?_⟩, h3⟩
  · unfold Block.setItem
    rw [if_neg (by decide), h1]
  · rw [← hm]; exact h2.max.symm
  · exact h2.same y (by rw [low_cat]; simpa using hy)

theorem contains_of_mem {d : CifDic} (h : Kept d) {i : Str} (hi : i ∈ d.keys) : d.contains i = true := by
  simp only [CifDic.contains, h.low i hi, decide_eq_true_eq]
  exact hi

theorem getItem_of_look {d : CifDic} (h : Kept d) {i : Str} {b : Block} (hb : look d i = some b) : d.getItem i = .ok b := by
  have hi := h.look_some.1 ⟨b, hb⟩
  rw [h.getItem_look (contains_of_mem h hi), h.low i hi]
  exact hb

theorem look_of_getItem {d : CifDic} (h : Kept d) {i : Str} (hi : i ∈ d.keys) {b : Block} (hb : d.getItem i = .ok b) : look d i = some b := by
  rw [h.getItem_look (contains_of_mem h hi), h.low i hi] at hb
  exact hb

/-- The outermost block is no definition. -/
def Enclosing (d : CifDic) : Prop :=
  ∃ k b, k ∈ d.coll.lowerKeys ∧ Coll.parentOf d.coll k = none ∧ dget d.coll.dict k = some b ∧ b.contains idAttr = false

theorem Enclosing.filled {d : CifDic} (h : Kept d) (ho : Enclosing d) :
    ∀ k ∈ d.coll.topLevel, ∃ b, d.coll.getItem k = .ok b ∧ b.contains idAttr = false := by
  obtain ⟨k0, b, h1, h2, h3, h4⟩ := ho
  obtain ⟨top, ht, htm, ht2⟩ := h.top
  intro k hk
  rw [ht, List.mem_singleton] at hk
  have e := (ht2 k0 h1).1 h2
  subst hk e
  obtain ⟨b', g1, g2⟩ := Coll.getItem_ok h.cons.keyed h1
  rw [h3] at g2
  injection g2 with g2
  exact ⟨b', g1, g2 ▸ h4⟩

theorem Filled.outer' {d : CifDic} (h : Filled d) : Enclosing d := by
  obtain ⟨top, ht, htm, ht2⟩ := h.sound.toKept.top
  obtain ⟨b, h1, h2⟩ := h.outer top (by rw [ht]; simp)
  obtain ⟨b', g1, g2⟩ := Coll.getItem_ok h.sound.cons.keyed htm
  rw [g1] at h1
  injection h1 with h1
  exact ⟨top, b, htm, (ht2 top htm).2 rfl, h1 ▸ g2, h2⟩

theorem Enclosing.put {d : CifDic} (h : Kept d) (ho : Enclosing d) {key : Str} (hc : d.contains key = true) (b : Block) : Enclosing (putBlock d key b) := by
  obtain ⟨k, hk⟩ := contains_iff.1 hc
  obtain ⟨b0, hb0, _, hl, _⟩ := h.byId hk
  obtain ⟨k0, b1, h1, h2, h3, h4⟩ := ho
  have hne : lower k ≠ k0 := by
    rintro rfl
    exact (h.blocks _ _ hk).2 h2
  have e : CifDic.putBlock d key b = { d with coll := { d.coll with dict := dset d.coll.dict (lower k) b } } := by
    simp only [CifDic.putBlock, hl]
  rw [e]
  refine ⟨k0, b1, h1, h2, ?_, h4⟩
  show dget (dset _ _ _) _ = _
  rw [dget_dset, if_neg hne]
  exact h3

theorem Enclosing.setAttr {d : CifDic} (h : Kept d) (ho : Enclosing d) {key a : Str} {v : PyVal} (hc : d.contains key = true) :
    Enclosing (CifDic.setAttr d key a v).1 := by
  obtain ⟨k, hk⟩ := contains_iff.1 hc
  obtain ⟨b0, _, hg, _, _⟩ := h.byId hk
  simp only [CifDic.setAttr, hg]
  exact ho.put h hc _

theorem Enclosing.setOverwrite {d : CifDic} (h : Kept d) (ho : Enclosing d) {key : Str} {v : Bool} (hc : d.contains key = true) :
    Enclosing (CifDic.setOverwrite v d key).1 := by
  obtain ⟨k, hk⟩ := contains_iff.1 hc
  obtain ⟨b0, _, hg, _, _⟩ := h.byId hk
  simp only [CifDic.setOverwrite, hg]
  exact ho.put h hc _

/-- Putting one definition under another category. -/
theorem reparent_ok {d : CifDic} (h : Kept d) (ho : Enclosing d) {f : Str} (hf : f ∈ d.keys) {b : Block} (hb : look d f = some b)
    (hu : Usable b) {cat : Str} (hc : Printable cat) :
    ∃ d' b', reparent (.str cat) d f = (d', .ok ()) ∧ Like d d' ∧ Enclosing d' ∧ Alt b b' catAttr ∧ Has b' catAttr (.str cat) ∧
      ∀ i, look d' i = if i = f then some b' else look d i := by
  have hlf := h.low f hf
  have hcf := contains_of_mem h hf
  obtain ⟨b2, s1, s2, s3⟩ := moved_block hu hc
  obtain ⟨d1, e1, l1, v1⟩ := h.setOverwrite true hcf
  have ho1 : Enclosing d1 := by
    have := ho.setOverwrite (v := true) h hcf
    rw [e1] at this; exact this
  have hk1 := l1.kept h
  have hc1 : d1.contains f = true := by rw [l1.contains]; exact hcf
  have hlk1 : look d1 f = some { b with overwrite := true } := by rw [v1, hlf, if_pos rfl, hb]; rfl
  have hg1 := getItem_of_look hk1 hlk1
  have e2 : setAttr d1 f catAttr (.str cat) = (putBlock d1 f b2, .ok ()) := by
    simp only [CifDic.setAttr, hg1, s1]
  obtain ⟨l2, v2⟩ := hk1.putBlock hc1 b2
  have ho2 := ho1.put hk1 hc1 b2
  have hk2 := l2.kept hk1
  have hc2 : (putBlock d1 f b2).contains f = true := by rw [l2.contains]; exact hc1
  obtain ⟨d3, e3, l3, v3⟩ := hk2.setOverwrite false hc2
  have ho3 : Enclosing d3 := by
    have := ho2.setOverwrite (v := false) hk2 hc2
    rw [e3] at this; exact this
  refine ⟨d3, _, ?_, (l1.trans l2).trans l3, ho3, s2, s3, fun i => ?_⟩
  · unfold reparent
    rw [e1, seq_ok, e2, seq_ok, e3]
  · rw [v3, v2, v1, hlf]
    by_cases hi : i = f
    · simp only [hi, if_true, Option.map_some]
    · simp only [hi, if_false]

/-- Putting several definitions under another category. -/
theorem each_reparent {cat : Str} (hc : Printable cat) : ∀ (l : List Str) {d : CifDic} (_ : Kept d) (_ : Enclosing d) (_ : l.Nodup)
    (_ : ∀ f ∈ l, ∃ b, look d f = some b ∧ Usable b),
    ∃ d', each (reparent (.str cat)) d l = (d', .ok ()) ∧ Like d d' ∧ Enclosing d' ∧ (∀ i, i ∉ l → look d' i = look d i) ∧
      ∀ i ∈ l, ∀ b, look d i = some b → ∃ b', look d' i = some b' ∧ Alt b b' catAttr ∧ Has b' catAttr (.str cat)
  | [], d, _, ho, _, _ => ⟨d, rfl, Like.refl d, ho, fun _ _ => rfl, by simp⟩
  | f :: l, d, h, ho, hn, hu => by
    rw [List.nodup_cons] at hn
    obtain ⟨b, hb, hub⟩ := hu f (by simp)
    obtain ⟨d1, b1, e1, l1, o1, a1, g1, v1⟩ := reparent_ok h ho (h.look_some.1 ⟨b, hb⟩) hb hub hc
    have hother : ∀ i ∈ l, look d1 i = look d i := fun i hi => by rw [v1, if_neg]; rintro rfl; exact hn.1 hi
    obtain ⟨d2, e2, l2, o2, v2, w2⟩ := each_reparent hc l (l1.kept h) o1 hn.2 (fun i hi => by
      rw [hother i hi]; exact hu i (List.mem_cons_of_mem _ hi))
    refine ⟨d2, ?_, l1.trans l2, o2, fun i hi => ?_, fun i hi b' hb' => ?_⟩
    · rw [each, e1, seq_ok, e2]
    · rw [List.mem_cons, not_or] at hi
      rw [v2 i hi.2, v1, if_neg hi.1]
    · rcases List.mem_cons.1 hi with rfl | hi
      · rw [hb] at hb'
        injection hb' with hb'
        subst hb'
        refine ⟨b1, ?_, a1, g1⟩
        rw [v2 _ hn.1, v1, if_pos rfl]
      · exact w2 i hi b' (by rw [hother i hi]; exact hb')

/-- Deleting a definition whose block encloses no others. -/
theorem del_leaf {d : CifDic} (h : Kept d) (ho : Enclosing d) {key k : Str} (hk : dget d.table (lower key) = some k)
    (hch : ∀ x, Coll.parentOf d.coll x ≠ some (lower k)) :
    ∃ d', delItem d key = (d', .ok ()) ∧ Kept d' ∧ Enclosing d' ∧ d'.lang = d.lang ∧ ∀ i, look d' i = if i = lower key then none else look d i := by
  obtain ⟨d', e, hm⟩ := (Minus.refl h).del hk hch
  obtain ⟨hbm, hbp⟩ := h.blocks _ _ hk
  have hleaf : d.coll.children (lower k) = [] := by
    rw [List.eq_nil_iff_forall_not_mem]
    intro j hj
    rw [Coll.mem_children h.cons.nd_table] at hj
    exact hch j hj
  have e' := (delFuel_leaf (n := d.coll.childTable.length) h.cons.keyed hk hbm (h.visible hbm) hleaf).symm.trans e
  injection e' with e1 _
  refine ⟨d', e, hm.kept, ?_, by rw [← e1], fun i => ?_⟩
  · obtain ⟨k0, b, h1, h2, h3, h4⟩ := ho
    have hne : k0 ≠ lower k := by rintro rfl; exact hbp h2
    rw [← e1]
    refine ⟨k0, b, ?_, ?_, ?_, h4⟩
    · show k0 ∈ d.coll.lowerKeys.filter _
      rw [List.mem_filter]; exact ⟨h1, by simpa using hne⟩
    · show Coll.parentOf (d.coll.restrict _) k0 = none
      rw [Coll.parentOf_restrict, if_pos (by simpa using hne)]
      exact h2
    · show dget (d.coll.dict.filter _) k0 = some b
      rw [dget_filter _ (fun x => decide (x ≠ lower k)), if_pos (by simpa using hne)]
      exact h3
  · by_cases hi : i = lower key
    · rw [if_pos hi]
      unfold look
      rw [hm.gone i (.inr hi)]
      rfl
    · rw [if_neg hi]
      exact hm.look_eq i (by simpa using hi)

/-- Deleting an attribute of a definition. -/
theorem delAttr_ok {d : CifDic} (h : Kept d) (ho : Enclosing d) {f a : Str} {b : Block} (hb : look d f = some b) (hu : Usable b) :
    ∃ d' b', delAttr d f a = (d', .ok ()) ∧ Like d d' ∧ Enclosing d' ∧ Alt b b' (lower a) ∧ b'.contains a = false ∧
      ∀ i, look d' i = if i = f then some b' else look d i := by
  have hf := h.look_some.1 ⟨b, hb⟩
  have hlf := h.low f hf
  have hcf := contains_of_mem h hf
  have hg := getItem_of_look h hb
  obtain ⟨r1, r2⟩ := Block.removeItem_block (Block.reachable_wf hu.1).1 a
  obtain ⟨l1, v1⟩ := h.putBlock hcf (b.removeItem a).1
  have hmax : (b.removeItem a).1.maxName = b.maxName := by
    rw [Block.removeItem_eq (Block.reachable_wf hu.1).1]
    repeat' split
    all_goals rfl
  refine ⟨_, (b.removeItem a).1, ?_, l1, ho.put h hcf _, ⟨⟨.step b (.remove a) hu.1 trivial, by rw [hmax]; exact hu.2⟩, fun y hy => ?_⟩, ?_, fun i => ?_⟩
  · simp only [delAttr, hg]
    rw [← r1]
  · rw [r2, dget_ddel, if_neg (fun e => hy e.symm)]
  · rw [contains_dget, r2, dget_ddel, if_pos rfl]
    rfl
  · rw [v1, hlf]

/-! ## The whole import -/

/-- A definition in good order. -/
def Good (i : Str) (b : Block) : Prop := Usable b ∧ Plain b ∧ (∃ s, Has b idAttr (.str s) ∧ lower s = i) ∧ i ≠ []

theorem Filled.good {d : CifDic} (h : Filled d) {i : Str} {b : Block} (hb : look d i = some b) : Good i b := by
  have hi := h.sound.look_some.1 ⟨b, hb⟩
  have hg := getItem_of_look h.sound.toKept hb
  obtain ⟨b1, e1, u1, u2⟩ := h.blocks i hi
  obtain ⟨b2, e2, p2⟩ := h.readable.found i hi
  obtain ⟨b3, s, e3, i3, i4⟩ := h.sound.ids i hi
  rw [hg] at e1 e2 e3
  injection e1 with e1
  injection e2 with e2
  injection e3 with e3
  subst e1 e2 e3
  exact ⟨⟨u1, u2⟩, p2, ⟨s, i3, i4⟩, h.readable.named i hi⟩

theorem filled_of_good {d : CifDic} (hk : Kept d) (ho : Enclosing d) (hl : d.lang = .ddlm) (hg : ∀ i b, look d i = some b → Good i b) : Filled d where
  sound := sound_of hk fun i b hb => by
    obtain ⟨s, h1, h2⟩ := (hg i b hb).2.2.1
    exact ⟨s, by rw [← low_id]; exact val_of_has h1, h2⟩
  readable :=
    ⟨hk.nodup, hk.low, fun i hi => by
      obtain ⟨b, hb⟩ := hk.look_some.2 hi
      exact (hg i b hb).2.2.2, fun i hi => by
      obtain ⟨b, hb⟩ := hk.look_some.2 hi
      exact ⟨b, getItem_of_look hk hb, (hg i b hb).2.1⟩⟩
  lang := hl
  outer := ho.filled hk
  blocks i hi := by
    obtain ⟨b, hb⟩ := hk.look_some.2 hi
    exact ⟨b, getItem_of_look hk hb, (hg i b hb).1.1, (hg i b hb).1.2⟩

theorem Good.moved {i : Str} {b b' : Block} (h : Good i b) (ha : Alt b b' catAttr) {cat : Str} (hc : Has b' catAttr (.str cat)) : Good i b' := by
  obtain ⟨_, p, ⟨s, s1, s2⟩, n⟩ := h
  have e1 := ha.same (lower idAttr) (by rw [low_id]; decide)
  have e2 := ha.same (lower scopeAttr) (by rw [low_scope]; decide)
  have e3 := ha.same (lower classAttr) (by rw [low_class]; decide)
  refine ⟨ha.usable, ⟨fun _ => ⟨cat, hc.2⟩, ?_, ?_⟩, ⟨s, (has_of_same e1).2 s1, s2⟩, n⟩
  · rw [contains_of_same e2, getItem_of_same e2]; exact p.2.1
  · rw [contains_of_same e3, getItem_of_same e3]; exact p.2.2

theorem Good.removed {i : Str} {b b' : Block} (h : Good i b) (ha : Alt b b' importAttr) : Good i b' := by
  obtain ⟨_, p, ⟨s, s1, s2⟩, n⟩ := h
  have e0 := ha.same (lower catAttr) (by rw [low_cat]; decide)
  have e1 := ha.same (lower idAttr) (by rw [low_id]; decide)
  have e2 := ha.same (lower scopeAttr) (by rw [low_scope]; decide)
  have e3 := ha.same (lower classAttr) (by rw [low_class]; decide)
  refine ⟨ha.usable, ⟨?_, ?_, ?_⟩, ⟨s, (has_of_same e1).2 s1, s2⟩, n⟩
  · rw [contains_of_same e0, getItem_of_same e0]; exact p.1
  · rw [contains_of_same e2, getItem_of_same e2]; exact p.2.1
  · rw [contains_of_same e3, getItem_of_same e3]; exact p.2.2

theorem inCategory_look {d : CifDic} (h : Kept d) {c i : Str} {b : Block} (hb : look d i = some b) :
    InCategory d c i ↔ ∃ s, Has b catAttr (.str s) ∧ lower s = lower c := by
  have hg := getItem_of_look h hb
  constructor
  · rintro ⟨b', s, e, h1, h2⟩
    rw [hg] at e
    injection e with e
    subst e
    exact ⟨s, h1, h2⟩
  · rintro ⟨s, h1, h2⟩
    exact ⟨b, s, hg, h1, h2⟩

/-- The frames that are added for a `Head`. -/
theorem frames_of_head {imp : CifDic} (hi : Filled imp) (ha : Acyclic imp) {o : Str} (ho : lower o ∈ imp.keys) :
    ∃ l, imp.allChildren o = .ok (l ++ [o]) ∧ (l ++ [o]).map lower = l ++ [lower o] ∧ ((l ++ [o]).map lower).Nodup ∧
      ∀ x, x ∈ l ↔ Below imp (lower o) x := by
  obtain ⟨l, h1, h2, h3⟩ := C56_children hi.readable ha (c := o) (hi.readable.named _ ho)
  have h4 : ∀ x, x ∈ l ↔ Below imp (lower o) x := fun x => by rw [h3, below_lower]
  have hlow : l.map lower = l := by
    conv => rhs; rw [← List.map_id l]
    refine List.map_congr_left fun x hx => ?_
    have : x ∈ imp.keys := by
      cases (h4 x).1 hx with
      | child h _ => exact h
      | deeper _ _ h _ => exact h
    exact hi.sound.low x this
  have e : (l ++ [o]).map lower = l ++ [lower o] := by rw [List.map_append, hlow]; rfl
  refine ⟨l, h1, e, ?_, h4⟩
  rw [e, List.nodup_append]
  refine ⟨h2, by simp, ?_⟩
  intro x hx y hy exy
  rw [List.mem_singleton] at hy
  subst exy hy
  exact ha _ ((h4 _).1 hx)

theorem below_keys {d : CifDic} {c x : Str} (h : Below d c x) : x ∈ d.keys := by
  cases h with
  | child h _ => exact h
  | deeper _ _ h _ => exact h

/-- The block around the definitions. -/
theorem head_found {d : CifDic} (hd : Filled d) {h : Str} (hh : h ∈ d.keys) (hb : h ∈ d.coll.lowerKeys) :
    ∃ p, p ∈ d.coll.lowerKeys ∧ d.coll.getParent h = .ok (some p) ∧ syntacticHead d (some p) = .ok (some p) := by
  have hk := hd.sound.toKept
  obtain ⟨k, hkt⟩ := dget_isSome.2 hh
  have e := hk.clash h k hkt hb
  have hp := (hk.blocks _ _ hkt).2
  rw [e] at hp
  cases hpp : Coll.parentOf d.coll h with
  | none => exact absurd hpp hp
  | some p =>
    have hm : p ∈ d.coll.lowerKeys := hk.cons.parents _ _ hpp
    refine ⟨p, hm, ?_, ?_⟩
    · unfold Coll.getParent
      rw [hk.low h hh]
      unfold Coll.parentOf at hpp
      cases hx : dget d.coll.childTable h with
      | none => rw [hx] at hpp; cases hpp
      | some pc => rw [hx] at hpp; simp only at hpp; simp only [hpp]
    · have hlp := hk.cons.lower_keys p hm
      obtain ⟨b, g1, g2⟩ := Coll.getItem_ok hk.cons.keyed hm
      cases hx : dget d.table p with
      | some k' =>
        have e' := hk.clash p k' hx hm
        rw [← hlp] at hx
        obtain ⟨b', _, q2, q3, _⟩ := hk.byId hx
        simp only [syntacticHead, q2, q3, e']
      | none =>
        have e1 : byId d p = .error .key := by simp only [byId, hlp, hx]
        have e2 : d.getItem p = .ok b := by simp only [CifDic.getItem, e1, g1]
        simp only [syntacticHead, e2, locate, e1, g1, hlp]

/-- Importing a `Head` into a `Head`. -/
theorem heads_joined {d imp : CifDic} (hd : Filled d) (hi : Filled imp) (ha : Acyclic imp) (hf : FlatFrames imp) (hap : Apart d imp)
    {h o cat key : Str} {target : Block} (hh : IsHead d h) (hhb : h ∈ d.coll.lowerKeys) (hcat : attrI d h objAttr = .ok (.str cat))
    (hpr : Printable cat) (ht : IsHead imp (lower o)) (htg : imp.getItem (lower o) = .ok target) (hobj : Has target objAttr (.str o))
    (hnew : lower o ∉ d.keys) (hsep : ¬ InCategory d (lower o) h) :
    ∃ d', ddlmImport d h imp target key fullMode = (d', .ok ()) ∧ Filled d' ∧
      (∀ i, i ∈ d.keys → i ≠ h → ∃ b b', look d i = some b ∧ look d' i = some b' ∧ Joined cat (InCategory d (lower o) i) b b') ∧
      (∀ i, i ∉ d.keys → Below imp (lower o) i → ∃ b b', look imp i = some b ∧ look d' i = some b' ∧ Joined cat (InCategory imp (lower o) i) b b') ∧
      (∃ b b', look d h = some b ∧ look d' h = some b' ∧ b'.contains importAttr = false ∧ ∀ a, lower a ≠ importAttr → b'.lookup a = b.lookup a) ∧
      ∀ i, i ∉ d.keys → ¬ Below imp (lower o) i → look d' i = none := by
  have hkd := hd.sound.toKept
  have hki := hi.sound.toKept
  obtain ⟨hhm, bh, hbh, hbc⟩ := hh
  have hlh := look_of_getItem hkd hhm hbh
  obtain ⟨htm, bt, hbt, hbtc⟩ := ht
  rw [htg] at hbt
  injection hbt with hbt
  subst hbt
  obtain ⟨p, hp, hgp, hsh⟩ := head_found hd hhm hhb
  obtain ⟨l, hall, hmap, hnd, hl⟩ := frames_of_head hi ha htm
  have hfr : ∀ i ∈ (l ++ [o]).map lower, i ∈ imp.keys := by
    rw [hmap]
    intro i him
    rcases List.mem_append.1 him with him | him
    · exact below_keys ((hl i).1 him)
    · rw [List.mem_singleton] at him; rw [him]; exact htm
  obtain ⟨cb, cb', d0, d1, m1, m2, m3, m4, hk1, hlang1, hlook1, hleaf1, htab1, htop1, hdict1⟩ := merged hd hi.sound hf hap hfr hnd hp
  rw [hmap] at hlook1 hleaf1
  have hmode : headToHead d h target = .ok true := by
    have e1 : isClass d "Datum".toList "Head".toList h = .ok true := by
      simp only [isClass, attrD, hbh, getD, hbc.1, hbc.2, if_true, decide_true]
    simp only [headToHead, e1, getD, hbtc.1, hbtc.2, if_true, decide_true]
  have hsm : syntacticMerge d h imp target = (d1, .ok (o, true)) := by
    simp only [syntacticMerge, CifDic.read, hgp, hsh, hobj.2, textOf, hall, hmode, childFrames, if_true, m1, m2, m3, seq, m4]
  -- what the merged dictionary holds
  have hown1 : ∀ i ∈ d.keys, look d1 i = look d i := fun i hx => by rw [hlook1, if_pos hx]
  have hnew1 : ∀ i, i ∉ d.keys → i ∈ l ++ [lower o] → look d1 i = look imp i := fun i hx hy => by rw [hlook1, if_neg hx, if_pos hy]
  have hgood1 : ∀ i b, look d1 i = some b → Good i b := by
    intro i b hb
    rw [hlook1] at hb
    split at hb
    · exact hd.good hb
    · split at hb
      · exact hi.good hb
      · cases hb
  have hout1 : Enclosing d1 := by
    obtain ⟨top, ht1, ht2, ht3⟩ := hk1.top
    have htd : top ∈ d.coll.topLevel := by rw [← htop1, ht1]; simp
    obtain ⟨b, g1, g2⟩ := hd.outer top htd
    have htl : top ∈ d.coll.lowerKeys := by
      rw [Coll.mem_topLevel hkd.cons.nd_table, hkd.cons.mem_table] at htd
      exact htd.1
    obtain ⟨b', q1, q2⟩ := Coll.getItem_ok hkd.cons.keyed htl
    rw [g1] at q1
    injection q1 with q1
    subst q1
    exact ⟨top, b, ht2, (ht3 top ht2).2 rfl, by rw [(hdict1 top htl).2]; exact q2, g2⟩
  have hcat1 : attrI d1 h objAttr = .ok (.str cat) := by
    have : d1.getItem h = .ok bh := getItem_of_look hk1 (by rw [hown1 h hhm]; exact hlh)
    simp only [attrI, hbh] at hcat
    simp only [attrI, this, hcat]
  -- the children of the imported head
  have hr1 := (filled_of_good hk1 hout1 hlang1 hgood1).readable
  obtain ⟨ch, c1, c2, c3⟩ := C56_immediate hr1 (c := o) (hi.readable.named _ htm)
  obtain ⟨d2, r1, r2, r3, r4, r5⟩ := each_reparent hpr ch hk1 hout1 c2 (fun f hfm => by
    obtain ⟨b, hb⟩ := hk1.look_some.2 ((c3 f).1 hfm).1
    exact ⟨b, hb, (hgood1 f b hb).1⟩)
  have hk2 := r2.kept hk1
  obtain ⟨k, t1, t2⟩ := hleaf1 (lower o) (by simp) hnew
  obtain ⟨d3, e3, hk3, o3, lang3, v3⟩ := del_leaf hk2 r3 (key := o) (k := k) (by rw [r2.table]; exact t1) (by
    rw [r2.coll]; exact t2)
  have hih : h ≠ lower o := fun e => hnew (e ▸ hhm)
  have hnch : h ∉ ch := fun hx => hsep (by
    have := (c3 h).1 hx
    have hx2 := (inCategory_look hk1 (by rw [hown1 h hhm]; exact hlh)).1 this.2
    obtain ⟨s, s1, s2⟩ := hx2
    exact (inCategory_look hkd hlh).2 ⟨s, s1, s2.trans (CaseFold.lower_lower o).symm⟩)
  have hl3 : look d3 h = some bh := by rw [v3, if_neg hih, r4 h hnch, hown1 h hhm]; exact hlh
  obtain ⟨d4, b4, e4, l4, o4, a4, n4, v4⟩ := delAttr_ok hk3 o3 (a := importAttr) hl3 (hd.good hlh).1
  rw [low_import] at a4
  -- results
  have hlook4 : ∀ i, i ≠ h → i ≠ lower o → look d4 i = look d2 i := fun i x1 x2 => by rw [v4, if_neg x1, v3, if_neg x2]
  have hjoin : ∀ i b, i ≠ h → i ≠ lower o → look d1 i = some b → ∃ b', look d4 i = some b' ∧ Good i b' ∧
      Joined cat (∃ s, Has b catAttr (.str s) ∧ lower s = lower o) b b' := by
    intro i b x1 x2 hb
    rw [hlook4 i x1 x2]
    by_cases hc : i ∈ ch
    · obtain ⟨b', w1, w2, w3⟩ := r5 i hc b hb
      refine ⟨b', w1, (hgood1 i b hb).moved w2 w3, .inr ⟨(inCategory_look hk1 hb).1 ((c3 i).1 hc).2, ?_, ?_⟩⟩
      · intro q hq
        rw [List.mem_singleton] at hq
        subst hq
        exact w3
      · intro a hq
        refine lookup_of_same (w2.same _ ?_)
        have := hq (catAttr, .str cat) (by simp)
        rw [low_cat] at this
        exact this
    · refine ⟨b, by rw [r4 i hc]; exact hb, hgood1 i b hb, .inl ⟨fun hx => hc ((c3 i).2 ⟨hk1.look_some.1 ⟨b, hb⟩, (inCategory_look hk1 hb).2 hx⟩), rfl⟩⟩
  refine ⟨d4, ?_, ?_, ?_, ?_, ?_, ?_⟩
  · have hne : fullMode ≠ contentsMode := by decide
    simp only [ddlmImport, if_neg hne, if_true, importFull, hsm, CifDic.read, seq, hcat1, joinHeads, c1, r1, e3, e4]
  · refine filled_of_good (l4.kept hk3) o4 ?_ fun i b hb => ?_
    · rw [l4.lang, lang3, r2.lang]; exact hlang1
    · by_cases x1 : i = h
      · rw [v4, if_pos x1] at hb
        injection hb with hb
        subst hb x1
        exact (hd.good hlh).removed a4
      · by_cases x2 : i = lower o
        · rw [v4, if_neg x1, v3, if_pos x2] at hb
          cases hb
        · have hm1 : i ∈ d1.keys := by
            have := (l4.kept hk3).look_some.1 ⟨b, hb⟩
            rw [l4.keys] at this
            obtain ⟨b3, hb3⟩ := hk3.look_some.2 this
            rw [v3, if_neg x2] at hb3
            have := hk2.look_some.1 ⟨b3, hb3⟩
            rw [r2.keys] at this
            exact this
          obtain ⟨b1, hb1⟩ := hk1.look_some.2 hm1
          obtain ⟨b', w1, w2, _⟩ := hjoin i b1 x1 x2 hb1
          rw [hb] at w1
          injection w1 with w1
          exact w1 ▸ w2
  · intro i him x1
    have x2 : i ≠ lower o := fun e => hnew (e ▸ him)
    obtain ⟨b, hb⟩ := hkd.look_some.2 him
    obtain ⟨b', w1, _, w3⟩ := hjoin i b x1 x2 (by rw [hown1 i him]; exact hb)
    refine ⟨b, b', hb, w1, ?_⟩
    unfold Joined at w3 ⊢
    rw [inCategory_look hkd hb, CaseFold.lower_lower]
    exact w3
  · intro i him hbl
    have x1 : i ≠ h := fun e => him (e ▸ hhm)
    have x2 : i ≠ lower o := fun e => ha _ (e ▸ hbl)
    obtain ⟨b, hb⟩ := hki.look_some.2 (below_keys hbl)
    obtain ⟨b', w1, _, w3⟩ := hjoin i b x1 x2 (by rw [hnew1 i him (List.mem_append_left _ ((hl i).2 hbl))]; exact hb)
    refine ⟨b, b', hb, w1, ?_⟩
    unfold Joined at w3 ⊢
    rw [inCategory_look hki hb, CaseFold.lower_lower]
    exact w3
  · refine ⟨bh, b4, hlh, by rw [v4, if_pos rfl], n4, fun a hx => lookup_of_same (a4.same _ hx)⟩
  · intro i him hbl
    have x1 : i ≠ h := fun e => him (e ▸ hhm)
    by_cases x2 : i = lower o
    · rw [v4, if_neg x1, v3, if_pos x2]
    · have hd1 : look d1 i = none := by
        rw [hlook1, if_neg him, if_neg]
        intro hx
        rcases List.mem_append.1 hx with hx | hx
        · exact hbl ((hl i).1 hx)
        · exact x2 (List.mem_singleton.1 hx)
      have hnc : i ∉ ch := fun hx => by
        obtain ⟨b, hb⟩ := hk1.look_some.2 ((c3 i).1 hx).1
        rw [hd1] at hb; cases hb
      rw [hlook4 i x1 x2, r4 i hnc, hd1]

end Verif.CifDic
