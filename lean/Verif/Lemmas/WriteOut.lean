import Verif.Spec.WriteOut
import Verif.Lemmas.CollectionTree
/-! Helper lemmas: writing out a collection. -/
set_option linter.unusedSectionVars false
namespace Verif.Coll
open List
variable [CaseFold]

theorem lookup_ok {c : Coll} (h : Consistent c) {k : Str} (hk : k ∈ c.lowerKeys) :
    ∃ pc b, dget c.childTable k = some pc ∧ c.getItem k = .ok b ∧ printedName c k = pc.blockId ∧ parentOf c k = pc.parent := by
  obtain ⟨pc, hpc⟩ := dget_isSome.mpr ((h.mem_table k).mpr hk)
  obtain ⟨b, hb⟩ := dget_isSome.mpr ((h.mem_dict k).mpr hk)
  refine ⟨pc, b, hpc, ?_, ?_, ?_⟩
  · rw [getItem_entry h, h.lower_keys k hk]
    simp only [entry, hb, hpc]
  · simp only [printedName, entry, hb, hpc]
  · simp only [parentOf, hpc]

theorem topNames_eq {c : Coll} (h : Consistent c) : ∀ {ord : List Str}, (∀ k ∈ ord, k ∈ c.lowerKeys) →
    c.topNames ord = .ok ((topsOf c ord).map fun t => (t, printedName c t))
  | [], _ => rfl
  | a :: r, hk => by
    obtain ⟨pc, b, hpc, _, hn, hp⟩ := lookup_ok h (hk a List.mem_cons_self)
    unfold topNames
    rw [hpc]
    simp only
    rw [topNames_eq h fun k hk' => hk k (List.mem_cons_of_mem _ hk')]
    simp only [topsOf, List.filter_cons, hp, ← hn]
    by_cases hpp : pc.parent = none <;> simp [hpp]

theorem flatKids_eq {c : Coll} (h : Consistent c) : ∀ {ks : List Str} {left : List Str}, (∀ k ∈ ks, k ∈ c.lowerKeys) → ks.Nodup →
    left.Nodup → (∀ k ∈ ks, k ∈ left) →
    ∃ left', c.flatKids left ks = .ok (ks.flatMap (frame c), left') ∧ left'.Nodup ∧ ∀ x, x ∈ left' ↔ x ∈ left ∧ x ∉ ks
  | [], left, _, _, hl, _ => ⟨left, rfl, hl, by simp⟩
  | k :: ks, left, hk, hn, hl, hin => by
    have hkk := hk k List.mem_cons_self
    obtain ⟨pc, b, hpc, hg, hname, _⟩ := lookup_ok h hkk
    unfold flatKids
    rw [hpc, hg, h.lower_keys k hkk]
    simp only
    rw [pyRemove_eq (hin k List.mem_cons_self)]
    simp only
    have hn' := List.nodup_cons.mp hn
    have hm : ∀ x, x ∈ pyErase left k ↔ x ≠ k ∧ x ∈ left := fun x => mem_pyErase hl
    obtain ⟨left', e, hl', hm'⟩ := flatKids_eq h (left := pyErase left k) (fun x hx => hk x (List.mem_cons_of_mem _ hx)) hn'.2
      (nodup_pyErase hl _) (fun x hx => (hm x).mpr ⟨fun e => hn'.1 (e ▸ hx), hin x (List.mem_cons_of_mem _ hx)⟩)
    rw [e]
    refine ⟨left', ?_, hl', ?_⟩
    · simp [frame, hname]
    · intro x
      rw [hm', hm]
      simp only [List.mem_cons, not_or]
      constructor
      · rintro ⟨⟨h1, h2⟩, h3⟩; exact ⟨h2, h1, h3⟩
      · rintro ⟨h2, h1, h3⟩; exact ⟨⟨h1, h2⟩, h3⟩

theorem within_top_unique {c : Coll} {a b x : Str} (ha : parentOf c a = none) (hb : parentOf c b = none)
    (h1 : Within c a x) (h2 : Within c b x) : a = b := by
  have key : ∀ {x}, Under c a x → Within c b x → a = b := by
    intro x hu
    induction hu with
    | child hx =>
      intro hw
      rcases hw with rfl | hw
      · rw [hb] at hx; cases hx
      · obtain ⟨p, hp, hw'⟩ := hw.parent
        rw [hx] at hp; injection hp with hp; subst hp
        rcases hw' with e | hw'
        · exact e
        · obtain ⟨q, hq, _⟩ := hw'.parent
          rw [ha] at hq; cases hq
    | deeper _ hy ih =>
      intro hw
      rcases hw with rfl | hw
      · rw [hb] at hy; cases hy
      · obtain ⟨p, hp, hw'⟩ := hw.parent
        rw [hy] at hp; injection hp with hp; subst hp
        exact ih hw'
  rcases h1 with rfl | h1
  · rcases h2 with e | h2
    · exact e
    · obtain ⟨q, hq, _⟩ := h2.parent
      rw [ha] at hq; cases hq
  · exact key h1 h2

theorem writeTop_flat {c : Coll} (h : Consistent c) {ord left : List Str} (ho : ∀ k ∈ ord, k ∈ c.lowerKeys) (hn : ord.Nodup)
    {t : Str} (ht : t ∈ c.lowerKeys) (hl : left.Nodup) (hin : ∀ x ∈ c.lowerKeys, Within c t x → x ∈ left) :
    ∃ left', c.writeTop false ord t (printedName c t) left =
        .ok (dataBlock c t ((framesOf c t ord).flatMap (frame c)), left') ∧ left'.Nodup ∧
      ∀ x ∈ left, ¬ Within c t x → x ∈ left' := by
  classical
  obtain ⟨pc, b, hpc, hg, hname, _⟩ := lookup_ok h ht
  unfold writeTop
  simp only [Bool.false_eq_true, if_false]
  rw [pyRemove_eq (hin t ht (Or.inl rfl)), hg]
  simp only
  rw [filterE_ok (g := fun a => decide (Under c t a))]
  rotate_left
  · intro x hx
    rw [isChildOfParent_eq h, h.lower_keys t ht, h.lower_keys x (ho x hx)]
  simp only
  have hm : ∀ x, x ∈ pyErase left t ↔ x ≠ t ∧ x ∈ left := fun x => mem_pyErase hl
  obtain ⟨left', e, hl', hm'⟩ := flatKids_eq h (ks := ord.filter fun a => decide (Under c t a)) (left := pyErase left t)
    (fun x hx => ho x (List.mem_filter.mp hx).1) (hn.filter _) (nodup_pyErase hl _)
    (fun x hx => by
      have hx' := List.mem_filter.mp hx
      have hu := of_decide_eq_true hx'.2
      exact (hm x).mpr ⟨fun e => h.acyclic t (e ▸ hu), hin x (ho x hx'.1) (Or.inr hu)⟩)
  rw [e]
  refine ⟨left', ?_, hl', ?_⟩
  · simp only [dataBlock, framesOf, decide_eq_true_eq]
  · intro x hx hw
    refine (hm' x).mpr ⟨(hm x).mpr ⟨fun e => hw (Or.inl e), hx⟩, ?_⟩
    intro hf
    exact hw (Or.inr (of_decide_eq_true (List.mem_filter.mp hf).2))

theorem writeTops_flat {c : Coll} (h : Consistent c) {ord : List Str} (ho : ∀ k ∈ ord, k ∈ c.lowerKeys) (hn : ord.Nodup) :
    ∀ {ts left : List Str}, (∀ t ∈ ts, t ∈ c.lowerKeys ∧ parentOf c t = none) → ts.Nodup → left.Nodup →
      (∀ t ∈ ts, ∀ x ∈ c.lowerKeys, Within c t x → x ∈ left) →
      c.writeTops false ord (ts.map fun t => (t, printedName c t)) left =
        .ok (ts.flatMap fun t => dataBlock c t ((framesOf c t ord).flatMap (frame c)))
  | [], _, _, _, _, _ => rfl
  | t :: ts, left, ht, hnt, hl, hin => by
    have hnt' := List.nodup_cons.mp hnt
    obtain ⟨left', e, hl', hm⟩ := writeTop_flat h ho hn (ht t List.mem_cons_self).1 hl (hin t List.mem_cons_self)
    simp only [List.map_cons, writeTops]
    rw [e]
    simp only
    rw [writeTops_flat h ho hn (fun s hs => ht s (List.mem_cons_of_mem _ hs)) hnt'.2 hl']
    · rfl
    · intro s hs x hx hw
      refine hm x (hin s (List.mem_cons_of_mem _ hs) x hx hw) ?_
      intro hw'
      have := within_top_unique (ht t List.mem_cons_self).2 (ht s (List.mem_cons_of_mem _ hs)).2 hw' hw
      exact hnt'.1 (this ▸ hs)

/-! ## Nested output -/

theorem flatE_frames {c : Coll} (h : Consistent c) {f : Str × PC → Except PyErr (List Piece)} : ∀ {l : List (Str × PC)},
    (∀ a ∈ l, ∃ out, f a = .ok out ∧ Contents c a.1 out) → (∀ a ∈ l, a.2.blockId = printedName c a.1) →
    ∃ out, flatE (fun a : Str × PC => (f a).map fun l => Piece.save a.2.blockId :: l ++ [.endSave]) l = .ok out ∧
      Frames c (dkeys l) out
  | [], _, _ => ⟨[], rfl, .nil⟩
  | a :: r, hf, hn => by
    obtain ⟨out, e, hc⟩ := hf a List.mem_cons_self
    obtain ⟨rest, e', hr⟩ := flatE_frames h (l := r) (fun x hx => hf x (List.mem_cons_of_mem _ hx))
      (fun x hx => hn x (List.mem_cons_of_mem _ hx))
    unfold flatE
    simp only [e, Except.map]
    simp only [Except.map] at e'
    rw [e']
    refine ⟨_, rfl, ?_⟩
    rw [hn a List.mem_cons_self]
    have := Frames.cons hc hr
    simpa [dkeys] using this

theorem immediate_names {c : Coll} (h : Consistent c) (k : Str) : ∀ a ∈ c.getImmediateChildren k,
    a.2.blockId = printedName c a.1 ∧ a.1 ∈ c.lowerKeys ∧ parentOf c a.1 = some (lower k) := by
  intro a ha
  have hm := List.mem_filter.mp ha
  have ht := dget_of_mem h.nd_table hm.1
  have hk := (h.mem_table a.1).mp (mem_dkeys hm.1)
  obtain ⟨pc, b, hpc, _, hname, hp⟩ := lookup_ok h hk
  rw [ht] at hpc
  injection hpc with hpc
  subst hpc
  exact ⟨hname.symm, hk, by rw [hp]; exact of_decide_eq_true hm.2⟩

theorem nestedFuel_eq {c : Coll} (h : Consistent c) : ∀ (n : Nat) (k : Str), k ∈ c.lowerKeys → size c k < n →
    ∃ out, c.nestedFuel (decide (c.standard = some "Dic".toList)) n k = .ok out ∧ Contents c k out
  | 0, _, _, hs => by omega
  | n + 1, k, hk, hs => by
    obtain ⟨pc, b, hpc, hg, hname, _⟩ := lookup_ok h hk
    have hlk := h.lower_keys k hk
    unfold nestedFuel
    rw [hg]
    simp only
    obtain ⟨out, e, hf⟩ := flatE_frames h (f := fun a => c.nestedFuel (decide (c.standard = some "Dic".toList)) n a.1)
      (l := c.getImmediateChildren k) (fun a ha => by
        obtain ⟨_, h2, h3⟩ := immediate_names h k a ha
        rw [hlk] at h3
        have := size_lt h.keyed hk h3
        exact nestedFuel_eq h n a.1 h2 (by omega)) (fun a ha => (immediate_names h k a ha).1)
    rw [e]
    have hnd : (dkeys (c.getImmediateChildren k)).Nodup := nodup_children h.nd_table (lower k)
    have hmem : ∀ x, x ∈ dkeys (c.getImmediateChildren k) ↔ parentOf c x = some k := by
      intro x
      have := mem_children (c := c) h.nd_table (k := lower k) (j := x)
      rw [hlk] at this
      simpa [getImmediateChildren, children, hlk, dkeys] using this
    refine ⟨_, rfl, ?_⟩
    by_cases hd : c.standard = some "Dic".toList
    · rw [decide_eq_true hd, if_pos rfl]
      exact .dic hd hnd hmem hf
    · rw [decide_eq_false hd, if_neg (by simp)]
      exact .cif hd hnd hmem hf

theorem nestedKids_eq {c : Coll} (h : Consistent c) {t : Str} (ht : t ∈ c.lowerKeys) :
    ∃ kids out, kids.Nodup ∧ (∀ x, x ∈ kids ↔ parentOf c x = some t) ∧ Frames c kids out ∧
      c.nestedKids (decide (c.standard = some "Dic".toList)) t = .ok out := by
  have hlk := h.lower_keys t ht
  obtain ⟨out, e, hf⟩ := flatE_frames h
    (f := fun a => c.nestedFuel (decide (c.standard = some "Dic".toList)) (c.childTable.length + 1) a.1)
    (l := c.getImmediateChildren t) (fun a ha => nestedFuel_eq h _ a.1 (immediate_names h t a ha).2.1
      (Nat.lt_succ_of_le (size_le c _))) (fun a ha => (immediate_names h t a ha).1)
  refine ⟨_, out, nodup_children h.nd_table (lower t), ?_, hf, e⟩
  intro x
  have := mem_children (c := c) h.nd_table (k := lower t) (j := x)
  rw [hlk] at this
  simpa [getImmediateChildren, children, hlk, dkeys] using this

theorem writeTops_nested {c : Coll} (h : Consistent c) {ord : List Str} :
    ∀ {ts left : List Str}, (∀ t ∈ ts, t ∈ c.lowerKeys) → ts.Nodup → left.Nodup → (∀ t ∈ ts, t ∈ left) →
      ∃ out, c.writeTops true ord (ts.map fun t => (t, printedName c t)) left = .ok out ∧ NestedFile c ts out
  | [], _, _, _, _, _ => ⟨[], rfl, .nil⟩
  | t :: ts, left, ht, hnt, hl, hin => by
    have hnt' := List.nodup_cons.mp hnt
    have htk := ht t List.mem_cons_self
    obtain ⟨pc, b, hpc, hg, hname, _⟩ := lookup_ok h htk
    obtain ⟨kids, out, hk1, hk2, hfr, e⟩ := nestedKids_eq h htk
    have hm : ∀ x, x ∈ pyErase left t ↔ x ≠ t ∧ x ∈ left := fun x => mem_pyErase hl
    obtain ⟨rest, e', hr⟩ := writeTops_nested h (ord := ord) (left := pyErase left t) (fun s hs => ht s (List.mem_cons_of_mem _ hs)) hnt'.2
      (nodup_pyErase hl _) (fun s hs => (hm s).mpr ⟨fun e => hnt'.1 (e ▸ hs), hin s (List.mem_cons_of_mem _ hs)⟩)
    simp only [List.map_cons, writeTops, writeTop]
    rw [pyRemove_eq (hin t List.mem_cons_self), hg]
    simp only [if_true, e, Except.map, e']
    refine ⟨_, rfl, ?_⟩
    have := NestedFile.cons hk1 hk2 hfr hr
    simpa only [dataBlock, decide_eq_true_eq] using this

/-! ## Each block once -/

theorem written_append : ∀ (a b : List Piece), written (a ++ b) = written a ++ written b
  | [], _ => rfl
  | x :: r, b => by
    cases x <;> simp [written, written_append r b]

/-- A list holding the members of each of several disjoint sets once. -/
theorem within_disjoint {c : Coll} (h : Consistent c) {p : Option Str} {a b x : Str} (ha : parentOf c a = p) (hb : parentOf c b = p)
    (h1 : Within c a x) (h2 : Within c b x) : a = b := by
  have noUnder : ∀ {a b}, parentOf c a = p → parentOf c b = p → Under c a b → False := by
    intro a b ha hb hu
    obtain ⟨q, hq, hw⟩ := hu.parent
    have hap : parentOf c a = some q := by rw [ha, ← hb, hq]
    exact h.acyclic a (by
      rcases hw with rfl | hw
      · exact .child hap
      · exact hw.trans (.child hap))
  have key : ∀ {x}, Under c a x → Within c b x → a = b := by
    intro x hu
    induction hu with
    | child hx =>
      intro hw
      rcases hw with rfl | hw
      · exact (noUnder ha hb (.child hx)).elim
      · obtain ⟨q, hq, hw'⟩ := hw.parent
        rw [hx] at hq; injection hq with hq; subst hq
        rcases hw' with e | hw'
        · exact e
        · exact (noUnder hb ha hw').elim
    | deeper hu' hy ih =>
      intro hw
      rcases hw with rfl | hw
      · exact (noUnder ha hb (.deeper hu' hy)).elim
      · obtain ⟨q, hq, hw'⟩ := hw.parent
        rw [hy] at hq; injection hq with hq; subst hq
        exact ih hw'
  rcases h1 with rfl | h1
  · rcases h2 with e | h2
    · exact e
    · exact (noUnder hb ha h2).elim
  · exact key h1 h2

/-- What `written` gives for the contents of one block. -/
def Once (c : Coll) (k : Str) (out : List Piece) : Prop := (written out).Nodup ∧ ∀ x, x ∈ written out ↔ Within c k x

/-- What `written` gives for a sequence of save frames. -/
def OnceAll (c : Coll) (ks : List Str) (out : List Piece) : Prop :=
  ∀ p, (∀ k ∈ ks, parentOf c k = p) → ks.Nodup → (written out).Nodup ∧ ∀ x, x ∈ written out ↔ ∃ i ∈ ks, Within c i x

theorem once_dic {c : Coll} (h : Consistent c) {k : Str} {kids : List Str} {out : List Piece} (hn : kids.Nodup)
    (hm : ∀ x, x ∈ kids ↔ parentOf c x = some k) (hf : OnceAll c kids out) : Once c k (.body k :: out) := by
  obtain ⟨h1, h2⟩ := hf _ (fun x hx => (hm x).mp hx) hn
  have e : ∀ x, (∃ i ∈ kids, Within c i x) ↔ Under c k x := fun x => by
    rw [under_iff_head]
    exact ⟨fun ⟨i, hi, hw⟩ => ⟨i, (hm i).mp hi, hw⟩, fun ⟨i, hi, hw⟩ => ⟨i, (hm i).mpr hi, hw⟩⟩
  refine ⟨?_, ?_⟩
  · simp only [written, List.nodup_cons]
    exact ⟨fun hk => h.acyclic k ((e k).mp ((h2 k).mp hk)), h1⟩
  · intro x
    simp only [written, List.mem_cons]
    rw [h2, e]; rfl

theorem once_cif {c : Coll} (h : Consistent c) {k : Str} {kids : List Str} {out : List Piece} (hn : kids.Nodup)
    (hm : ∀ x, x ∈ kids ↔ parentOf c x = some k) (hf : OnceAll c kids out) : Once c k (out ++ [.body k]) := by
  obtain ⟨h1, h2⟩ := hf _ (fun x hx => (hm x).mp hx) hn
  have e : ∀ x, (∃ i ∈ kids, Within c i x) ↔ Under c k x := fun x => by
    rw [under_iff_head]
    exact ⟨fun ⟨i, hi, hw⟩ => ⟨i, (hm i).mp hi, hw⟩, fun ⟨i, hi, hw⟩ => ⟨i, (hm i).mpr hi, hw⟩⟩
  unfold Once
  rw [written_append]
  refine ⟨?_, ?_⟩
  · rw [List.nodup_append]
    refine ⟨h1, by simp [written], ?_⟩
    intro a ha b hb hab
    simp only [written, List.mem_singleton] at hb
    subst hb; subst hab
    exact h.acyclic _ ((e _).mp ((h2 _).mp ha))
  · intro x
    simp only [written, List.mem_append, List.mem_singleton]
    rw [h2, e]
    exact Or.comm

theorem once_frames {c : Coll} (h : Consistent c) {k : Str} {ks : List Str} {out rest : List Piece} (hc : Once c k out)
    (hf : OnceAll c ks rest) : OnceAll c (k :: ks) (.save (printedName c k) :: out ++ .endSave :: rest) := by
  intro p hp hn
  obtain ⟨a1, a2⟩ := hc
  have hn' := List.nodup_cons.mp hn
  obtain ⟨b1, b2⟩ := hf p (fun x hx => hp x (List.mem_cons_of_mem _ hx)) hn'.2
  have ew : written (Piece.save (printedName c k) :: out ++ Piece.endSave :: rest) = written out ++ written rest := by
    rw [List.cons_append]
    simp only [written, written_append]
  rw [ew]
  refine ⟨?_, ?_⟩
  · rw [List.nodup_append]
    refine ⟨a1, b1, ?_⟩
    intro x hx y hy hxy
    subst hxy
    obtain ⟨i, hi, hw⟩ := (b2 x).mp hy
    have := within_disjoint h (hp k List.mem_cons_self) (hp i (List.mem_cons_of_mem _ hi)) ((a2 x).mp hx) hw
    exact hn'.1 (this ▸ hi)
  · intro x
    rw [List.mem_append, a2, b2]
    constructor
    · rintro (hw | ⟨i, hi, hw⟩)
      · exact ⟨k, List.mem_cons_self, hw⟩
      · exact ⟨i, List.mem_cons_of_mem _ hi, hw⟩
    · rintro ⟨i, hi, hw⟩
      rcases List.mem_cons.mp hi with rfl | hi
      · exact Or.inl hw
      · exact Or.inr ⟨i, hi, hw⟩

theorem frames_written {c : Coll} (h : Consistent c) {ks : List Str} {out : List Piece} (hf : Frames c ks out) : OnceAll c ks out :=
  Frames.rec (motive_1 := fun k out _ => Once c k out) (motive_2 := fun ks out _ => OnceAll c ks out)
    (fun _ hn hm _ ih => once_dic h hn hm ih) (fun _ hn hm _ ih => once_cif h hn hm ih)
    (fun _ _ _ => ⟨List.nodup_nil, by simp [written]⟩) (fun _ _ ih1 ih2 => once_frames h ih1 ih2) hf

theorem top_exists {c : Coll} (h : Consistent c) : ∀ (n : Nat) (x : Str), x ∈ c.lowerKeys → c.childTable.length - size c x < n →
    ∃ t ∈ c.lowerKeys, parentOf c t = none ∧ Within c t x
  | 0, _, _, hs => by omega
  | n + 1, x, hx, hs => by
    cases hp : parentOf c x with
    | none => exact ⟨x, hx, hp, Or.inl rfl⟩
    | some p =>
      have hpk := h.parents x p hp
      have h1 := size_lt h.keyed hpk hp
      have h2 := size_le c p
      obtain ⟨t, h3, h4, h5⟩ := top_exists h n p hpk (by omega)
      exact ⟨t, h3, h4, Within.step h5 hp⟩

end Verif.Coll
