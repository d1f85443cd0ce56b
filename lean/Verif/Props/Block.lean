import Verif.Lemmas.BlockValue
/-! # C14-C17: items, values and failing operations of a data block -/
set_option linter.unusedSectionVars false
namespace Verif.Block
variable [CaseFold]

/-! ## C14 -/

/-- C14: in every block that can arise, every stored name is listed exactly once in the print order (directly
or through exactly one loop) and nothing else is listed; the loop numbers in the order are exactly
the loops that exist, each once. -/
theorem C14_one_place (b : Block) (h : Reachable b) :
    b.printed.Perm b.keys ∧ b.printed.Nodup ∧ b.order.Nodup ∧
    (∀ n, Ref.loop n ∈ b.order ↔ ∃ l, dget b.loops n = some l) ∧
    (∀ n l m l' s, dget b.loops n = some l → s ∈ l → dget b.loops m = some l' → s ∈ l' → n = m) ∧
    (∀ n l s, dget b.loops n = some l → s ∈ l → Ref.name s ∉ b.order) := by
  obtain ⟨hw, hf⟩ := reachable_wf h
  refine ⟨?_, nodup_printed hw, hw.orderNodup, ?_, ?_, ?_⟩
  · refine (List.perm_ext_iff_of_nodup (nodup_printed hw) hw.keysNodup).mpr ?_
    intro s
    rw [mem_printed hw]
    constructor
    · rintro (h1 | h1)
      · exact hf s h1
      · exact h1.1
    · intro h1
      by_cases h2 : s ∈ allLooped b.loops
      · exact Or.inl h2
      · exact Or.inr ⟨h1, h2⟩
  · intro n; rw [hw.orderLoop, dget_isSome]
  · intro n l m l' s h1 h2 h3 h4
    exact (flatMap_unique hw.looped hw.loopsNodup (dget_mem h1) h2 (dget_mem h3) h4).1
  · intro n l s h1 h2 h3
    exact ((hw.orderName s).mp h3).2 (mem_allLooped.mpr ⟨n, l, dget_mem h1, h2⟩)

/-- C14 for histories that may also make unchecked loops of names that are not stored (yet): still
nothing is listed twice and every stored name is listed. -/
theorem C14_any_history (b : Block) (hb : Fresh b) (ops : List Op) (hs : ∀ o ∈ ops, o.Sensible) :
    (b.run ops).printed.Nodup ∧ (b.run ops).order.Nodup ∧ ∀ s ∈ (b.run ops).keys, s ∈ (b.run ops).printed := by
  have hw := wf_run (wf_fresh hb) ops hs
  refine ⟨nodup_printed hw, hw.orderNodup, ?_⟩
  intro s hs
  rw [mem_printed hw]
  by_cases h2 : s ∈ allLooped (b.run ops).loops
  · exact Or.inl h2
  · exact Or.inr ⟨hs, h2⟩

/-- A concrete history used in the examples. -/
def sampleOps : List Op :=
  [.add "_A".toList (.list [.str "1".toList, .str "2".toList]) false,
   .add "_b".toList (.list [.str "3".toList, .str "4".toList]) false,
   .add "_c".toList (.str "5".toList) false,
   .createLoop ["_a".toList, "_B".toList] 0 true]

/-- A block with one loop and one single item. -/
def sample : Block := letI := asciiFold; ({} : Block).run sampleOps

theorem sample_reachable : letI := asciiFold; Reachable sample := by
  letI := asciiFold
  unfold sample
  refine .step _ _ (.step _ _ (.step _ _ (.step _ _ (.fresh _ ⟨rfl, rfl, rfl, rfl⟩) ?_) ?_) ?_) ?_
  · show _ ≠ _; decide +kernel
  · show _ ≠ _; decide +kernel
  · show _ ≠ _; decide +kernel
  · exact ⟨by decide +kernel, Or.inl rfl⟩

example : letI := asciiFold; sample.printed = ["_a".toList, "_b".toList, "_c".toList] := by decide +kernel

/-- Without the condition that a loop is not asked to contain a name twice C14 is false of the code:
`CreateLoop(['_a','_a'])` lists the name twice. -/
theorem C14_repeated_name_fails : letI := asciiFold
    let b := (({} : Block).run [.add "_a".toList (.str "1".toList) false, .createLoop ["_a".toList, "_a".toList] (-1) true])
    b.printed = ["_a".toList, "_a".toList] := by decide +kernel

/-! ## C15 -/

/-- C15: after any history of operations a name, in any capitalisation, has the value the history defines:
the one stored last under any capitalisation, unless removed since. `"saves"` is a reserved key. -/
theorem C15_history (b : Block) (m : Str → Option PyVal) (h : History b m) (k : Str) (hk : k ≠ saves) :
    b.lookup k = m (lower k) := by
  rw [lookup_val b k hk]
  suffices H : Reachable b ∧ ∀ x, b.val x = m x from H.2 _
  clear hk
  induction h with
  | fresh b h => exact ⟨.fresh b h, fun x => by simp [val, h.1, dget]⟩
  | step b m op _ hc hm hf ih =>
    obtain ⟨hr, ih⟩ := ih
    refine ⟨.step b op hr hc, ?_⟩
    obtain ⟨hw, _⟩ := reachable_wf hr
    intro x
    cases op with
    | add k v pre =>
      obtain ⟨b', r, hadd⟩ : ∃ b' r, b.addItem k v pre = (b', r) := ⟨_, _, rfl⟩
      have hs : b.step (.add k v pre) = (b', r) := hadd
      rw [hs]
      cases r with
      | error e => rw [addItem_err hadd]; simp [effect, ih]
      | ok u =>
        simp only [effect]
        rw [val_addItem hadd hm, ih]
        simp
    | remove k => simp only [step, effect]; rw [val_removeItem hw, ih]
    | clear => simp [step, effect, val, clear, dget]
    | addLoopName o n =>
      simp only [step, effect]
      rw [val_congr (addLoopName_block b o n)]; exact ih x
    | changeOrder r p =>
      simp only [step, effect]
      rw [val_congr (changeItemOrder_block hw r p)]; exact ih x
    | removePacket k v => exact absurd hm id
    | addPacket k p => exact absurd hm id
    | configure o m' u => exact ih x
    | createLoop ns o lc =>
      cases lc with
      | false =>
        simp only [step, effect, createLoop, Bool.false_eq_true, if_false, false_and, and_false]
        rw [val_congr (makeLoop_ok hw ns o).2]; exact ih x
      | true =>
        have hval : ∀ d v, b.getItem d = .ok v → m (lower d) = some v := fun d v h => by
          rw [← ih]; exact val_of_getItem h
        rcases createLoopCheck_cases b ns with ⟨e, h1, h2⟩ | ⟨h1, len, h2⟩ | ⟨h0, h1, h2⟩
        · have hs : b.step (.createLoop ns o true) = (b, .error e) := by
            simp [step, createLoop, h1]
          rw [hs]; simp [effect, ih]
        · have hs : b.step (.createLoop ns o true) = b.makeLoop ns o := by simp [step, createLoop, h1]
          rw [hs, (makeLoop_ok hw ns o).1, val_congr (makeLoop_ok hw ns o).2, ih]
          simp only [effect]
          rw [if_neg]
          rintro ⟨_, _, h3, h4⟩
          obtain ⟨d, hd, rfl⟩ := List.mem_map.mp h3
          obtain ⟨l, h5, _⟩ := h2 d hd
          obtain ⟨v, h6, h7⟩ := h4 _ h3
          rw [hval d _ h5] at h6
          simp at h6; subst h6; simp [PyVal.isColumn] at h7
        · cases hwr : b.wrapAll ns with
          | mk b' r =>
            cases r with
            | error e =>
              exfalso
              apply hf
              refine ⟨ns, o, rfl, ?_, ?_⟩
              · intro d hd
                obtain ⟨v, h3, h4⟩ := h2 d hd
                exact ⟨v, lookup_some.mpr h3, h4⟩
              · simp [step, createLoop, h1, hwr]
            | ok u =>
              have hw' : WF b' := by
                have := wf_wrapAll hw ns
                rw [hwr] at this; exact this
              have hs : b.step (.createLoop ns o true) = b'.makeLoop ns o := by
                simp [step, createLoop, h1, hwr]
              rw [hs, (makeLoop_ok hw' ns o).1, val_congr (makeLoop_ok hw' ns o).2]
              rw [val_wrapAll hc.1 hwr]
              simp only [effect, ih]
              have h3 : ∀ y ∈ ns.map lower, ∃ v, m y = some v ∧ v.isColumn = false := by
                intro y hy
                obtain ⟨d, hd, rfl⟩ := List.mem_map.mp hy
                obtain ⟨v, h3, h4⟩ := h2 d hd
                exact ⟨v, hval d v h3, h4⟩
              by_cases hx : x ∈ ns.map lower
              · rw [if_pos hx, if_pos ⟨by simp, trivial, hx, h3⟩]
              · rw [if_neg hx, if_neg (fun h => hx h.2.2.1)]

/-- Instance: store `_A`, overwrite it as `_a`, store `_B`: the history exists and defines `_a ↦ 2`. -/
example : letI := asciiFold
    ∃ b m, History b m ∧ m "_a".toList = some (.str "2".toList) ∧ b.lookup "_A".toList = some (.str "2".toList) ∧
      m "_b".toList = some (.str "3".toList) := by
  letI := asciiFold
  refine ⟨_, _, .step _ _ (.add "_B".toList (.str "3".toList) false)
    (.step _ _ (.add "_a".toList (.str "2".toList) false)
      (.step _ _ (.add "_A".toList (.str "1".toList) false) (.fresh {} ⟨rfl, rfl, rfl, rfl⟩) (by show _ ≠ _; decide +kernel) (by simp [Op.MapOp]) ?_)
      (by show _ ≠ _; decide +kernel) (by simp [Op.MapOp]) ?_) (by show _ ≠ _; decide +kernel) (by simp [Op.MapOp]) ?_, by decide +kernel, by decide +kernel, by decide +kernel⟩ <;>
  · rintro ⟨ns, o, h, _⟩; simp at h

/-! ## C16 -/

/-- C16: with overwriting disabled, storing under a name that is present in any capitalisation raises an
error and leaves the block exactly as it was. -/
theorem C16_locked (b : Block) (k : Str) (v : PyVal) (pre : Bool) (hl : b.overwrite = false)
    (hc : b.contains k = true) : ∃ e, b.addItem k v pre = (b, .error e) ∧ (pre = true → e = .star) := by
  unfold addItem addItemCheck
  cases pre with
  | true => simp [hc, hl]
  | false =>
    simp only [Bool.false_eq_true, if_false]
    cases checkDataName b.unicode b.maxName k with
    | error e => exact ⟨e, rfl, by simp⟩
    | ok u => simp [hc, hl]

/-- C16, subscript form. -/
theorem C16_locked_subscript (b : Block) (k : Str) (v : PyVal) (hl : b.overwrite = false)
    (hc : b.contains k = true) : ∃ e, b.setItem k v = (b, .error e) := by
  unfold setItem
  split
  · exact ⟨_, rfl⟩
  · obtain ⟨e, h, _⟩ := C16_locked b k v false hl hc; exact ⟨e, h⟩

/-- C16: a name that is not present is stored in a locked block exactly as in an unlocked one. -/
theorem C16_new_name (b : Block) (k : Str) (v : PyVal) (pre : Bool) (hc : b.contains k = false) :
    b.addItem k v pre = (let r := ({ b with overwrite := true } : Block).addItem k v pre;
      ({ r.1 with overwrite := b.overwrite }, r.2)) := by
  have hc' : ({ b with overwrite := true } : Block).contains k = false := hc
  have : ({ b with overwrite := true } : Block).addItemCheck k v pre = b.addItemCheck k v pre := by
    simp only [addItemCheck, hc, hc', Bool.false_and, Bool.false_eq_true, if_false]
  simp only [addItem, this]
  cases b.addItemCheck k v pre with
  | error e => rfl
  | ok sv => rfl

example : letI := asciiFold
    ({ sample with overwrite := false } : Block).contains "_C".toList = true ∧
    (({ sample with overwrite := false } : Block).addItem "_d".toList (.str "x".toList)).2 = .ok () := by decide +kernel

/-! ## C17 -/

/-- C17: an `AddItem` that raises changes nothing at all. -/
theorem C17_addItem (b b' : Block) (k : Str) (v : PyVal) (pre : Bool) (e : PyErr)
    (h : b.addItem k v pre = (b', .error e)) : b' = b := addItem_err h

/-- C17: `RemoveItem` never raises on a block that can arise, and removing an absent name changes
nothing. -/
theorem C17_removeItem (b : Block) (h : Reachable b) (k : Str) :
    (b.removeItem k).2 = .ok () ∧ (b.contains k = false → (b.removeItem k).1 = b) := by
  obtain ⟨hw, _⟩ := reachable_wf h
  rw [removeItem_eq hw]
  refine ⟨rfl, ?_⟩
  intro hc
  simp [contains_false.mp hc]

/-- C17: an `AddLoopName` that raises, or whose name is already in the loop, changes nothing. -/
theorem C17_addLoopName (b b' : Block) (o n : Str) (e : PyErr) (h : b.addLoopName o n = (b', .error e)) : b' = b := by
  rcases addLoopName_cases b o n with ⟨r, h1⟩ | ⟨n', l, nv, _, _, _, _, _, h1⟩
  · rw [h1] at h; simp at h; exact h.1.symm
  · rw [h1] at h; simp at h

/-- C17: `AddLoopName` of a name that is in the loop already does nothing. -/
theorem C17_addLoopName_again (b : Block) (h : Reachable b) (o n : Str) (hn : lower n ∈ b.loopOf o) :
    b.addLoopName o n = (b, .ok ()) := by
  obtain ⟨hw, _⟩ := reachable_wf h
  unfold loopOf at hn
  unfold addLoopName findLoop
  split at hn
  · rename_i p hp
    simp only [hp, Option.map_some]
    have : dget b.loops p.1 = some p.2 := dget_of_mem hw.loopsNodup (List.mem_of_find?_eq_some hp)
    simp only [this, hn, if_true]
  · simp at hn

/-- C17: a `ChangeItemOrder` that raises changes nothing. -/
theorem C17_changeOrder (b : Block) (h : Reachable b) (b' : Block) (r : Ref) (p : Int) (e : PyErr)
    (h' : b.changeItemOrder r p = (b', .error e)) : b' = b := by
  obtain ⟨hw, _⟩ := reachable_wf h
  rcases changeItemOrder_cases hw r p with ⟨e', h1⟩ | ⟨s, _, _, h1⟩ | ⟨s, n, l, _, _, _, h1⟩ <;>
    rw [h1] at h' <;> simp at h'
  exact h'.1.symm

/-- The full statement of C17 for `CreateLoop`; false of the code, see `C17_createLoop_fails`. -/
def CreateLoopAtomic : Prop :=
  ∀ (b b' : Block) (ns : List Str) (o : Int) (lc : Bool) (e : PyErr), Reachable b → (ns.map lower).Nodup →
    b.createLoop ns o lc = (b', .error e) → b' = b

/-- C17 for `CreateLoop`, partial: a failing `CreateLoop` changes nothing if the named items do not all have
single values, or the block is locked, or every named item would pass the checks of `AddItem` as a
column of one. Missing: single-valued items that do not pass the checks themselves (stored unchecked
by the parser, or before the settings were changed). -/
theorem C17_createLoop_partial (b b' : Block) (h : Reachable b) (ns : List Str) (o : Int) (lc : Bool) (e : PyErr)
    (hg : (∃ d ∈ ns, ∀ v, b.lookup d = some v → v.isColumn = true) ∨ b.overwrite = false ∨
      ∀ d ∈ ns, checkDataName b.unicode b.maxName d = .ok () ∧
        ∀ v, b.lookup d = some v → v ≠ .none ∧ checkOne b.unicode v = true)
    (hn : (ns.map lower).Nodup)
    (he : b.createLoop ns o lc = (b', .error e)) : b' = b := by
  obtain ⟨hw, _⟩ := reachable_wf h
  cases lc with
  | false =>
    simp only [createLoop, Bool.false_eq_true, if_false] at he
    have := (makeLoop_ok hw ns o).1
    rw [he] at this; simp at this
  | true =>
    simp only [createLoop, if_true] at he
    rcases createLoopCheck_cases b ns with ⟨e', h1, _⟩ | ⟨h1, _⟩ | ⟨h0, h1, h2⟩
    · rw [h1] at he; simp at he; exact he.1.symm
    · rw [h1] at he
      simp only at he
      have := (makeLoop_ok hw ns o).1
      rw [he] at this; simp at this
    · replace hg : (∃ d ∈ ns, ∀ v, b.lookup d = some v → v.isColumn = true) ∨ b.overwrite = false ∨
          (b.overwrite = true ∧ ∀ d ∈ ns, checkDataName b.unicode b.maxName d = .ok () ∧
            ∀ v, b.lookup d = some v → v ≠ .none ∧ checkOne b.unicode v = true) := by
        rcases hg with hg | hg | hg
        · exact Or.inl hg
        · exact Or.inr (Or.inl hg)
        · cases hov : b.overwrite with
          | true => exact Or.inr (Or.inr ⟨rfl, hg⟩)
          | false => exact Or.inr (Or.inl rfl)
      rcases hg with ⟨d, hd, hg⟩ | hg | ⟨hov, hg⟩
      · obtain ⟨v, h3, h4⟩ := h2 d hd
        rw [hg v (lookup_some.mpr h3)] at h4; simp at h4
      · cases ns with
        | nil => exact absurd rfl h0
        | cons d ds =>
          obtain ⟨v, h3, _⟩ := h2 d (by simp)
          rw [h1] at he
          unfold wrapAll at he
          simp only [h3] at he
          obtain ⟨e', h5⟩ := C16_locked_subscript b d (.list [v]) hg (contains_iff.mpr (getItem_ok_mem h3))
          rw [h5] at he
          simp at he; exact he.1.symm
      · exfalso
        have key : ∀ (ns : List Str) (c : Block), (ns.map lower).Nodup → c.overwrite = b.overwrite → c.unicode = b.unicode → c.maxName = b.maxName →
            (∀ d ∈ ns, checkDataName b.unicode b.maxName d = .ok () ∧
              ∃ v, c.getItem d = .ok v ∧ v ≠ .none ∧ v.isColumn = false ∧ checkOne b.unicode v = true) →
            (b.overwrite = true) → ∃ c', c.wrapAll ns = (c', .ok ()) := by
          intro ns
          induction ns with
          | nil => intro c _ _ _ _ _ _; exact ⟨c, rfl⟩
          | cons d ds ih =>
            intro c hn co cu cm hc hov
            simp only [List.map_cons, List.nodup_cons] at hn
            obtain ⟨h3, v, h4, h5, h6, h7⟩ := hc d (by simp)
            have hds : d ≠ saves := by rintro rfl; simp [getItem] at h4
            have hset : ∃ c1, c.setItem d (.list [v]) = (c1, .ok ()) := by
              unfold setItem
              rw [if_neg hds]
              unfold addItem addItemCheck
              rw [cu, cm, co, hov]
              simp only [Bool.false_eq_true, if_false, h3, Bool.not_true, Bool.and_false]
              have : regularise (.list [v]) = .ok (.list [v], .list [.none]) := by
                cases v <;> simp_all [regularise, regulariseAll, PyVal.isColumn]
              rw [this]
              simp only [checkItemValue, List.all_cons, h7, List.all_nil, Bool.and_self, if_true]
              split
              · rename_i h8; split at h8 <;> simp at h8
              · exact ⟨_, rfl⟩
            obtain ⟨c1, hset⟩ := hset
            obtain ⟨a1, a2, a3, a4, a5, a6⟩ := setItem_frame hset (getItem_ok_mem h4)
            unfold wrapAll
            simp only [h4, hset]
            apply ih c1 hn.2 (a4.trans co) (a6.trans cu) (a5.trans cm) _ hov
            intro d' hd'
            obtain ⟨g3, w, g4, g5, g6, g7⟩ := hc d' (by simp [hd'])
            refine ⟨g3, w, ?_, g5, g6, g7⟩
            have hne : lower d' ≠ lower d := fun e => hn.1 (e ▸ List.mem_map.mpr ⟨d', hd', rfl⟩)
            have hds' : d' ≠ saves := by rintro rfl; simp [getItem] at g4
            apply lookup_some.mp
            rw [lookup_val _ _ hds', val_setItem hset, if_neg hne]
            exact val_of_getItem g4
        obtain ⟨c', hc'⟩ := key ns b hn rfl rfl rfl (by
            intro d hd
            obtain ⟨v, h3, h4⟩ := h2 d hd
            obtain ⟨g1, g2⟩ := hg d hd
            obtain ⟨g3, g4⟩ := g2 v (lookup_some.mpr h3)
            exact ⟨g1, v, h3, g3, h4, g4⟩) hov
        rw [h1, hc'] at he
        simp only at he
        have hw' : WF c' := by
          have := wf_wrapAll hw ns
          rw [hc'] at this; exact this
        have := (makeLoop_ok hw' ns o).1
        rw [he] at this; simp at this

example : letI := asciiFold
    (sample.createLoop ["_a".toList, "_c".toList] (-1) true).2 = .error .value := by decide +kernel

/-- C17 is false of `CreateLoop` in general: after the parser stored an item with a character outside the
block's character set, `CreateLoop` over two single-valued items raises but has already turned the
first value into a list. -/
theorem C17_createLoop_fails : letI := asciiFold; ¬ CreateLoopAtomic := by
  letI := asciiFold
  intro h
  let b0 : Block := ({} : Block).run [.add "_a".toList (.str "1".toList) false, .add "_b".toList (.str ['é']) true]
  have hr : Reachable b0 := .step _ _ (.step _ _ (.fresh {} ⟨rfl, rfl, rfl, rfl⟩) (by show _ ≠ _; decide +kernel)) (by show _ ≠ _; decide +kernel)
  have := h b0 (b0.createLoop ["_a".toList, "_b".toList] (-1) true).1 ["_a".toList, "_b".toList] (-1) true .star hr
    (by decide +kernel) (by decide +kernel)
  revert this
  decide +kernel

end Verif.Block
