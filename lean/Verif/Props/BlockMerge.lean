import Verif.Props.BlockPacket
/-! # C28: merging blocks -/
set_option linter.unusedSectionVars false
namespace Verif.Block
variable [CaseFold]

theorem mergeStrictKeys_ok {b b' nb : Block} {att ks : List Str} (hn : ks.Nodup) (hl : ∀ k ∈ ks, lower k = k)
    (h : b.mergeStrictKeys nb att ks = (b', .ok ())) :
    (∀ k ∈ ks, k ∉ att → k ∉ b.keys) ∧ (∀ k, k ∈ b'.keys ↔ k ∈ b.keys ∨ (k ∈ ks ∧ k ∉ att)) ∧
    (∀ x, b'.val x = if x ∈ ks ∧ x ∉ att then nb.val x else b.val x) ∧ b'.loops = b.loops := by
  induction ks generalizing b with
  | nil => simp only [mergeStrictKeys, Prod.mk.injEq] at h; rw [← h.1]; simp
  | cons k ks ih =>
    rw [List.nodup_cons] at hn
    have hlk := hl k (by simp)
    have hl' : ∀ k ∈ ks, lower k = k := fun x hx => hl x (by simp [hx])
    unfold mergeStrictKeys at h
    split at h
    · rename_i hatt
      obtain ⟨h1, h2, h3, h4⟩ := ih hn.2 hl' h
      refine ⟨?_, ?_, ?_, h4⟩
      · intro x hx hx'
        rcases List.mem_cons.mp hx with rfl | hx
        · exact absurd hatt hx'
        · exact h1 x hx hx'
      · intro x; rw [h2]; simp only [List.mem_cons]
        constructor
        · rintro (h | ⟨h, h'⟩)
          · exact .inl h
          · exact .inr ⟨.inr h, h'⟩
        · rintro (h | ⟨rfl | h, h'⟩)
          · exact .inl h
          · exact absurd hatt h'
          · exact .inr ⟨h, h'⟩
      · intro x; rw [h3]
        by_cases e : x ∈ ks ∧ x ∉ att
        · rw [if_pos e, if_pos ⟨by simp [e.1], e.2⟩]
        · rw [if_neg e, if_neg]
          rintro ⟨h5, h6⟩
          rcases List.mem_cons.mp h5 with rfl | h5
          · exact h6 hatt
          · exact e ⟨h5, h6⟩
    · rename_i hatt
      split at h
      · simp at h
      · rename_i hnc
        have hnk : k ∉ b.keys := by
          intro hk; apply hnc; rw [contains_iff, hlk]; exact hk
        split at h
        · simp at h
        · rename_i v hv
          split at h
          · simp at h
          · rename_i b1 hset
            obtain ⟨h1, h2, h3, h4⟩ := ih hn.2 hl' h
            have hb1 : ∀ x, x ∈ b1.keys ↔ x = k ∨ x ∈ b.keys := by
              obtain ⟨_, ha⟩ := setItem_ok hset
              obtain ⟨sv, _, _, rfl⟩ := addItem_ok ha (by simp)
              intro x
              simp only [keys, store, hlk]
              exact mem_dkeys_dset _ _ _ _
            have hv1 := val_setItem hset
            rw [hlk] at hv1
            have hv2 := val_of_getItem hv
            rw [hlk] at hv2
            have hlp : b1.loops = b.loops := by
              obtain ⟨_, ha⟩ := setItem_ok hset
              obtain ⟨sv, _, _, rfl⟩ := addItem_ok ha (by simp)
              rfl
            refine ⟨?_, ?_, ?_, h4.trans hlp⟩
            · intro x hx hx'
              rcases List.mem_cons.mp hx with rfl | hx
              · exact hnk
              · exact fun hb => h1 x hx hx' ((hb1 x).mpr (.inr hb))
            · intro x; rw [h2, hb1]; simp only [List.mem_cons]
              constructor
              · rintro ((rfl | h) | ⟨h, h'⟩)
                · exact .inr ⟨.inl rfl, hatt⟩
                · exact .inl h
                · exact .inr ⟨.inr h, h'⟩
              · rintro (h | ⟨rfl | h, h'⟩)
                · exact .inl (.inr h)
                · exact .inl (.inl rfl)
                · exact .inr ⟨h, h'⟩
            · intro x; rw [h3, hv1]
              by_cases e : x ∈ ks ∧ x ∉ att
              · rw [if_pos e, if_pos ⟨by simp [e.1], e.2⟩]
              · rw [if_neg e]
                by_cases e2 : x = k
                · subst e2; rw [if_pos rfl, if_pos ⟨by simp, hatt⟩, hv2]
                · rw [if_neg e2, if_neg]
                  rintro ⟨h5, h6⟩
                  rcases List.mem_cons.mp h5 with h5 | h5
                  · exact e2 h5
                  · exact e ⟨h5, h6⟩

theorem mergeReplaceKeys_ok {b b' nb : Block} {ks : List Str} (hn : ks.Nodup) (hl : ∀ k ∈ ks, lower k = k)
    (h : b.mergeReplaceKeys nb ks = (b', .ok ())) :
    (∀ k, k ∈ b'.keys ↔ k ∈ b.keys ∨ k ∈ ks) ∧
    (∀ x, b'.val x = if x ∈ ks then nb.val x else b.val x) ∧ b'.loops = b.loops := by
  induction ks generalizing b with
  | nil => simp only [mergeReplaceKeys, Prod.mk.injEq] at h; rw [← h.1]; simp
  | cons k ks ih =>
    rw [List.nodup_cons] at hn
    have hlk := hl k (by simp)
    have hl' : ∀ k ∈ ks, lower k = k := fun x hx => hl x (by simp [hx])
    unfold mergeReplaceKeys at h
    split at h
    · simp at h
    · rename_i v hv
      split at h
      · simp at h
      · rename_i b1 hset
        obtain ⟨h2, h3, h4⟩ := ih hn.2 hl' h
        have hv1 := val_setItem hset
        rw [hlk] at hv1
        have hv2 := val_of_getItem hv
        rw [hlk] at hv2
        obtain ⟨_, ha⟩ := setItem_ok hset
        obtain ⟨sv, _, _, rfl⟩ := addItem_ok ha (by simp)
        have hb1 : ∀ x, x ∈ (b.store k sv).keys ↔ x = k ∨ x ∈ b.keys := by
          intro x
          simp only [keys, store, hlk]
          exact mem_dkeys_dset _ _ _ _
        refine ⟨?_, ?_, h4⟩
        · intro x; rw [h2, hb1]; simp only [List.mem_cons]
          constructor
          · rintro ((rfl | h) | h)
            · exact .inr (.inl rfl)
            · exact .inl h
            · exact .inr (.inr h)
          · rintro (h | rfl | h)
            · exact .inl (.inr h)
            · exact .inl (.inl rfl)
            · exact .inr h
        · intro x; rw [h3, hv1]
          by_cases e : x ∈ ks
          · rw [if_pos e, if_pos (by simp [e])]
          · rw [if_neg e]
            by_cases e2 : x = k
            · subst e2; rw [if_pos rfl, if_pos (by simp), hv2]
            · rw [if_neg e2, if_neg (by simp [e, e2])]

theorem mergeLoops_ok {b b' : Block} {ls : List (List Str)} (hw : WF b) (hl : ∀ l ∈ ls, l.map lower = l)
    (hn : ls.flatten.Nodup) (h : b.mergeLoops ls = (b', .ok ())) :
    ((∀ l ∈ ls, l = [] ∨ ∃ s ∈ l, ∃ c, b.val s = some (.list c)) → b'.block = b.block) ∧
    (∀ l ∈ ls, l ≠ [] → ∃ n, dget b'.loops n = some l) ∧
    (∀ n l, dget b.loops n = some l → l.filter (fun x => decide (x ∉ ls.flatten)) ≠ [] →
      dget b'.loops n = some (l.filter fun x => decide (x ∉ ls.flatten))) ∧ b'.keys = b.keys ∧ WF b' := by
  induction ls generalizing b with
  | nil =>
    simp only [mergeLoops, Prod.mk.injEq] at h; rw [← h.1]
    refine ⟨fun _ => rfl, by simp, ?_, rfl, hw⟩
    intro n l h1 _
    rw [h1]; congr 1
    rw [List.filter_eq_self.mpr]
    intro x _; simp
  | cons l ls ih =>
    unfold mergeLoops at h
    split at h
    · simp at h
    rename_i b1 hcl
    have hll := hl l (by simp)
    rw [List.flatten_cons, List.nodup_append] at hn
    obtain ⟨hn1, hn2, hn3⟩ := hn
    have hw1 := wf_createLoop hw l (-1) true (by rw [hll]; exact hn1)
    rw [hcl] at hw1
    obtain ⟨h1, h2, h3, h4, h5⟩ := ih hw1 (fun x hx => hl x (by simp [hx])) hn2 h
    obtain ⟨c, hwc, c1, _, c2, hb1⟩ := createLoop_ok_inv hw hcl
    have hml := makeLoop_eq hwc l (-1)
    rw [hll, c1] at hml
    have hloops : b1.loops = dset (restLoops b.loops l) (newLoopNo (restLoops b.loops l)) l := by
      rw [hb1, hml]
      exact (dset_new l (newLoopNo_fresh _)).symm
    have hself : dget b1.loops (newLoopNo (restLoops b.loops l)) = some l := by rw [hloops, dget_dset_self]
    have hkeys : b1.keys = b.keys := by
      have := keys_createLoop hw l (-1) true; rw [hcl] at this; exact this
    refine ⟨?_, ?_, ?_, h4.trans hkeys, h5⟩
    · intro hv
      have hblk : b1.block = b.block := by
        have hb : b1.block = c.block := by rw [hb1]; exact (makeLoop_ok hwc l (-1)).2
        rw [hb]
        unfold createLoop at hcl
        simp only [if_true] at hcl
        rcases createLoopCheck_cases b l with ⟨e, e1, _⟩ | ⟨e1, _⟩ | ⟨e0, e1, e2⟩
        · rw [e1] at hcl; simp at hcl
        · rw [e1] at hcl; simp only at hcl
          have : b1 = (b.makeLoop l (-1)).1 := by rw [hcl]
          rw [← hb, this]
          exact (makeLoop_ok hw l (-1)).2
        · exfalso
          rcases hv l (by simp) with e3 | ⟨s, hs, col, hcol⟩
          · exact e0 e3
          · obtain ⟨v, hv1, hv2⟩ := e2 s hs
            have hsl : lower s = s := by
              have := List.map_inj_left.mp (hll.trans (List.map_id l).symm) s hs
              exact this
            have := val_of_getItem hv1
            rw [hsl, hcol] at this
            simp only [Option.some.injEq] at this
            subst this
            simp [PyVal.isColumn] at hv2
      rw [← hblk]
      apply h1
      intro l' hl'
      rw [val_congr hblk]
      exact hv l' (by simp [hl'])
    · intro l' hl' hne
      rcases List.mem_cons.mp hl' with rfl | hl'
      · have hfil : l'.filter (fun x => decide (x ∉ ls.flatten)) = l' := by
          rw [List.filter_eq_self]
          intro x hx
          simp only [decide_eq_true_eq]
          intro hx'
          exact hn3 x hx x hx' rfl
        have := h3 _ _ hself (by rw [hfil]; exact hne)
        rw [hfil] at this
        exact ⟨_, this⟩
      · exact h2 l' hl' hne
    · intro n l0 hn0 hne
      have hff : l0.filter (fun x => decide (x ∉ (l :: ls).flatten)) =
          (l0.filter fun x => decide (x ∉ l)).filter fun x => decide (x ∉ ls.flatten) := by
        rw [List.filter_filter]
        apply List.filter_congr
        intro x _
        simp only [List.flatten_cons, List.mem_append, not_or]
        by_cases e1 : x ∈ l <;> by_cases e2 : x ∈ ls.flatten <;> simp [e1, e2]
      rw [hff] at hne ⊢
      apply h3 n _ _ hne
      have hne' : l0.filter (fun x => decide (x ∉ l)) ≠ [] := by
        intro e; rw [e] at hne; exact hne rfl
      rw [hloops]
      have hd : dget (restLoops b.loops l) n = some (l0.filter fun x => decide (x ∉ l)) := by
        rw [dget_restLoops hw.loopsNodup, hn0]
        simp only [Option.bind_some]
        rw [if_neg hne']
      rw [dget_dset, if_neg, hd]
      rintro rfl
      exact newLoopNo_fresh _ (dget_isSome.mp ⟨_, hd⟩)

theorem loops_disjoint {b : Block} (hw : WF b) : (b.loops.map (·.2)).flatten.Nodup := by
  have := hw.looped
  unfold allLooped at this
  rwa [List.flatMap_def] at this

theorem mem_loops_flatten {b : Block} {s : Str} : s ∈ (b.loops.map (·.2)).flatten ↔ s ∈ allLooped b.loops := by
  unfold allLooped; rw [List.flatMap_def]

/-- The key is looped in the block. -/
def Looped (b : Block) (s : Str) : Prop := ∃ n l, dget b.loops n = some l ∧ s ∈ l

theorem looped_iff {b : Block} (hw : WF b) {s : Str} : b.Looped s ↔ s ∈ allLooped b.loops := by
  rw [mem_allLooped]
  constructor
  · rintro ⟨n, l, h1, h2⟩; exact ⟨n, l, dget_mem h1, h2⟩
  · rintro ⟨n, l, h1, h2⟩; exact ⟨n, l, dget_of_mem hw.loopsNodup h1, h2⟩

/-- C28: strict merging of blocks that share a name outside the match list fails. -/
theorem C28_strict_clash (b nb : Block) (hr : Reachable nb) (att : List Str) (k : Str) (hk : b.contains k = true)
    (hk' : nb.contains k = true) (ha : lower k ∉ att) : (b.merge nb .strict att).2 ≠ .ok () := by
  obtain ⟨hw, _⟩ := reachable_wf hr
  simp only [merge]
  split
  · simp
  · rename_i b1 h1
    obtain ⟨h2, _⟩ := mergeStrictKeys_ok hw.keysNodup hw.keysLower h1
    exact absurd (contains_iff.mp hk) (h2 _ (contains_iff.mp hk') ha)

/-- What strict merging gives when it succeeds: exactly the items of both blocks, the values of the target
unchanged, and the values of the other block taken over except for the match list; the loops of both blocks. -/
theorem C28_strict (b nb b' : Block) (hr : Reachable b) (hrn : Reachable nb) (att : List Str) (hrect : nb.Rect)
    (hatt : ∀ n l, dget nb.loops n = some l → l = [] ∨ ∃ s ∈ l, s ∉ att)
    (h : b.merge nb .strict att = (b', .ok ())) :
    (∀ k, b'.contains k = true ↔ b.contains k = true ∨ (nb.contains k = true ∧ lower k ∉ att)) ∧
    (∀ k, b.contains k = true → b'.lookup k = b.lookup k) ∧
    (∀ k, nb.contains k = true → lower k ∉ att → b'.lookup k = nb.lookup k) ∧
    (∀ n l, dget nb.loops n = some l → l ≠ [] → ∃ m, dget b'.loops m = some l) ∧
    (∀ n l, dget b.loops n = some l → l ≠ [] → (∀ s ∈ l, ¬ nb.Looped s) → dget b'.loops n = some l) := by
  obtain ⟨hw, hf⟩ := reachable_wf hr
  obtain ⟨hwn, hfn⟩ := reachable_wf hrn
  simp only [merge] at h
  split at h
  · simp at h
  rename_i b1 h1
  obtain ⟨g1, g2, g3, g4⟩ := mergeStrictKeys_ok hwn.keysNodup hwn.keysLower h1
  have hw1 := (wf_full_mergeStrictKeys (nb := nb) hw hf att nb.keys).1
  rw [h1] at hw1
  split at h
  · simp at h
  rename_i b2 h2
  simp only [Prod.mk.injEq, and_true] at h
  have hl : ∀ l ∈ nb.loops.map (·.2), l.map lower = l := by
    intro l hl
    obtain ⟨⟨n, l'⟩, e1, rfl⟩ := List.mem_map.mp hl
    exact (loop_lower_nodup hwn e1).1
  obtain ⟨m1, m2, m3, m4, _⟩ := mergeLoops_ok hw1 hl (loops_disjoint hwn) h2
  have hblk : b2.block = b1.block := by
    apply m1
    intro l hl'
    obtain ⟨⟨n, l'⟩, e1, rfl⟩ := List.mem_map.mp hl'
    rcases hatt n l' (dget_of_mem hwn.loopsNodup e1) with e2 | ⟨s, hs, hs'⟩
    · exact .inl e2
    · right
      obtain ⟨len, e3⟩ := (rect_iff hrn).mp hrect n l' e1
      obtain ⟨col, e4, _⟩ := e3 s hs
      have hsk : s ∈ nb.keys := hfn s (mem_allLooped.mpr ⟨n, l', e1, hs⟩)
      exact ⟨s, hs, col, by rw [g3, if_pos ⟨hsk, hs'⟩]; exact e4⟩
  have hval : b'.val = b1.val := by rw [← h]; exact val_congr hblk
  have hkeys : b'.keys = b1.keys := by rw [← h]; exact m4
  have hlk : ∀ (c : Block) k, k ≠ saves → c.lookup k = c.val (lower k) := fun c k hk => lookup_val c k hk
  have hsv : ∀ k, b'.lookup k = if k = saves then none else b'.val (lower k) := by
    intro k; split
    · rename_i e; rw [e]; exact lookup_saves _
    · rename_i e; exact lookup_val _ _ e
  refine ⟨?_, ?_, ?_, ?_, ?_⟩
  · intro k; simp only [contains_iff]; rw [hkeys, g2]
  · intro k hk
    by_cases e : k = saves
    · rw [e, lookup_saves, lookup_saves]
    · rw [hlk _ _ e, hlk _ _ e, hval, g3, if_neg]
      rintro ⟨e1, e2⟩
      exact g1 _ e1 e2 (contains_iff.mp hk)
  · intro k hk hka
    by_cases e : k = saves
    · rw [e, lookup_saves, lookup_saves]
    · rw [hlk _ _ e, hlk _ _ e, hval, g3, if_pos ⟨contains_iff.mp hk, hka⟩]
  · intro n l hn hne
    obtain ⟨m, hm⟩ := m2 l (List.mem_map.mpr ⟨(n, l), dget_mem hn, rfl⟩) hne
    exact ⟨m, by rw [← h]; exact hm⟩
  · intro n l hn hne hnl
    have hfil : l.filter (fun x => decide (x ∉ (nb.loops.map (·.2)).flatten)) = l := by
      rw [List.filter_eq_self]
      intro x hx
      simp only [decide_eq_true_eq]
      rw [mem_loops_flatten, ← looped_iff hwn]
      exact hnl x hx
    have := m3 n l (by rw [g4]; exact hn) (by rw [hfil]; exact hne)
    rw [hfil] at this
    rw [← h]; exact this

/-- What replace merging gives when it succeeds: all items of both blocks; the other block's value for each of
its names, the target's value for the others; every loop of the other block. -/
theorem C28_replace (b nb b' : Block) (hr : Reachable b) (hrn : Reachable nb) (att : List Str) (hrect : nb.Rect)
    (h : b.merge nb .replace att = (b', .ok ())) :
    (∀ k, b'.contains k = true ↔ b.contains k = true ∨ nb.contains k = true) ∧
    (∀ k, b'.lookup k = if nb.contains k = true then nb.lookup k else b.lookup k) ∧
    (∀ n l, dget nb.loops n = some l → l ≠ [] → ∃ m, dget b'.loops m = some l) ∧
    (∀ n l, dget b.loops n = some l → l ≠ [] → (∀ s ∈ l, ¬ nb.Looped s) → dget b'.loops n = some l) := by
  obtain ⟨hw, hf⟩ := reachable_wf hr
  obtain ⟨hwn, hfn⟩ := reachable_wf hrn
  simp only [merge] at h
  split at h
  · simp at h
  rename_i b1 h1
  obtain ⟨g2, g3, g4⟩ := mergeReplaceKeys_ok hwn.keysNodup hwn.keysLower h1
  have hw1 := (wf_full_mergeReplaceKeys (nb := nb) hw hf nb.keys).1
  rw [h1] at hw1
  split at h
  · simp at h
  rename_i b2 h2
  simp only [Prod.mk.injEq, and_true] at h
  have hl : ∀ l ∈ nb.loops.map (·.2), l.map lower = l := by
    intro l hl
    obtain ⟨⟨n, l'⟩, e1, rfl⟩ := List.mem_map.mp hl
    exact (loop_lower_nodup hwn e1).1
  obtain ⟨m1, m2, m3, m4, _⟩ := mergeLoops_ok hw1 hl (loops_disjoint hwn) h2
  have hblk : b2.block = b1.block := by
    apply m1
    intro l hl'
    obtain ⟨⟨n, l'⟩, e1, rfl⟩ := List.mem_map.mp hl'
    rcases l' with _ | ⟨s, r⟩
    · exact .inl rfl
    · right
      obtain ⟨len, e3⟩ := (rect_iff hrn).mp hrect n _ e1
      obtain ⟨col, e4, _⟩ := e3 s (by simp)
      have hsk : s ∈ nb.keys := hfn s (mem_allLooped.mpr ⟨n, _, e1, by simp⟩)
      exact ⟨s, by simp, col, by rw [g3, if_pos hsk]; exact e4⟩
  have hval : b'.val = b1.val := by rw [← h]; exact val_congr hblk
  have hkeys : b'.keys = b1.keys := by rw [← h]; exact m4
  refine ⟨?_, ?_, ?_, ?_⟩
  · intro k; simp only [contains_iff]; rw [hkeys, g2]
  · intro k
    by_cases e : k = saves
    · rw [e, lookup_saves, lookup_saves, lookup_saves]; simp
    · rw [lookup_val _ _ e, lookup_val _ _ e, lookup_val _ _ e, hval, g3]
      simp only [contains_iff]
  · intro n l hn hne
    obtain ⟨m, hm⟩ := m2 l (List.mem_map.mpr ⟨(n, l), dget_mem hn, rfl⟩) hne
    exact ⟨m, by rw [← h]; exact hm⟩
  · intro n l hn hne hnl
    have hfil : l.filter (fun x => decide (x ∉ (nb.loops.map (·.2)).flatten)) = l := by
      rw [List.filter_eq_self]
      intro x hx
      simp only [decide_eq_true_eq]
      rw [mem_loops_flatten, ← looped_iff hwn]
      exact hnl x hx
    have := m3 n l (by rw [g4]; exact hn) (by rw [hfil]; exact hne)
    rw [hfil] at this
    rw [← h]; exact this

/-- Overlay mode is not implemented: it raises and changes nothing. -/
theorem C28_overlay (b nb : Block) (att : List Str) : b.merge nb .overlay att = (b, .error .star) := rfl

/-- A second block for the examples: one loop and one single item, disjoint from `sample`. -/
def other : Block := letI := asciiFold
  ({} : Block).run [.add "_z".toList (.str "9".toList) false, .add "_x".toList (.list [.str "5".toList, .str "6".toList]) false,
    .add "_y".toList (.list [.str "7".toList, .str "8".toList]) false, .createLoop ["_x".toList, "_Y".toList] (-1) true]

example : letI := asciiFold
    (sample.merge other .strict).2 = .ok () ∧ (sample.merge other .strict).1.column "_y".toList = some [.str "7".toList, .str "8".toList] ∧
    (sample.merge other .strict).1.printed = sample.printed ++ ["_z".toList, "_x".toList, "_y".toList] := by decide +kernel

example : letI := asciiFold
    (sample.merge sample .strict).2 = .error .star ∧ (sample.merge sample .replace).2 = .ok () := by decide +kernel

end Verif.Block
