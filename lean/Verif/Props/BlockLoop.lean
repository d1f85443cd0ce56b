import Verif.Lemmas.BlockShape
import Verif.Props.Block
/-! # C18-C21: loops, removal and print order of a data block -/
set_option linter.unusedSectionVars false
namespace Verif.Block
variable [CaseFold]

theorem rect_sub {b b' : Block} (h : RectV b)
    (hl : ∀ n l', (n, l') ∈ b'.loops → ∃ m l, (m, l) ∈ b.loops ∧ ∀ s ∈ l', s ∈ l ∧ b'.val s = b.val s) : RectV b' := by
  intro n l' hm
  obtain ⟨m, l, h1, h2⟩ := hl n l' hm
  obtain ⟨len, h3⟩ := h m l h1
  refine ⟨len, fun s hs => ?_⟩
  obtain ⟨h4, h5⟩ := h2 s hs
  rw [h5]; exact h3 s h4

theorem loops_removeItem {b : Block} (hw : WF b) (k : Str) (n : Nat) (l' : List Str)
    (h : (n, l') ∈ (b.removeItem k).1.loops) : ∃ l, (n, l) ∈ b.loops ∧ ∀ s ∈ l', s ∈ l := by
  rw [removeItem_eq hw] at h
  by_cases hk : lower k ∈ b.keys
  · simp only [hk, if_true] at h
    cases hf : b.findLoop k with
    | none => rw [hf] at h; exact ⟨l', h, fun s hs => hs⟩
    | some m =>
      obtain ⟨l, h1, h2⟩ := findLoop_some' hw hf
      simp only [hf, h1] at h
      split at h
      · simp only [ddel, List.mem_filter] at h; exact ⟨l', h.1, fun s hs => hs⟩
      · rcases (mem_dset_iff hw.loopsNodup).mp h with h3 | h3
        · simp at h3; obtain ⟨rfl, rfl⟩ := h3
          exact ⟨l, dget_mem h1, fun s hs => mem_of_mem_pyErase hs⟩
        · exact ⟨l', h3.1, fun s hs => hs⟩
  · simp only [hk, if_false] at h; exact ⟨l', h, fun s hs => hs⟩

theorem loopOf_nil {b : Block} {k : Str} (h : b.loopOf k = []) : lower k ∉ allLooped b.loops := by
  unfold loopOf at h
  split at h
  · rename_i p hp
    have := List.find?_some hp
    rw [h] at this; simp at this
  · rename_i hp
    rw [List.find?_eq_none] at hp
    intro hin
    obtain ⟨n, l, h1, h2⟩ := mem_allLooped.mp hin
    exact hp _ h1 (by simp [h2])

/-- A new loop over `ns`, other loops shrinking. -/
theorem rect_makeLoop {b : Block} (hw : WF b) (ns : List Str) (o : Int)
    (hold : ∀ n l, (n, l) ∈ b.loops → ∃ len, ∀ s ∈ l, s ∉ ns.map lower → ∃ col, b.val s = some (.list col) ∧ col.length = len)
    (hnew : ∃ len, ∀ d ∈ ns, ∃ col, b.val (lower d) = some (.list col) ∧ col.length = len) :
    RectV (b.makeLoop ns o).1 := by
  intro n l' hm
  rw [makeLoop_eq hw] at hm
  simp only [List.mem_append, List.mem_singleton] at hm
  have hv : (b.makeLoop ns o).1.val = b.val := val_congr (makeLoop_ok hw ns o).2
  rcases hm with hm | hm
  · obtain ⟨_, l0, h1, rfl⟩ := mem_restLoops.mp hm
    obtain ⟨len, h2⟩ := hold n l0 h1
    refine ⟨len, fun s hs => ?_⟩
    simp only [List.mem_filter, decide_eq_true_eq] at hs
    rw [hv]; exact h2 s hs.1 hs.2
  · simp at hm; obtain ⟨_, rfl⟩ := hm
    obtain ⟨len, h2⟩ := hnew
    refine ⟨len, fun s hs => ?_⟩
    obtain ⟨d, hd, rfl⟩ := List.mem_map.mp hs
    rw [hv]; exact h2 d hd

theorem val_wrapAll_other {b b' : Block} {ns : List Str} {r : Except PyErr Unit} (h : b.wrapAll ns = (b', r)) {x : Str}
    (hx : x ∉ ns.map lower) : b'.val x = b.val x := by
  induction ns generalizing b with
  | nil => simp [wrapAll] at h; rw [h.1]
  | cons d ds ih =>
    simp only [List.map_cons, List.mem_cons, not_or] at hx
    unfold wrapAll at h
    split at h
    · simp at h; rw [h.1]
    · split at h
      · rename_i b1 e h1
        simp at h; rw [← h.1, setItem_err h1]
      · rename_i b1 h1
        rw [ih h hx.2, val_setItem h1, if_neg hx.1]

/-! ## C18 -/

theorem shape_inv (b : Block) (h : ShapeHistory b) : Reachable b ∧ Entries b ∧ RectV b := by
  induction h with
  | fresh b h =>
    refine ⟨.fresh b h, ?_, ?_⟩
    · intro k e hk; rw [h.1] at hk; simp at hk
    · intro n l hm; rw [h.2.1] at hm; simp at hm
  | step b op _ hc hk ih =>
    obtain ⟨hr, he, hrect⟩ := ih
    refine ⟨.step b op hr hc, ?_⟩
    obtain ⟨hw, hf⟩ := reachable_wf hr
    have hns := reachable_nosaves hr
    cases op with
    | add k v pre =>
      refine ⟨entries_addItem hw he k v pre, ?_⟩
      simp only [step]
      obtain ⟨b', r, hadd⟩ : ∃ b' r, b.addItem k v pre = (b', r) := ⟨_, _, rfl⟩
      rw [hadd]
      cases r with
      | error e => rw [addItem_err hadd]; exact hrect
      | ok u =>
        have hv := val_addItem hadd hk.1
        obtain ⟨sv, _, _, rfl⟩ := addItem_ok hadd hk.1
        intro n l hm
        obtain ⟨len, h1⟩ := hrect n l hm
        refine ⟨len, fun s hs => ?_⟩
        rw [hv]
        obtain ⟨col, h2, h3⟩ := h1 s hs
        by_cases e : s = lower k
        · rw [if_pos e]
          rcases hk.2 with h4 | ⟨l0, c, rfl, h5, h6⟩
          · exact absurd (mem_allLooped.mpr ⟨n, l, hm, e ▸ hs⟩) (loopOf_nil h4)
          · refine ⟨l0, rfl, ?_⟩
            rw [column_eq b _ hc, low2, ← e] at h5
            have := colv_some.mp h5
            rw [h2] at this; simp at this; subst this
            rw [h6, h3]
        · rw [if_neg e]; exact ⟨col, h2, h3⟩
    | remove k =>
      constructor
      · intro x e hx
        simp only [step] at hx
        rw [(removeItem_block hw k).2] at hx
        exact he x e (List.mem_filter.mp hx).1
      · apply rect_sub hrect
        intro n l' hm
        obtain ⟨l, h1, h2⟩ := loops_removeItem hw k n l' hm
        refine ⟨n, l, h1, fun s hs => ⟨h2 s hs, ?_⟩⟩
        simp only [step]
        rw [val_removeItem hw, if_neg]
        rintro rfl
        have h3 := full_removeItem hw hf k (lower k) (mem_allLooped.mpr ⟨n, l', hm, hs⟩)
        exact ((keys_removeItem hw k _).mp h3).2 rfl
    | clear =>
      constructor
      · intro x e hx; simp [step, clear] at hx
      · intro n l hm; simp [step, clear] at hm
    | configure o m u => exact ⟨he, hrect⟩
    | addLoopName o n =>
      refine ⟨entries_congr (addLoopName_block b o n) he, ?_⟩
      have hv := val_congr (addLoopName_block b o n)
      simp only [step]
      rcases addLoopName_cases b o n with ⟨r, h⟩ | ⟨m, l, nv, h1, h2, h3, h4, ⟨ov, len, h5, h6, h7⟩, h⟩
      · rw [h]; exact hrect
      · have hnd : (dkeys (dropFromLoops b.loops [lower n])).Nodup := by
          rw [dkeys_dropFromLoops]; exact hw.loopsNodup
        intro m' l' hm
        rw [h] at hm
        rcases (mem_dset_iff hnd).mp hm with h8 | ⟨h8, _⟩
        · simp at h8; obtain ⟨rfl, rfl⟩ := h8
          obtain ⟨len0, h9⟩ := hrect _ l (dget_mem h2)
          obtain ⟨l2, g1, g2⟩ := findLoop_some' hw h1
          rw [h2] at g1; simp at g1; subst g1
          obtain ⟨col, g3, g4⟩ := h9 _ g2
          rw [val_of_getItem h5] at g3
          simp at g3; subst g3
          simp [PyVal.pyLen] at h6
          have hcol := hk nv (lookup_some.mpr h4)
          obtain ⟨nl, rfl⟩ : ∃ nl, nv = .list nl := by
            cases nv <;> simp [PyVal.isColumn] at hcol
            exact ⟨_, rfl⟩
          simp [PyVal.pyLen] at h7
          refine ⟨len0, fun s hs => ?_⟩
          rw [hv]
          simp only [List.mem_append, List.mem_singleton] at hs
          rcases hs with hs | rfl
          · exact h9 s hs
          · exact ⟨nl, val_of_getItem h4, by omega⟩
        · obtain ⟨l0, g1, rfl⟩ := (mem_dropOne hw.looped).mp h8
          obtain ⟨len0, h9⟩ := hrect _ l0 g1
          refine ⟨len0, fun s hs => ?_⟩
          rw [hv]
          exact h9 s (List.mem_filter.mp hs).1
    | changeOrder r p =>
      refine ⟨entries_congr (changeItemOrder_block hw r p) he, ?_⟩
      have hv := val_congr (changeItemOrder_block hw r p)
      simp only [step]
      apply rect_sub hrect
      intro n l' hm
      rcases changeItemOrder_cases hw r p with ⟨e, h⟩ | ⟨s, _, h1, h⟩ | ⟨s, m, l, _, h1, h2, h⟩
      · rw [h] at hm; exact ⟨n, l', hm, fun s hs => ⟨hs, by rw [hv]⟩⟩
      · rw [h] at hm; exact ⟨n, l', hm, fun s hs => ⟨hs, by rw [hv]⟩⟩
      · rw [h] at hm
        rcases (mem_dset_iff hw.loopsNodup).mp hm with h8 | ⟨h8, _⟩
        · simp at h8; obtain ⟨rfl, rfl⟩ := h8
          exact ⟨_, l, dget_mem h1, fun s hs => ⟨(reinsert_perm h2 p).mem_iff.mp hs, by rw [hv]⟩⟩
        · exact ⟨n, l', h8, fun s hs => ⟨hs, by rw [hv]⟩⟩
    | removePacket k v =>
      simp only [KeepsShape, step] at hk
      simp only [step]
      unfold removeKeyedPacket at *
      split at hk
      · simp at hk
      · rename_i colv hcolv
        split at hk
        · simp at hk
        · rename_i l hl
          split at hk
          · rename_i hin
            split at hk
            · simp at hk
            · rename_i n hfl
              split at hk
              · simp at hk
              · rename_i names hnames
                simp only [hin, if_true]
                obtain ⟨b', r, hrow⟩ : ∃ b' r, b.removeRow (l.idxOf v) names = (b', r) := ⟨_, _, rfl⟩
                rw [hrow] at hk ⊢
                simp only at hk; subst hk
                obtain ⟨len, h1⟩ := hrect n names (dget_mem hnames)
                obtain ⟨blk, _, hfr⟩ := removeRow_frame b (l.idxOf v) names
                rw [hrow] at hfr
                simp only at hfr
                obtain ⟨r1, r2, r3⟩ := removeRow_ok hw he (loop_nodup hw.looped (dget_mem hnames))
                  (fun s hs => (h1 s hs).imp fun _ h => h.1) hrow
                refine ⟨r1, ?_⟩
                intro m l' hm
                have hm' : (m, l') ∈ b.loops := by
                  have : b'.loops = b.loops := by rw [hfr]
                  rwa [← this]
                obtain ⟨len', h2⟩ := hrect m l' hm'
                by_cases e : m = n
                · subst e
                  have : l' = names := by
                    have := dget_of_mem hw.loopsNodup hm'
                    rw [hnames] at this; simp at this; exact this.symm
                  subst this
                  refine ⟨len - 1, fun s hs => ?_⟩
                  obtain ⟨col, q1, q2, q3⟩ := r3 s hs
                  obtain ⟨col', q4, q5⟩ := h1 s hs
                  rw [q1] at q4; simp at q4; subst q4
                  exact ⟨_, q3, by rw [List.length_eraseIdx, if_pos q2, q5]⟩
                · refine ⟨len', fun s hs => ?_⟩
                  rw [r2 s (fun h => e (flatMap_unique hw.looped hw.loopsNodup hm' hs (dget_mem hnames) h).1)]
                  exact h2 s hs
          · simp at hk
    | addPacket k p =>
      simp only [KeepsShape, step] at hk
      simp only [step]
      split at hk
      · simp at hk
      · rename_i n hgl
        unfold addPacket at *
        split at hk
        · simp at hk
        · rename_i names hnames
          obtain ⟨b', r, hrow⟩ : ∃ b' r, b.addPacketFrom p names = (b', r) := ⟨_, _, rfl⟩
          rw [hrow] at hk ⊢
          simp only at hk; subst hk
          obtain ⟨len, h1⟩ := hrect n names (dget_mem hnames)
          have hmemk : ∀ s ∈ names, s ∈ b.keys := fun s hs => hf s (mem_allLooped.mpr ⟨n, names, dget_mem hnames, hs⟩)
          obtain ⟨r1, r2, r3, r4⟩ := addPacketFrom_ok hw he (loop_nodup hw.looped (dget_mem hnames))
            (fun s hs => hw.keysLower s (hmemk s hs)) (fun hs => hns (hmemk _ hs))
            (fun s hs => (h1 s hs).imp fun _ h => h.1) hrow
          refine ⟨r1, ?_⟩
          intro m l' hm
          rw [r3] at hm
          obtain ⟨len', h2⟩ := hrect m l' hm
          by_cases e : m = n
          · subst e
            have : l' = names := by
              have := dget_of_mem hw.loopsNodup hm
              rw [hnames] at this; simp at this; exact this.symm
            subst this
            refine ⟨len + 1, fun s hs => ?_⟩
            obtain ⟨col, y, q1, q2, q3⟩ := r4 s hs
            obtain ⟨col', q4, q5⟩ := h1 s hs
            rw [q1] at q4; simp at q4; subst q4
            exact ⟨_, q3, by simp [q5]⟩
          · refine ⟨len', fun s hs => ?_⟩
            rw [r2 s (fun h => e (flatMap_unique hw.looped hw.loopsNodup hm hs (dget_mem hnames) h).1)]
            exact h2 s hs
    | createLoop ns o lc =>
      have hold : ∀ n l, (n, l) ∈ b.loops → ∃ len, ∀ s ∈ l, s ∉ ns.map lower →
          ∃ col, b.val s = some (.list col) ∧ col.length = len := by
        intro n l hm
        obtain ⟨len, h⟩ := hrect n l hm
        exact ⟨len, fun s hs _ => h s hs⟩
      cases lc with
      | false =>
        simp only [step, createLoop, Bool.false_eq_true, if_false]
        refine ⟨entries_congr (makeLoop_ok hw ns o).2 he, ?_⟩
        apply rect_makeLoop hw ns o hold
        rcases hk with hk | ⟨len, hk⟩
        · simp at hk
        · refine ⟨len, fun d hd => ?_⟩
          obtain ⟨c, h1, h2⟩ := hk d hd
          refine ⟨c, ?_, h2⟩
          have hne : lower d ≠ saves := by
            intro e; rw [e] at h1; simp [column, lookup_saves] at h1
          rw [column_eq b _ hne, low2] at h1
          exact colv_some.mp h1
      | true =>
        simp only [step, createLoop, if_true]
        rcases createLoopCheck_cases b ns with ⟨e, h1, h2⟩ | ⟨h1, len, h2⟩ | ⟨h0, h1, h2⟩
        · rw [h1]; exact ⟨he, hrect⟩
        · rw [h1]
          simp only
          refine ⟨entries_congr (makeLoop_ok hw ns o).2 he, ?_⟩
          apply rect_makeLoop hw ns o hold
          refine ⟨len, fun d hd => ?_⟩
          obtain ⟨l, h3, h4⟩ := h2 d hd
          exact ⟨l, val_of_getItem h3, h4⟩
        · rw [h1]
          obtain ⟨b', r, hwr⟩ : ∃ b' r, b.wrapAll ns = (b', r) := ⟨_, _, rfl⟩
          have hw' := wf_wrapAll hw ns
          have he' := entries_wrapAll hw he ns
          obtain ⟨f1, f2, f3, _⟩ := wrapAll_frame hwr
          rw [hwr] at hw' he' ⊢
          cases r with
          | error e =>
            simp only
            refine ⟨he', ?_⟩
            -- a failed wrap only touches single values, which are in no loop
            apply rect_sub hrect
            intro n l hm
            rw [f2] at hm
            obtain ⟨len, h⟩ := hrect n l hm
            refine ⟨n, l, hm, fun s hs => ⟨hs, ?_⟩⟩
            apply val_wrapAll_other hwr
            intro hin
            obtain ⟨d, hd, rfl⟩ := List.mem_map.mp hin
            obtain ⟨v, h3, h4⟩ := h2 d hd
            obtain ⟨col, h5, _⟩ := h _ hs
            rw [val_of_getItem h3] at h5
            simp at h5; subst h5; simp [PyVal.isColumn] at h4
          | ok u =>
            simp only
            refine ⟨entries_congr (makeLoop_ok hw' ns o).2 he', ?_⟩
            have hv := val_wrapAll hc.1 hwr
            apply rect_makeLoop hw' ns o
            · intro n l hm
              rw [f2] at hm
              obtain ⟨len, h⟩ := hrect n l hm
              refine ⟨len, fun s hs hs' => ?_⟩
              rw [hv, if_neg hs']; exact h s hs
            · refine ⟨1, fun d hd => ?_⟩
              obtain ⟨v, h3, _⟩ := h2 d hd
              refine ⟨[v], ?_, rfl⟩
              rw [hv, if_pos (List.mem_map.mpr ⟨d, hd, rfl⟩), val_of_getItem h3]; rfl

/-- C18: in every history of shape-keeping operations all columns of a loop have the same number of
values. Missing from the full property: histories in which `AddLoopName` is given something other than a
column, see `C18_string_column_fails`. -/
theorem C18_rectangular (b : Block) (h : ShapeHistory b) : b.Rect := by
  obtain ⟨hr, _, hrect⟩ := shape_inv b h
  exact (rect_iff hr).mpr hrect

/-- C18: `CreateLoop` accepts (with its length check on) exactly if all named items are columns of one length,
or all are single values; columns of different length, or columns mixed with single values, are refused and
nothing changes. -/
theorem C18_createLoop_refuses (b : Block) (ns : List Str) (o : Int) (d e : Str) (hd : d ∈ ns) (he : e ∈ ns)
    (h : (∃ l l', b.column d = some l ∧ b.column e = some l' ∧ l.length ≠ l'.length) ∨
         (∃ l v, b.column d = some l ∧ b.lookup e = some v ∧ v.isColumn = false)) :
    ∃ err, b.createLoop ns o true = (b, .error err) := by
  have hcol : ∀ k l, b.column k = some l → b.getItem k = .ok (.list l) := by
    intro k l hk
    unfold column at hk
    split at hk
    · rename_i h'; simp at hk; subst hk; exact lookup_some.mp h'
    · simp at hk
  simp only [createLoop, if_true]
  rcases createLoopCheck_cases b ns with ⟨e', h1, _⟩ | ⟨h1, len, h2⟩ | ⟨_, h1, h2⟩
  · exact ⟨e', by rw [h1]⟩
  · exfalso
    rcases h with ⟨l, l', h3, h4, h5⟩ | ⟨l, v, h3, h4, h5⟩
    · obtain ⟨c, g1, g2⟩ := h2 d hd
      obtain ⟨c', g3, g4⟩ := h2 e he
      rw [hcol d l h3] at g1; rw [hcol e l' h4] at g3
      simp at g1 g3; subst g1 g3; omega
    · obtain ⟨c', g3, g4⟩ := h2 e he
      rw [lookup_some.mp h4] at g3; simp at g3; subst g3; simp [PyVal.isColumn] at h5
  · exfalso
    have : ∃ l, b.column d = some l := by
      rcases h with ⟨l, l', h3, h4, h5⟩ | ⟨l, v, h3, h4, h5⟩ <;> exact ⟨l, h3⟩
    obtain ⟨l, h3⟩ := this
    obtain ⟨v, g1, g2⟩ := h2 d hd
    rw [hcol d l h3] at g1; simp at g1; subst g1; simp [PyVal.isColumn] at g2

/-- C18: `AddLoopName` refuses a column whose length differs from that of the loop. -/
theorem C18_addLoopName_refuses (b : Block) (hr : Reachable b) (o n : Str) (l l' : List PyVal) (hn : lower n ∉ b.loopOf o)
    (hl : b.column o = some l) (hl' : b.column n = some l') (hne : l.length ≠ l'.length) :
    ∃ e, b.addLoopName o n = (b, .error e) := by
  have hcol : ∀ k l, b.column k = some l → b.getItem k = .ok (.list l) := by
    intro k l hk
    unfold column at hk
    split at hk
    · rename_i h'; simp at hk; subst hk; exact lookup_some.mp h'
    · simp at hk
  rcases addLoopName_cases b o n with ⟨r, h⟩ | ⟨m, l0, nv, h1, h2, h3, h4, ⟨ov, len, h5, h6, h7⟩, h⟩
  · cases r with
    | error e => exact ⟨e, h⟩
    | ok u =>
      exfalso
      unfold addLoopName at h
      unfold loopOf at hn
      simp only [hcol o l hl, hcol n l' hl', PyVal.pyLen] at h
      split at h
      · simp at h
      · rename_i m hm
        split at h
        · simp at h
        · rename_i l1 hl1
          split at h
          · rename_i hin
            apply hn
            unfold findLoop at hm
            cases hfd : b.loops.find? (fun p => decide (lower o ∈ p.2)) with
            | none => rw [hfd] at hm; simp at hm
            | some q =>
              rw [hfd] at hm
              simp at hm; subst hm
              rw [dget_of_mem (reachable_wf hr).1.loopsNodup (List.mem_of_find?_eq_some hfd)] at hl1
              simp at hl1; subst hl1
              exact hin
          · rw [if_pos (fun e => hne e.symm)] at h; simp at h
  · exfalso
    rw [hcol o l hl] at h5; rw [hcol n l' hl'] at h4
    simp at h4 h5; subst h4 h5
    simp [PyVal.pyLen] at h6 h7
    omega

/-- A shape history exists: the sample block. -/
theorem sample_shape : letI := asciiFold; ShapeHistory sample := by
  letI := asciiFold
  unfold sample
  refine .step _ _ (.step _ _ (.step _ _ (.step _ _ (.fresh _ ⟨rfl, rfl, rfl, rfl⟩) ?_ ?_) ?_ ?_) ?_ ?_) ?_ ?_
  · show _ ≠ _; decide +kernel
  · exact ⟨by simp, Or.inl (by decide +kernel)⟩
  · show _ ≠ _; decide +kernel
  · exact ⟨by simp, Or.inl (by decide +kernel)⟩
  · show _ ≠ _; decide +kernel
  · exact ⟨by simp, Or.inl (by decide +kernel)⟩
  · exact ⟨by decide +kernel, Or.inl rfl⟩
  · exact Or.inl rfl

example : letI := asciiFold; sample.loops = [(1, ["_a".toList, "_b".toList])] ∧
    sample.column "_a".toList = some [.str "1".toList, .str "2".toList] := by decide +kernel

/-- C18 is false without the restriction to columns: `AddLoopName` accepts a plain string that has as many
characters as the loop has rows. -/
theorem C18_string_column_fails : letI := asciiFold
    let b := sample.run [.add "_s".toList (.str "xy".toList) false]
    let r := b.addLoopName "_a".toList "_s".toList
    r.2 = .ok () ∧ dget r.1.loops 1 = some ["_a".toList, "_b".toList, "_s".toList] ∧ r.1.column "_s".toList = none := by
  decide +kernel

/-! ## C19 -/

/-- The loop number is printed after `CreateLoop` succeeded exactly where `at` says. -/
theorem createLoop_ok_inv {b b' : Block} (hw : WF b) {ns : List Str} {o : Int} {lc : Bool}
    (h : b.createLoop ns o lc = (b', .ok ())) :
    ∃ c, WF c ∧ c.loops = b.loops ∧ c.order = b.order ∧ c.keys = b.keys ∧ b' = (c.makeLoop ns o).1 := by
  unfold createLoop at h
  split at h
  · have hw1 := wf_createLoopCheck hw ns
    split at h
    · simp at h
    · rename_i c hc
      rw [hc] at hw1
      refine ⟨c, hw1, ?_⟩
      have hb : b' = (c.makeLoop ns o).1 := by rw [h]
      rcases createLoopCheck_cases b ns with ⟨e, h1, _⟩ | ⟨h1, _⟩ | ⟨_, h1, _⟩
      · rw [h1] at hc; simp at hc
      · rw [h1] at hc; simp at hc; subst hc; exact ⟨rfl, rfl, rfl, hb⟩
      · rw [h1] at hc
        obtain ⟨f1, f2, f3, _⟩ := wrapAll_frame hc
        exact ⟨f2, f1, f3, hb⟩
  · exact ⟨b, hw, rfl, rfl, rfl, by rw [h]⟩

theorem dget_restLoops {loops : Dict Nat (List Str)} (hn : (dkeys loops).Nodup) (lc : List Str) (m : Nat) :
    dget (restLoops loops lc) m = (dget loops m).bind fun l =>
      if l.filter (fun x => decide (x ∉ lc)) = [] then none else some (l.filter fun x => decide (x ∉ lc)) := by
  have hn' := dkeys_restLoops_nodup hn lc
  cases h : dget loops m with
  | none =>
    simp only [Option.bind_none]
    exact dget_eq_none.mpr (fun h' => dget_eq_none.mp h (mem_dkeys_restLoops h'))
  | some l =>
    simp only [Option.bind_some]
    by_cases e : l.filter (fun x => decide (x ∉ lc)) = []
    · rw [if_pos e]
      apply dget_eq_none.mpr
      intro h'
      obtain ⟨⟨m', l'⟩, h1, h2⟩ := List.mem_map.mp h'
      simp at h2; subst h2
      obtain ⟨h3, l0, h4, rfl⟩ := mem_restLoops.mp h1
      rw [dget_of_mem hn h4] at h; simp at h; subst h
      exact h3 e
    · rw [if_neg e]
      exact dget_of_mem hn' (mem_restLoops.mpr ⟨e, l, dget_mem h, rfl⟩)

/-- C19: after `CreateLoop` succeeds there is one new loop `n` holding exactly the named items in the given
order; every other loop has lost exactly the named items, and has disappeared exactly if nothing was left
of it; the rest of the print order is unchanged; no name is gained or lost. -/
theorem C19_moves (b b' : Block) (hr : Reachable b) (ns : List Str) (o : Int) (lc : Bool)
    (h : b.createLoop ns o lc = (b', .ok ())) :
    ∃ n, dget b'.loops n = some (ns.map lower) ∧
      (∀ m, m ≠ n → dget b'.loops m = (dget b.loops m).bind fun l =>
        let rest := l.filter fun s => decide (s ∉ ns.map lower)
        if rest = [] then none else some rest) ∧
      Ref.loop n ∈ b'.order ∧
      b'.order.filter (fun r => decide (r ≠ .loop n)) = b.order.filter (fun r => match r with
        | .name s => decide (s ∉ ns.map lower)
        | .loop m => match dget b.loops m with
          | some l => l.any fun s => decide (s ∉ ns.map lower)
          | none => false) ∧
      b'.keys = b.keys ∧
      (o < 0 → b'.order.getLast? = some (.loop n)) := by
  obtain ⟨hw, _⟩ := reachable_wf hr
  obtain ⟨c, hwc, h1, h2, h3, rfl⟩ := createLoop_ok_inv hw h
  rw [makeLoop_eq hwc]
  simp only
  generalize hL : restLoops c.loops (ns.map lower) = L
  have hfresh := newLoopNo_fresh L
  generalize newLoopNo L = n at *
  have hdn : dget L n = none := dget_eq_none.mpr hfresh
  have hA : ∀ r, r ∈ restOrder c (ns.map lower) → r ≠ .loop n := by
    rintro r hr' rfl
    unfold restOrder at hr'
    rw [hL] at hr'
    simp only [List.mem_filter, decide_eq_true_eq] at hr'
    exact hfresh hr'.2
  refine ⟨n, ?_, ?_, ?_, ?_, h3, ?_⟩
  · rw [dget_append, hdn]; simp [dget]
  · intro m hm
    rw [dget_append]
    have : dget [(n, ns.map lower)] m = none := by
      simp only [dget]; rw [if_neg (fun e => hm e.symm)]
    rw [this, Option.or_none, ← hL, dget_restLoops hwc.loopsNodup, h1]
  · rw [List.mem_filter]
    refine ⟨?_, rfl⟩
    split
    · exact mem_pyInsert.mpr (Or.inl rfl)
    · simp
  · rw [List.filter_filter]
    have hrem : ∀ (p : Ref → Bool), (∀ r, p r = true → r ≠ .loop n) →
        (if 0 ≤ o then pyInsert (restOrder c (ns.map lower)) o (.loop n)
          else restOrder c (ns.map lower) ++ [.loop n]).filter p = (restOrder c (ns.map lower)).filter p := by
      intro p hp
      have hpn : p (.loop n) = false := by
        cases hpp : p (.loop n) with
        | false => rfl
        | true => exact absurd rfl (hp _ hpp)
      split
      · unfold pyInsert
        simp only
        rw [List.filter_append, List.filter_cons, hpn]
        simp only [Bool.false_eq_true, if_false]
        rw [← List.filter_append, List.take_append_drop]
      · simp [List.filter_append, hpn]
    rw [hrem _ (by intro r hr'; simp at hr'; exact hr'.1)]
    unfold restOrder
    rw [List.filter_filter, hL, h2]
    apply List.filter_congr
    intro r hr'
    cases r with
    | name s => simp
    | loop m =>
      simp only [Bool.and_true]
      have hmk : m ∈ dkeys L ↔ ∃ l, dget b.loops m = some l ∧ l.filter (fun s => decide (s ∉ ns.map lower)) ≠ [] := by
        rw [← dget_isSome, ← hL, dget_restLoops hwc.loopsNodup, h1]
        cases dget b.loops m with
        | none => simp
        | some l =>
          simp only [Option.bind_some, Option.some.injEq, exists_eq_left']
          by_cases e : l.filter (fun s => decide (s ∉ ns.map lower)) = []
          · rw [if_pos e]; exact ⟨fun h => by simp at h, fun h => absurd e h⟩
          · rw [if_neg e]; exact ⟨fun _ => e, fun _ => ⟨_, rfl⟩⟩
      have : (decide (m ∈ dkeys L)) = (match dget b.loops m with
          | some l => l.any fun s => decide (s ∉ ns.map lower)
          | none => false) := by
        rw [Bool.eq_iff_iff, decide_eq_true_eq, hmk]
        cases dget b.loops m with
        | none => simp
        | some l =>
          simp only [Option.some.injEq, exists_eq_left', ne_eq, List.filter_eq_nil_iff, List.any_eq_true]
          simp
      rw [← this]
      by_cases e : m ∈ dkeys L
      · simp only [e, decide_true, Bool.and_true]
        simp only [ne_eq, Ref.loop.injEq, decide_eq_true_eq]
        intro e'; subst e'; exact hfresh e
      · simp [e]
  · intro ho
    rw [if_neg (by omega), List.filter_append]
    simp

/-- C19, print position: exactly where the new loop stands. `A` is the old order without the loops that
became empty; the new loop stands after those of the first `o` entries of `A` that are not themselves
moved into it. -/
theorem C19_position_exact (b b' : Block) (hr : Reachable b) (ns : List Str) (o : Nat) (lc : Bool)
    (h : b.createLoop ns o lc = (b', .ok ())) :
    let emptied : Ref → Bool := fun r => match r with
      | .name _ => false
      | .loop m => match dget b.loops m with
        | some l => l.all fun s => decide (s ∈ ns.map lower)
        | none => true
    let moved : Ref → Bool := fun r => match r with
      | .name s => decide (s ∈ ns.map lower)
      | .loop _ => false
    let A := b.order.filter fun r => !emptied r
    ∃ n, dget b'.loops n = some (ns.map lower) ∧
      b'.order = (A.take o).filter (fun r => !moved r) ++ [.loop n] ++ (A.drop o).filter (fun r => !moved r) := by
  obtain ⟨hw, _⟩ := reachable_wf hr
  obtain ⟨c, hwc, h1, h2, h3, rfl⟩ := createLoop_ok_inv hw h
  rw [makeLoop_eq hwc]
  simp only
  generalize hL : restLoops c.loops (ns.map lower) = L
  have hfresh := newLoopNo_fresh L
  generalize newLoopNo L = n at *
  have hdn : dget L n = none := dget_eq_none.mpr hfresh
  refine ⟨n, ?_, ?_⟩
  · rw [dget_append, hdn]; simp [dget]
  · have hA : restOrder c (ns.map lower) = b.order.filter (fun r => !(match r with
      | .name _ => false
      | .loop m => match dget b.loops m with
        | some l => l.all fun s => decide (s ∈ ns.map lower)
        | none => true : Bool)) := by
      unfold restOrder
      rw [h2, hL]
      apply List.filter_congr
      intro r _
      cases r with
      | name s => rfl
      | loop m =>
        simp only
        rw [Bool.eq_iff_iff, decide_eq_true_eq, ← dget_isSome, ← hL, dget_restLoops hwc.loopsNodup, h1]
        cases dget b.loops m with
        | none => simp
        | some l =>
          simp only [Option.bind_some]
          by_cases e : l.filter (fun s => decide (s ∉ ns.map lower)) = []
          · rw [if_pos e]
            rw [List.filter_eq_nil_iff] at e
            simp at e ⊢
            exact e
          · rw [if_neg e]
            rw [List.filter_eq_nil_iff] at e
            simp at e ⊢
            exact e
    rw [if_pos (by omega), hA]
    unfold pyInsert
    simp only
    rw [if_neg (by omega)]
    simp only [Int.toNat_natCast, List.filter_append, List.filter_cons, if_true]
    rw [List.append_assoc, List.singleton_append]
    congr 1
    · apply List.filter_congr
      intro r _
      cases r with
      | name s => by_cases hs : s ∈ ns.map lower <;> simp only [hs, not_true_eq_false, not_false_eq_true, decide_true, decide_false, Bool.not_true, Bool.not_false]
      | loop m => rfl
    · congr 1
      apply List.filter_congr
      intro r _
      cases r with
      | name s => by_cases hs : s ∈ ns.map lower <;> simp only [hs, not_true_eq_false, not_false_eq_true, decide_true, decide_false, Bool.not_true, Bool.not_false]
      | loop m => rfl

/-- The full position statement: the new loop stands at position `o` of the new order (or at the end if the order is
shorter). False of the code, see `C19_position_fails`. -/
def CreateLoopPosition : Prop :=
  ∀ (b b' : Block) (ns : List Str) (o : Nat) (lc : Bool), Reachable b → (ns.map lower).Nodup →
    b.createLoop ns o lc = (b', .ok ()) →
    ∃ n, dget b'.loops n = some (ns.map lower) ∧ b'.order.idxOf (.loop n) = min o (b'.order.length - 1)

/-- C19, print position, partial: if all the named items were in loops before, the new loop stands exactly at the
requested position. Missing: unlooped items, which are taken out of the order only after the position has been
counted. -/
theorem C19_position_partial (b b' : Block) (hr : Reachable b) (ns : List Str) (hn : (ns.map lower).Nodup) (o : Nat) (lc : Bool)
    (h : b.createLoop ns o lc = (b', .ok ())) (hlp : ∀ s ∈ ns.map lower, Ref.name s ∉ b.order) :
    ∃ n, dget b'.loops n = some (ns.map lower) ∧ b'.order.idxOf (.loop n) = min o (b'.order.length - 1) := by
  obtain ⟨n, h1, h2⟩ := C19_position_exact b b' hr ns o lc h
  refine ⟨n, h1, ?_⟩
  have hw' : WF b' := by
    obtain ⟨hw, _⟩ := reachable_wf hr
    have := wf_createLoop hw ns o lc hn
    rw [h] at this; exact this
  have hnd := hw'.orderNodup
  rw [h2] at hnd ⊢
  have hkeep : ∀ (X : List Ref), (∀ r ∈ X, r ∈ b.order) → X.filter (fun r => !(match r with
      | .name s => decide (s ∈ ns.map lower)
      | .loop _ => false : Bool)) = X := by
    intro X hX
    rw [List.filter_eq_self]
    intro r hr'
    cases r with
    | name s =>
      simp only [Bool.not_eq_eq_eq_not, Bool.not_true, decide_eq_false_iff_not]
      exact fun hs => hlp s hs (hX _ hr')
    | loop m => rfl
  rw [hkeep _ (fun r hr' => (List.mem_filter.mp (List.mem_of_mem_take hr')).1),
    hkeep _ (fun r hr' => (List.mem_filter.mp (List.mem_of_mem_drop hr')).1)] at hnd ⊢
  generalize b.order.filter _ = A at hnd ⊢
  rw [List.append_assoc, List.nodup_append] at hnd
  have hni : Ref.loop n ∉ A.take o := fun hx => hnd.2.2 _ hx (.loop n) (by simp) rfl
  rw [List.append_assoc, List.idxOf_append, if_neg hni]
  simp
  omega

/-- C19's position is off when an unlooped named item stands before the requested place: asking for
position 1 among `_a, _b, _c` with `_a` in the new loop gives position 0. -/
theorem C19_position_fails : letI := asciiFold; ¬ CreateLoopPosition := by
  letI := asciiFold
  intro h
  let b0 : Block := ({} : Block).run [.add "_a".toList (.str "1".toList) false, .add "_b".toList (.str "2".toList) false,
    .add "_c".toList (.str "3".toList) false]
  have hr : Reachable b0 := .step _ _ (.step _ _ (.step _ _ (.fresh {} ⟨rfl, rfl, rfl, rfl⟩)
    (by show _ ≠ _; decide +kernel)) (by show _ ≠ _; decide +kernel)) (by show _ ≠ _; decide +kernel)
  obtain ⟨n, h1, h2⟩ := h b0 (b0.createLoop ["_a".toList] 1 true).1 ["_a".toList] 1 true hr
    (by decide +kernel) (by decide +kernel)
  have hl : (b0.createLoop ["_a".toList] 1 true).1.loops = [(1, ["_a".toList])] := by decide +kernel
  have ho : (b0.createLoop ["_a".toList] 1 true).1.order = [.loop 1, .name "_b".toList, .name "_c".toList] := by decide +kernel
  rw [hl] at h1
  simp only [dget] at h1
  split at h1
  · rename_i e; subst e
    rw [ho] at h2; revert h2; decide +kernel
  · simp at h1

example : letI := asciiFold
    (sample.createLoop ["_b".toList] 0 true).2 = .ok () ∧ (∀ s ∈ ["_b".toList].map lower, Ref.name s ∉ sample.order) := by
  decide +kernel

/-! ## C20 -/

theorem dget_filter_neq {d : Dict Nat (List Str)} (n m : Nat) : dget (ddel d n) m = if n = m then none else dget d m := dget_ddel d n m

/-- C20: removing a name removes exactly that name from the stored names and from the print order; every loop
keeps its other members in order and disappears exactly if the name was its last member. -/
theorem C20_remove (b : Block) (hr : Reachable b) (k : Str) :
    let b' := (b.removeItem k).1
    (b.removeItem k).2 = .ok () ∧ b'.contains k = false ∧
    b'.keys = b.keys.filter (fun s => decide (s ≠ lower k)) ∧
    b'.printed = b.printed.filter (fun s => decide (s ≠ lower k)) ∧
    (∀ m, dget b'.loops m = (dget b.loops m).bind fun l =>
      if lower k ∈ l then
        (if l.filter (fun s => decide (s ≠ lower k)) = [] then none else some (l.filter fun s => decide (s ≠ lower k)))
      else some l) ∧
    (∀ x, x ≠ saves → lower x ≠ lower k → b'.lookup x = b.lookup x) := by
  obtain ⟨hw, hf⟩ := reachable_wf hr
  simp only
  have hblk := removeItem_block hw k
  have hloops : ∀ m, dget (b.removeItem k).1.loops m = (dget b.loops m).bind fun l =>
      if lower k ∈ l then
        (if l.filter (fun s => decide (s ≠ lower k)) = [] then none else some (l.filter fun s => decide (s ≠ lower k)))
      else some l := by
    intro m
    rw [removeItem_eq hw]
    by_cases hk : lower k ∈ b.keys
    · simp only [hk, if_true]
      cases hfl : b.findLoop k with
      | none =>
        simp only
        cases hd : dget b.loops m with
        | none => rfl
        | some l =>
          simp only [Option.bind_some]
          rw [if_neg (fun h => findLoop_none.mp hfl (mem_allLooped.mpr ⟨m, l, dget_mem hd, h⟩))]
      | some n =>
        obtain ⟨l, h1, h2⟩ := findLoop_some' hw hfl
        have hpe : pyErase l (lower k) = l.filter fun s => decide (s ≠ lower k) :=
          pyErase_eq_filter (loop_nodup hw.looped (dget_mem h1)) _
        have hother : ∀ l', m ≠ n → dget b.loops m = some l' → lower k ∉ l' := fun l' e hd h =>
          e (flatMap_unique hw.looped hw.loopsNodup (dget_mem hd) h (dget_mem h1) h2).1
        simp only [h1, hpe]
        by_cases he : l.filter (fun s => decide (s ≠ lower k)) = []
        · rw [if_pos he]
          simp only [dget_ddel]
          by_cases e : n = m
          · subst e; rw [if_pos rfl, h1, Option.bind_some, if_pos h2, if_pos he]
          · rw [if_neg e]
            cases hd : dget b.loops m with
            | none => rfl
            | some l' => rw [Option.bind_some, if_neg (hother l' (fun h => e h.symm) hd)]
        · rw [if_neg he]
          simp only [dget_dset]
          by_cases e : n = m
          · subst e; rw [if_pos rfl, h1, Option.bind_some, if_pos h2, if_neg he]
          · rw [if_neg e]
            cases hd : dget b.loops m with
            | none => rfl
            | some l' => rw [Option.bind_some, if_neg (hother l' (fun h => e h.symm) hd)]
    · simp only [hk, if_false]
      cases hd : dget b.loops m with
      | none => rfl
      | some l' => rw [Option.bind_some, if_neg (fun h => hk (hf _ (mem_allLooped.mpr ⟨m, l', dget_mem hd, h⟩)))]
  have hkeys : (b.removeItem k).1.keys = b.keys.filter (fun s => decide (s ≠ lower k)) := by
    simp only [keys]; rw [hblk.2]; exact dkeys_ddel _ _
  refine ⟨hblk.1, ?_, hkeys, ?_, hloops, ?_⟩
  · rw [contains_false, keys_removeItem hw]; exact fun h => h.2 rfl
  · -- the order changes at most by the entry of the name or of the loop that became empty
    have hord : (b.removeItem k).1.order = b.order.filter (fun r => match r with
        | .name s => decide (s ≠ lower k)
        | .loop m => (dget (b.removeItem k).1.loops m).isSome) := by
      have hw' := wf_removeItem hw k
      have hsub : ∃ r0, (b.removeItem k).1.order = b.order.filter (fun r => decide (r ≠ r0)) ∨ (b.removeItem k).1.order = b.order := by
        rw [removeItem_eq hw]
        by_cases hk : lower k ∈ b.keys
        · simp only [hk, if_true]
          cases hfl : b.findLoop k with
          | none => exact ⟨.name (lower k), Or.inl (pyErase_eq_filter hw.orderNodup _)⟩
          | some n =>
            obtain ⟨l, h1, h2⟩ := findLoop_some' hw hfl
            simp only [h1]
            split
            · exact ⟨.loop n, Or.inl (pyErase_eq_filter hw.orderNodup _)⟩
            · exact ⟨.loop n, .inr (by trivial)⟩
        · simp only [hk, if_false]; exact ⟨.loop 0, .inr (by trivial)⟩
      have hchar : ∀ r ∈ b.order, r ∈ (b.removeItem k).1.order ↔ (match r with
        | .name s => decide (s ≠ lower k)
        | .loop m => (dget (b.removeItem k).1.loops m).isSome : Bool) = true := by
        intro r hr'
        cases r with
        | name s =>
          rw [hw'.orderName, keys_removeItem hw]
          obtain ⟨g1, g2⟩ := (hw.orderName s).mp hr'
          simp only [decide_eq_true_eq]
          constructor
          · rintro ⟨⟨_, h⟩, _⟩; exact h
          · intro h
            refine ⟨⟨g1, h⟩, ?_⟩
            intro hin
            obtain ⟨m, l, h1, h2⟩ := mem_allLooped.mp hin
            obtain ⟨l0, h3, h4⟩ := loops_removeItem hw k m l h1
            exact g2 (mem_allLooped.mpr ⟨m, l0, h3, h4 s h2⟩)
        | loop m =>
          rw [hw'.orderLoop, ← dget_isSome]
          simp [Option.isSome_iff_exists]
      obtain ⟨r0, h0⟩ := hsub
      rcases h0 with h0 | h0
      · rw [h0]
        apply List.filter_congr
        intro r hr'
        rw [Bool.eq_iff_iff, ← hchar r hr', h0, List.mem_filter]
        exact ⟨fun h => ⟨hr', h⟩, fun h => h.2⟩
      · have : b.order.filter (fun r => match r with
            | .name s => decide (s ≠ lower k)
            | .loop m => (dget (b.removeItem k).1.loops m).isSome) = b.order := by
          rw [List.filter_eq_self]
          intro r hr'
          rw [← hchar r hr', h0]; exact hr'
        rw [this]; exact h0
    unfold printed
    rw [hord]
    have hmem : ∀ r ∈ b.order, r ∈ b.order := fun _ h => h
    generalize b.order = O at hmem ⊢
    have : ∀ X : List Ref, (∀ r ∈ X, True) → (X.filter (fun r => match r with
          | .name s => decide (s ≠ lower k)
          | .loop m => (dget (b.removeItem k).1.loops m).isSome)).flatMap (fun r => match r with
          | .name s => [s]
          | .loop n => match dget (b.removeItem k).1.loops n with
            | some l => l
            | none => []) = (X.flatMap fun r => match r with
          | .name s => [s]
          | .loop n => match dget b.loops n with
            | some l => l
            | none => []).filter (fun s => decide (s ≠ lower k)) := by
      intro X _
      induction X with
      | nil => rfl
      | cons r X ih =>
        have ih := ih (fun _ _ => trivial)
        rw [List.flatMap_cons, List.filter_append, ← ih, List.filter_cons]
        cases r with
        | name s =>
          simp only
          by_cases e : s = lower k
          · simp [e]
          · simp [e]
        | loop m =>
          simp only
          have hm' := hloops m
          cases hd : dget b.loops m with
          | none => rw [hd] at hm'; simp only [Option.bind_none] at hm'; simp [hm']
          | some l =>
            rw [hd] at hm'
            simp only [Option.bind_some] at hm' ⊢
            by_cases hin : lower k ∈ l
            · rw [if_pos hin] at hm'
              by_cases he : l.filter (fun s => decide (s ≠ lower k)) = []
              · rw [if_pos he] at hm'; rw [he]; simp [hm']
              · rw [if_neg he] at hm'
                simp [hm']
            · rw [if_neg hin] at hm'
              simp only [hm', Option.isSome_some, if_true, List.flatMap_cons]
              rw [show l.filter (fun s => decide (s ≠ lower k)) = l from ?_]
              rw [List.filter_eq_self]
              intro s hs
              simp only [ne_eq, decide_not, Bool.not_eq_eq_eq_not, Bool.not_true, decide_eq_false_iff_not]
              rintro rfl; exact hin hs
    exact this O (fun _ _ => trivial)
  · intro x hx hne
    rw [lookup_val _ _ hx, lookup_val _ _ hx, val_removeItem hw, if_neg hne]

example : letI := asciiFold; (sample.removeItem "_A".toList).1.printed = ["_b".toList, "_c".toList] := by decide +kernel

/-! ## C21 -/

/-- `l'` is `l` with `x` moved to Python position `p` (`p` counts from the end if negative, and is clamped), everything
else keeping its relative order. -/
def MovedTo {α : Type} [DecidableEq α] (l l' : List α) (x : α) (p : Int) : Prop :=
  l'.Perm l ∧ l'.filter (fun y => decide (y ≠ x)) = l.filter (fun y => decide (y ≠ x)) ∧
  l'[(if p < 0 then (p + (l.length - 1 : Nat)).toNat else min p.toNat (l.length - 1))]? = some x

theorem movedTo_reinsert {α : Type} [DecidableEq α] {l : List α} {x : α} (hn : l.Nodup) (h : x ∈ l) (p : Int) :
    MovedTo l (pyInsert (pyErase l x) p x) x p := by
  refine ⟨reinsert_perm h p, ?_, ?_⟩
  · unfold pyInsert
    simp only
    rw [List.filter_append, List.filter_cons]
    simp only [ne_eq, not_true_eq_false, decide_false, Bool.false_eq_true, if_false]
    rw [← List.filter_append, List.take_append_drop, pyErase_eq_filter hn, List.filter_filter]
    simp
  · have hlen := length_pyErase h
    generalize hE : pyErase l x = E at hlen ⊢
    have hl : l.length - 1 = E.length := by omega
    rw [hl]
    unfold pyInsert
    simp only
    by_cases hp : p < 0
    · rw [if_pos hp, if_pos hp]
      rw [List.getElem?_append_right (by simp; omega)]
      have : (p + (E.length : Int)).toNat - (E.take (p + (E.length : Int)).toNat).length = 0 := by simp; omega
      rw [this]; rfl
    · rw [if_neg hp, if_neg hp]
      rw [List.getElem?_append_right (by simp)]
      have : min p.toNat E.length - (E.take p.toNat).length = 0 := by simp [List.length_take]
      rw [this]; rfl

/-- C21: moving an unlooped item changes nothing but its place in the print order. -/
theorem C21_single (b : Block) (hr : Reachable b) (s : Str) (p : Int) (hs : b.contains s = true) (hl : b.loopOf s = []) :
    ∃ o, b.changeItemOrder (.name s) p = ({ b with order := o }, .ok ()) ∧ MovedTo b.order o (.name (lower s)) p := by
  obtain ⟨hw, _⟩ := reachable_wf hr
  have hin : Ref.name (lower s) ∈ b.order := (hw.orderName _).mpr ⟨contains_iff.mp hs, loopOf_nil hl⟩
  have hfl : b.findLoop (lower s) = none := findLoop_none.mpr (by rw [low2]; exact loopOf_nil hl)
  refine ⟨_, ?_, movedTo_reinsert hw.orderNodup hin p⟩
  simp only [changeItemOrder, hfl, pyRemove_eq hin]

/-- C21: moving a looped item changes nothing but its place in its loop. -/
theorem C21_looped (b : Block) (hr : Reachable b) (s : Str) (p : Int) (n : Nat) (l : List Str)
    (hl : dget b.loops n = some l) (hs : lower s ∈ l) :
    ∃ l' loops', b.changeItemOrder (.name s) p = ({ b with loops := loops' }, .ok ()) ∧ MovedTo l l' (lower s) p ∧
      ∀ m, dget loops' m = if m = n then some l' else dget b.loops m := by
  obtain ⟨hw, _⟩ := reachable_wf hr
  have hfl : b.findLoop (lower s) = some n := findLoop_eq hw (dget_mem hl) (by rw [low2]; exact hs)
  refine ⟨_, dset b.loops n (pyInsert (pyErase l (lower s)) p (lower s)), ?_, movedTo_reinsert (loop_nodup hw.looped (dget_mem hl)) hs p, ?_⟩
  · simp only [changeItemOrder, hfl, hl, pyRemove_eq hs]
  · intro m
    rw [dget_dset]
    by_cases e : m = n
    · rw [if_pos e.symm, if_pos e]
    · rw [if_neg (fun h => e h.symm), if_neg e]

/-- C21: an unknown name is refused. -/
theorem C21_unknown (b : Block) (hr : Reachable b) (s : Str) (p : Int) (hs : b.contains s = false) :
    ∃ e, b.changeItemOrder (.name s) p = (b, .error e) := by
  obtain ⟨hw, hf⟩ := reachable_wf hr
  rcases changeItemOrder_cases hw (.name s) p with ⟨e, h⟩ | ⟨s', h0, h1, h⟩ | ⟨s', n, l, h0, h1, h2, h⟩
  · exact ⟨e, h⟩
  · exfalso; simp at h0; subst h0
    exact contains_false.mp hs ((hw.orderName _).mp h1).1
  · exfalso; simp at h0; subst h0
    exact contains_false.mp hs (hf _ (mem_allLooped.mpr ⟨n, l, dget_mem h1, h2⟩))

/-- A finding beside C21: a loop cannot be moved by its number, the call always raises. -/
theorem C21_loop_number_always_raises (b : Block) (hr : Reachable b) (n : Nat) (p : Int) :
    ∃ e, b.changeItemOrder (.loop n) p = (b, .error e) := by
  obtain ⟨hw, hf⟩ := reachable_wf hr
  rcases changeItemOrder_cases hw (.loop n) p with ⟨e, h⟩ | ⟨s', h0, h1, h⟩ | ⟨s', n, l, h0, h1, h2, h⟩
  · exact ⟨e, h⟩
  · simp at h0
  · simp at h0

example : letI := asciiFold
    sample.contains "_C".toList = true ∧ sample.loopOf "_C".toList = [] ∧
    (sample.changeItemOrder (.name "_C".toList) 0).1.printed = ["_c".toList, "_a".toList, "_b".toList] ∧
    (sample.changeItemOrder (.name "_A".toList) 7).1.printed = ["_b".toList, "_a".toList, "_c".toList] := by decide +kernel

end Verif.Block
