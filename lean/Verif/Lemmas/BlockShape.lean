import Verif.Lemmas.BlockValue
/-! Helper lemmas: shapes of loops, packets, reserved key. -/
set_option linter.unusedSectionVars false
namespace Verif.Block
variable [CaseFold]

/-! ### the reserved key is never stored -/

theorem nosaves_setItem {b b' : Block} {k : Str} {v : PyVal} {r : Except PyErr Unit} (h : b.setItem k v = (b', r))
    (hk : lower k ≠ saves) (hs : saves ∉ b.keys) : saves ∉ b'.keys := by
  cases r with
  | error e => rw [setItem_err h]; exact hs
  | ok u =>
    obtain ⟨sv, _, _, rfl⟩ := addItem_ok (setItem_ok h).2 (by simp)
    rw [keys_store]
    rintro (h1 | h1)
    · exact hk h1.symm
    · exact hs h1

theorem keys_addPacketFrom {b : Block} (p : Packet) (ds : List Str) : (b.addPacketFrom p ds).1.keys = b.keys := by
  induction ds generalizing b with
  | nil => rfl
  | cons d ds ih =>
    unfold addPacketFrom
    split
    · rfl
    · rename_i v hv
      have hk := getItem_ok_mem hv
      split
      · rfl
      · rename_i x _
        obtain ⟨blk, h1, h2⟩ := appendInPlace_frame b d x
        have h3 : (b.appendInPlace d x).1.keys = b.keys := by rw [h2]; exact h1
        split
        · rename_i h; rw [h] at h3; exact h3
        · rename_i b1 l' h
          rw [h] at h3
          simp only at h3
          split
          · rename_i b2 e h'; exact (setItem_frame h' (h3 ▸ hk)).2.2.1.trans h3
          · rename_i b2 h'
            rw [ih]; exact (setItem_frame h' (h3 ▸ hk)).2.2.1.trans h3

theorem nosaves_mergeStrictKeys {b nb : Block} (hs : saves ∉ b.keys) (att ks : List Str) (hk : ∀ k ∈ ks, lower k ≠ saves) :
    saves ∉ (b.mergeStrictKeys nb att ks).1.keys := by
  induction ks generalizing b with
  | nil => exact hs
  | cons k ks ih =>
    unfold mergeStrictKeys
    have hk' : ∀ x ∈ ks, lower x ≠ saves := fun x hx => hk x (by simp [hx])
    split
    · exact ih hs hk'
    · split
      · exact hs
      · split
        · exact hs
        · split
          · rename_i h; exact nosaves_setItem h (hk k (by simp)) hs
          · rename_i h; exact ih (nosaves_setItem h (hk k (by simp)) hs) hk'

theorem nosaves_mergeReplaceKeys {b nb : Block} (hs : saves ∉ b.keys) (ks : List Str) (hk : ∀ k ∈ ks, lower k ≠ saves) :
    saves ∉ (b.mergeReplaceKeys nb ks).1.keys := by
  induction ks generalizing b with
  | nil => exact hs
  | cons k ks ih =>
    unfold mergeReplaceKeys
    split
    · exact hs
    · split
      · rename_i h; exact nosaves_setItem h (hk k (by simp)) hs
      · rename_i h; exact ih (nosaves_setItem h (hk k (by simp)) hs) (fun x hx => hk x (by simp [hx]))

theorem keys_createLoop {b : Block} (hw : WF b) (ns : List Str) (o : Int) (lc : Bool) : (b.createLoop ns o lc).1.keys = b.keys := by
  unfold createLoop
  split
  · have hw1 := wf_createLoopCheck hw ns
    have : (b.createLoopCheck ns).1.keys = b.keys := by
      rcases createLoopCheck_cases b ns with ⟨e, h1, _⟩ | ⟨h1, _⟩ | ⟨_, h1, _⟩
      · rw [h1]
      · rw [h1]
      · rw [h1]
        exact (wrapAll_frame (b := b) (ns := ns) (b' := (b.wrapAll ns).1) (r := (b.wrapAll ns).2) rfl).2.2.1
    split
    · rename_i h; rw [h] at this; exact this
    · rename_i h; rw [h] at this hw1
      simp only [keys] at *
      rw [(makeLoop_ok hw1 ns o).2]; exact this
  · simp only [keys]; rw [(makeLoop_ok hw ns o).2]

theorem keys_mergeLoops {b : Block} (hw : WF b) (hf : Full b) (ls : List (List Str)) (h : ∀ l ∈ ls, (l.map lower).Nodup) :
    (b.mergeLoops ls).1.keys = b.keys := by
  induction ls generalizing b with
  | nil => rfl
  | cons l ls ih =>
    unfold mergeLoops
    have h0 := keys_createLoop hw l (-1) true
    have h1 := wf_createLoop hw l (-1) true (h l (by simp))
    have h2 := full_createLoop hw hf l (-1)
    split
    · rename_i h'; rw [h'] at h0; exact h0
    · rename_i h'; rw [h'] at h0 h1 h2
      rw [ih h1 h2 (fun x hx => h x (by simp [hx]))]; exact h0

theorem reachable_nosaves {b : Block} (h : Reachable b) : saves ∉ b.keys := by
  induction h with
  | fresh b h => simp [keys, h.1, dkeys]
  | step b op h hc ih =>
    obtain ⟨hw, _⟩ := reachable_wf h
    cases op with
    | add k v pre =>
      simp only [step, addItem]
      split
      · exact ih
      · rw [keys_store]
        rintro (h1 | h1)
        · exact hc h1.symm
        · exact ih h1
    | remove k => simp only [step]; rw [keys_removeItem hw]; exact fun h => ih h.1
    | createLoop ns o lc => simp only [step]; rw [keys_createLoop hw]; exact ih
    | addLoopName o n => simp only [step, keys]; rw [addLoopName_block]; exact ih
    | changeOrder r p => simp only [step, keys]; rw [changeItemOrder_block hw]; exact ih
    | clear => simp [step, clear, keys, dkeys]
    | removePacket k v =>
      obtain ⟨blk, h1, h2⟩ := removeKeyedPacket_frame b k v
      simp only [step]; rw [h2]
      show saves ∉ dkeys blk
      rw [h1]; exact ih
    | addPacket k p =>
      simp only [step]
      split
      · exact ih
      · unfold addPacket
        split
        · exact ih
        · rw [keys_addPacketFrom]; exact ih
    | configure o m u => exact ih
  | merge b nb mode att h h' ih ih' =>
    obtain ⟨hw, hf⟩ := reachable_wf h
    obtain ⟨hn, _⟩ := reachable_wf h'
    have hl : ∀ l ∈ nb.loops.map (·.2), (l.map lower).Nodup := by
      intro l hl
      obtain ⟨⟨n, l'⟩, h1, rfl⟩ := List.mem_map.mp hl
      exact (loop_lower_nodup hn h1).2
    have hk : ∀ k ∈ nb.keys, lower k ≠ saves := fun k hk e => ih' (by
      rw [hn.keysLower k hk] at e; rw [← e]; exact hk)
    cases mode with
    | overlay => exact ih
    | strict =>
      simp only [merge]
      have h1 := wf_full_mergeStrictKeys (nb := nb) hw hf att nb.keys
      have h0 := nosaves_mergeStrictKeys (nb := nb) ih att nb.keys hk
      split
      · rename_i h; rw [h] at h0; exact h0
      · rename_i h; rw [h] at h0 h1
        have h2 := keys_mergeLoops h1.1 h1.2 _ hl
        split
        · rename_i h'; rw [h'] at h2; simp only at h2; rw [h2]; exact h0
        · rename_i h'; rw [h'] at h2; simp only at h2
          show saves ∉ dkeys _
          rw [keys] at h2
          rw [h2]; exact h0
    | replace =>
      simp only [merge]
      have h1 := wf_full_mergeReplaceKeys (nb := nb) hw hf nb.keys
      have h0 := nosaves_mergeReplaceKeys (nb := nb) ih nb.keys hk
      split
      · rename_i h; rw [h] at h0; exact h0
      · rename_i h; rw [h] at h0 h1
        have h2 := keys_mergeLoops h1.1 h1.2 _ hl
        split
        · rename_i h'; rw [h'] at h2; simp only at h2; rw [h2]; exact h0
        · rename_i h'; rw [h'] at h2; simp only at h2
          show saves ∉ dkeys _
          rw [keys] at h2
          rw [h2]; exact h0

/-! ### columns -/

/-- The column under a lower-case name. -/
def colv (b : Block) (s : Str) : Option (List PyVal) :=
  match b.val s with
  | some (.list l) => some l
  | _ => none

theorem colv_some {b : Block} {s : Str} {l : List PyVal} : b.colv s = some l ↔ b.val s = some (.list l) := by
  unfold colv
  split
  · rename_i h; rw [h]; simp
  · rename_i h
    constructor
    · intro h'; simp at h'
    · intro h'; exact absurd h' (h l)

theorem column_eq (b : Block) (k : Str) (hk : k ≠ saves) : b.column k = b.colv (lower k) := by
  unfold column colv; rw [lookup_val b k hk]; rfl

theorem column_loop {b : Block} (hr : Reachable b) {s : Str} (hs : s ∈ b.keys) : b.column s = b.colv s := by
  obtain ⟨hw, _⟩ := reachable_wf hr
  rw [column_eq b s (fun e => reachable_nosaves hr (e ▸ hs)), hw.keysLower s hs]

/-- Rectangular, on the table itself. -/
def RectV (b : Block) : Prop :=
  ∀ n names, (n, names) ∈ b.loops → ∃ len, ∀ s ∈ names, ∃ col, b.val s = some (.list col) ∧ col.length = len

theorem rect_iff {b : Block} (hr : Reachable b) : b.Rect ↔ b.RectV := by
  obtain ⟨hw, hf⟩ := reachable_wf hr
  have key : ∀ n names, (n, names) ∈ b.loops → ∀ s ∈ names, b.column s = b.colv s := fun n names h s hs =>
    column_loop hr (hf s (mem_allLooped.mpr ⟨n, names, h, hs⟩))
  constructor
  · intro h n names hm
    obtain ⟨len, hl⟩ := h n names (dget_of_mem hw.loopsNodup hm)
    refine ⟨len, fun s hs => ?_⟩
    obtain ⟨col, h1, h2⟩ := hl s hs
    rw [key n names hm s hs] at h1
    exact ⟨col, colv_some.mp h1, h2⟩
  · intro h n names hm
    have hm := dget_mem hm
    obtain ⟨len, hl⟩ := h n names hm
    refine ⟨len, fun s hs => ?_⟩
    obtain ⟨col, h1, h2⟩ := hl s hs
    exact ⟨col, by rw [key n names hm s hs]; exact colv_some.mpr h1, h2⟩

/-- Entries as stored by checked and unchecked `AddItem`. -/
def GoodEntry : PyVal × PyVal → Prop
  | (a, c) => c = .none ∨ a = .none ∨ ∃ la lc, a = .list la ∧ c = .list lc ∧ la.length = lc.length ∧
      (notNoneAll la = true ∨ ∀ x ∈ la, notNone x = false)

/-- All entries are good. -/
def Entries (b : Block) : Prop := ∀ k e, (k, e) ∈ b.block → GoodEntry e

theorem goodEntry_add {b : Block} {k : Str} {v : PyVal} {pre : Bool} {sv : PyVal × PyVal}
    (h : b.addItemCheck k v pre = .ok sv) : GoodEntry sv := by
  cases pre with
  | true =>
    unfold addItemCheck at h
    simp only [if_true] at h
    split at h
    · simp at h
    · simp at h; subst h; exact Or.inl rfl
  | false =>
    unfold addItemCheck at h
    simp only [Bool.false_eq_true, if_false] at h
    split at h
    · simp at h
    · split at h
      · simp at h
      · split at h
        · simp at h
        · rename_i w p hr
          have hf := regularise_fst v w p hr
          subst hf
          have hscalar : w.isColumn = false → p = .none := by
            intro hc
            cases w <;> simp_all [regularise, PyVal.isColumn]
          split at h
          · split at h
            · rename_i hs
              simp at h; subst h
              cases hc : w.isColumn with
              | false => exact Or.inl (hscalar hc)
              | true =>
                obtain ⟨l, rfl⟩ : ∃ l, w = .list l := by cases w <;> simp [PyVal.isColumn] at hc; exact ⟨_, rfl⟩
                obtain ⟨_, _, q, rfl, h1, h2⟩ := regularise_list l _ _ hr
                have := notNone_of_stringy _ hs
                simp [notNone] at this
                exact Or.inr (Or.inr ⟨l, q, rfl, rfl, h1.symm, Or.inl this⟩)
            · simp at h; subst h
              cases hc : w.isColumn with
              | false => exact Or.inr (Or.inl (hscalar hc))
              | true =>
                obtain ⟨l, rfl⟩ : ∃ l, w = .list l := by cases w <;> simp [PyVal.isColumn] at hc; exact ⟨_, rfl⟩
                obtain ⟨_, _, q, rfl, h1, h2⟩ := regularise_list l _ _ hr
                exact Or.inr (Or.inr ⟨q, l, rfl, rfl, h1, Or.inr h2⟩)
          · simp at h

theorem entries_store {b : Block} (hw : WF b) (he : Entries b) (k : Str) (sv : PyVal × PyVal) (h : GoodEntry sv) :
    Entries (b.store k sv) := by
  intro x e hx
  simp only [store] at hx
  rcases (mem_dset_iff hw.keysNodup).mp hx with h1 | h1
  · simp at h1; rw [h1.2]; exact h
  · exact he x e h1.1

theorem entries_addItem {b : Block} (hw : WF b) (he : Entries b) (k : Str) (v : PyVal) (pre : Bool) :
    Entries (b.addItem k v pre).1 := by
  unfold addItem; split
  · exact he
  · rename_i h; exact entries_store hw he k _ (goodEntry_add h)

theorem entries_setItem {b : Block} (hw : WF b) (he : Entries b) (k : Str) (v : PyVal) : Entries (b.setItem k v).1 := by
  unfold setItem; split
  · exact he
  · exact entries_addItem hw he _ _ _

theorem entries_wrapAll {b : Block} (hw : WF b) (he : Entries b) (ns : List Str) : Entries (b.wrapAll ns).1 := by
  induction ns generalizing b with
  | nil => exact he
  | cons d ds ih =>
    unfold wrapAll
    split
    · exact he
    · rename_i v _
      have h1 := wf_setItem hw d (.list [v])
      have h2 := entries_setItem hw he d (.list [v])
      split
      · rename_i h; rw [h] at h2; exact h2
      · rename_i h; rw [h] at h1 h2; exact ih h1 h2

theorem entries_congr {b b' : Block} (h : b'.block = b.block) (he : Entries b) : Entries b' := by
  intro k e hk; rw [h] at hk; exact he k e hk

/-! ### removing a row -/

theorem delAt_list (l : List PyVal) (i : Nat) : delAt (.list l) i = if i < l.length then .ok (.list (l.eraseIdx i)) else .error .index := by
  simp [delAt, pyIter]

theorem notNoneAll_eraseIdx {l : List PyVal} (h : notNoneAll l = true) (i : Nat) : notNoneAll (l.eraseIdx i) = true := by
  rw [notNoneAll_iff] at *
  exact fun x hx => h x (List.mem_of_mem_eraseIdx hx)

/-- Reading an entry after deleting row `i` of both halves. -/
theorem readEntry_delAt {a c a' c' : PyVal} {col : List PyVal} (hg : GoodEntry (a, c)) (hr : readEntry (a, c) = .ok (.list col))
    {i : Nat} (h1 : delAt a i = .ok a') (h2 : delAt c i = .ok c') :
    GoodEntry (a', c') ∧ i < col.length ∧ readEntry (a', c') = .ok (.list (col.eraseIdx i)) := by
  rcases hg with rfl | rfl | ⟨la, lc, rfl, rfl, hlen, hk⟩
  · simp [delAt, pyIter] at h2
  · simp [delAt, pyIter] at h1
  · rw [delAt_list] at h1 h2
    split at h1
    · rename_i hi
      rw [if_pos (hlen ▸ hi)] at h2
      simp at h1 h2
      subst h1 h2
      refine ⟨Or.inr (Or.inr ⟨_, _, rfl, rfl, ?_, ?_⟩), ?_⟩
      · rw [List.length_eraseIdx, List.length_eraseIdx, hlen]
      · rcases hk with hk | hk
        · exact Or.inl (notNoneAll_eraseIdx hk i)
        · exact Or.inr (fun x hx => hk x (List.mem_of_mem_eraseIdx hx))
      · rcases hk with hk | hk
        · simp only [readEntry, notNone, hk, if_true] at hr
          simp at hr; subst hr
          refine ⟨hi, ?_⟩
          simp [readEntry, notNone, notNoneAll_eraseIdx hk i]
        · have hne : notNoneAll la = false := by
            cases hb : notNoneAll la with
            | false => rfl
            | true =>
              rw [notNoneAll_iff] at hb
              have hm := List.getElem_mem hi
              have := hb _ hm
              rw [hk _ hm] at this; simp at this
          simp only [readEntry, notNone, hne] at hr
          simp at hr; subst hr
          refine ⟨hlen ▸ hi, ?_⟩
          by_cases hz : la.eraseIdx i = []
          · have hz' : lc.eraseIdx i = [] := by
              apply List.length_eq_zero_iff.mp
              rw [List.length_eraseIdx, ← hlen, ← List.length_eraseIdx, hz]; rfl
            simp [readEntry, hz, hz', notNone, notNoneAll]
          · have : notNoneAll (la.eraseIdx i) = false := by
              cases hb : notNoneAll (la.eraseIdx i) with
              | false => rfl
              | true =>
                rw [notNoneAll_iff] at hb
                obtain ⟨x, hx⟩ := List.exists_mem_of_ne_nil _ hz
                have := hb x hx
                rw [hk x (List.mem_of_mem_eraseIdx hx)] at this; simp at this
            simp [readEntry, notNone, this]
    · simp at h1

theorem removeRow_ok {b b' : Block} (hw : WF b) (he : Entries b) {i : Nat} {ds : List Str} (hn : ds.Nodup)
    (hcol : ∀ s ∈ ds, ∃ col, b.val s = some (.list col)) (h : b.removeRow i ds = (b', .ok ())) :
    Entries b' ∧ (∀ x, x ∉ ds → b'.val x = b.val x) ∧
    ∀ s ∈ ds, ∃ col, b.val s = some (.list col) ∧ i < col.length ∧ b'.val s = some (.list (col.eraseIdx i)) := by
  induction ds generalizing b with
  | nil =>
    simp [removeRow] at h; subst h
    exact ⟨he, fun _ _ => rfl, by simp⟩
  | cons d ds ih =>
    rw [List.nodup_cons] at hn
    unfold removeRow at h
    split at h
    · simp at h
    · rename_i a c hg
      split at h
      · simp at h
      · rename_i a' h1
        split at h
        · simp at h
        · rename_i c' h2
          obtain ⟨col, hcd⟩ := hcol d (by simp)
          have hread : readEntry (a, c) = .ok (.list col) := by
            unfold val at hcd
            rw [hg] at hcd
            simp only [Option.bind_some] at hcd
            cases hre : readEntry (a, c) with
            | error e => rw [hre] at hcd; simp [Except.toOption] at hcd
            | ok v => rw [hre] at hcd; simp [Except.toOption] at hcd; rw [hcd]
          obtain ⟨g1, g2, g3⟩ := readEntry_delAt (he d (a, c) (dget_mem hg)) hread h1 h2
          have hw1 : WF { b with block := dset b.block d (a', c') } := wf_values hw _ (dkeys_dset_mem hg _)
          have hval : ∀ x, ({ b with block := dset b.block d (a', c') } : Block).val x =
              if x = d then some (.list (col.eraseIdx i)) else b.val x := by
            intro x
            unfold val
            simp only [dget_dset]
            by_cases e : x = d
            · rw [if_pos e.symm, if_pos e]; simp [g3, Except.toOption]
            · rw [if_neg (fun h => e h.symm), if_neg e]
          have he1 : Entries { b with block := dset b.block d (a', c') } := by
            intro x e hx
            rcases (mem_dset_iff hw.keysNodup).mp hx with h1 | h1
            · simp at h1; rw [h1.2]; exact g1
            · exact he x e h1.1
          have hcol1 : ∀ s ∈ ds, ∃ col, ({ b with block := dset b.block d (a', c') } : Block).val s = some (.list col) := by
            intro s hs
            rw [hval, if_neg (fun e => hn.1 (by rw [← e]; exact hs))]
            exact hcol s (by simp [hs])
          obtain ⟨r1, r2, r3⟩ := ih hw1 he1 hn.2 hcol1 h
          refine ⟨r1, ?_, ?_⟩
          · intro x hx
            simp only [List.mem_cons, not_or] at hx
            rw [r2 x hx.2, hval, if_neg hx.1]
          · intro s hs
            simp only [List.mem_cons] at hs
            rcases hs with rfl | hs
            · exact ⟨col, hcd, g2, by rw [r2 _ hn.1, hval, if_pos rfl]⟩
            · obtain ⟨col', q1, q2, q3⟩ := r3 s hs
              rw [hval, if_neg (fun e => hn.1 (by rw [← e]; exact hs))] at q1
              exact ⟨col', q1, q2, q3⟩

/-! ### adding a row -/

theorem appendInPlace_ok {b b1 : Block} {d : Str} {x l' : PyVal} {l : List PyVal}
    (hl : b.getItem d = .ok (.list l)) (h : b.appendInPlace d x = (b1, .ok l')) :
    l' = .list (l ++ [x]) ∧ ∃ e, b1 = { b with block := dset b.block (lower d) e } ∧ (lower d) ∈ b.keys := by
  have hk := getItem_ok_mem hl
  unfold appendInPlace at h
  split at h
  · simp at h
  · rw [hl] at h
    simp only at h
    split at h <;> simp at h
    all_goals (obtain ⟨h1, h2⟩ := h; exact ⟨h2.symm, _, h1.symm, hk⟩)

theorem addPacketFrom_ok {b b' : Block} (hw : WF b) (he : Entries b) {p : Packet} {ds : List Str} (hn : ds.Nodup)
    (hlow : ∀ s ∈ ds, lower s = s) (hns : saves ∉ ds)
    (hcol : ∀ s ∈ ds, ∃ col, b.val s = some (.list col)) (h : b.addPacketFrom p ds = (b', .ok ())) :
    Entries b' ∧ (∀ x, x ∉ ds → b'.val x = b.val x) ∧ b'.loops = b.loops ∧
    ∀ s ∈ ds, ∃ col y, b.val s = some (.list col) ∧ dget p.attrs s = some y ∧ b'.val s = some (.list (col ++ [y])) := by
  induction ds generalizing b with
  | nil =>
    simp [addPacketFrom] at h; subst h
    exact ⟨he, fun _ _ => rfl, rfl, by simp⟩
  | cons d ds ih =>
    rw [List.nodup_cons] at hn
    obtain ⟨col, hcd⟩ := hcol d (by simp)
    have hld := hlow d (by simp)
    have hget : b.getItem d = .ok (.list col) := by
      apply lookup_some.mp
      rw [lookup_val b d (by rintro rfl; simp at hns), hld]; exact hcd
    unfold addPacketFrom at h
    rw [hget] at h
    simp only at h
    split at h
    · simp at h
    · rename_i y hy
      split at h
      · simp at h
      · rename_i b1 l' hap
        obtain ⟨rfl, e, rfl, hk⟩ := appendInPlace_ok hget hap
        split at h
        · simp at h
        · rename_i b2 hset
          have hdk : dkeys (dset b.block (lower d) e) = dkeys b.block := by
            rw [dkeys_dset]; exact if_pos hk
          have hw1 : WF { b with block := dset b.block (lower d) e } := wf_values hw _ hdk
          have hw2 := wf_setItem hw1 d (.list (col ++ [y]))
          rw [hset] at hw2
          have hval : ∀ x, b2.val x = if x = d then some (.list (col ++ [y])) else b.val x := by
            intro x
            rw [val_setItem hset, hld]
            by_cases e' : x = d
            · rw [if_pos e', if_pos e']
            · rw [if_neg e', if_neg e']
              unfold val
              simp only [dget_dset]
              rw [if_neg (fun h => e' h.symm)]
          have he2 : Entries b2 := by
            obtain ⟨sv, hc, _, rfl⟩ := addItem_ok (setItem_ok hset).2 (by simp)
            intro x en hx
            simp only [store] at hx
            rcases (mem_dset_iff hw1.keysNodup).mp hx with h1 | ⟨h1, h1'⟩
            · simp at h1; rw [h1.2]; exact goodEntry_add hc
            · rcases (mem_dset_iff hw.keysNodup).mp h1 with h2 | ⟨h2, _⟩
              · simp at h2; exact absurd h2.1 h1'
              · exact he x en h2
          have hfr := setItem_frame hset (show lower d ∈ dkeys (dset b.block (lower d) e) by rw [hdk]; exact hk)
          have hcol2 : ∀ s ∈ ds, ∃ col, b2.val s = some (.list col) := by
            intro s hs
            rw [hval, if_neg (fun e => hn.1 (by rw [← e]; exact hs))]
            exact hcol s (by simp [hs])
          obtain ⟨r1, r2, r3, r4⟩ := ih hw2 he2 hn.2 (fun s hs => hlow s (by simp [hs]))
            (fun hs => hns (by simp [hs])) hcol2 h
          refine ⟨r1, ?_, ?_, ?_⟩
          · intro x hx
            simp only [List.mem_cons, not_or] at hx
            rw [r2 x hx.2, hval, if_neg hx.1]
          · rw [r3, hfr.2.1]
          · intro s hs
            simp only [List.mem_cons] at hs
            rcases hs with rfl | hs
            · exact ⟨col, y, hcd, hy, by rw [r2 _ hn.1, hval, if_pos rfl]⟩
            · obtain ⟨col', y', q1, q2, q3⟩ := r4 s hs
              rw [hval, if_neg (fun e => hn.1 (by rw [← e]; exact hs))] at q1
              exact ⟨col', y', q1, q2, q3⟩

end Verif.Block
