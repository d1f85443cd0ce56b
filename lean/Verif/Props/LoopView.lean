import Verif.Spec.LoopView
import Verif.Lemmas.BlockDoc
import Verif.Lemmas.BlockShape
import Verif.Props.Block
/-! # C101 - C103: views of loops -/
set_option linter.unusedSectionVars false
namespace Verif.Block

section
variable [CaseFold]

theorem getLoop_ok {b : Block} (hw : WF b) {name : Str} {n : Nat} (h : b.getLoop name = .ok n) :
    ∃ l, dget b.loops n = some l ∧ lower name ∈ l ∧ b.loopOf name = l := by
  unfold getLoop at h
  cases hf : b.findLoop name with
  | none => rw [hf] at h; cases h
  | some m =>
    rw [hf] at h
    injection h with h
    subst h
    obtain ⟨l, h1, h2⟩ := findLoop_some' hw hf
    exact ⟨l, h1, h2, Print.loopOf_in hw h1 h2⟩

theorem getLoop_of {b : Block} (hw : WF b) {name : Str} {n : Nat} {l : List Str} (h : dget b.loops n = some l) (hm : lower name ∈ l) :
    b.getLoop name = .ok n := by
  unfold getLoop
  rw [findLoop_eq hw (dget_mem h) hm]

theorem getAll_zip {b : Block} : ∀ {l : List Str}, (∀ s ∈ l, ∃ v, b.lookup s = some v) →
    ∃ vs, b.getAll l = .ok vs ∧ vs.length = l.length ∧ ∀ p ∈ l.zip vs, b.lookup p.1 = some p.2
  | [], _ => ⟨[], rfl, rfl, fun p hp => by cases hp⟩
  | s :: l, h => by
    obtain ⟨v, hv⟩ := h s (by simp)
    obtain ⟨vs, h1, h2, h3⟩ := getAll_zip (l := l) fun x hx => h x (List.mem_cons_of_mem _ hx)
    refine ⟨v :: vs, ?_, by simp [h2], fun p hp => ?_⟩
    · unfold getAll
      rw [lookup_some.mp hv, h1]
    · rw [List.zip_cons_cons] at hp
      rcases List.mem_cons.mp hp with rfl | hp
      · exact hv
      · exact h3 p hp

/-- C101: the view of the loop of a name lists the names of this loop in order, each with the value that the block has for it. -/
theorem C101_items {b : Block} (hr : Reachable b) (hrect : b.Rect) {name : Str} {n : Nat} (h : b.getLoop name = .ok n) :
    b.viewKeys n = .ok (b.loopOf name) ∧
    ∃ ps, b.viewItems n = .ok ps ∧ b.viewValues n = .ok (ps.map (·.2)) ∧ ps.map (·.1) = b.loopOf name ∧ ∀ p ∈ ps, b.lookup p.1 = some p.2 := by
  obtain ⟨l, h1, h2, h3⟩ := getLoop_ok (reachable_wf hr).1 h
  have hk : b.viewKeys n = .ok l := by unfold viewKeys; rw [h1]
  have hl : ∀ s ∈ l, ∃ v, b.lookup s = some v := by
    intro s hs
    obtain ⟨len, hlen⟩ := hrect n l h1
    obtain ⟨col, hcol, -⟩ := hlen s hs
    unfold column at hcol
    cases hv : b.lookup s with
    | none => rw [hv] at hcol; cases hcol
    | some v => exact ⟨v, rfl⟩
  obtain ⟨vs, g1, g2, g3⟩ := getAll_zip hl
  rw [h3]
  refine ⟨hk, l.zip vs, ?_, ?_, ?_, g3⟩
  · simp only [viewItems, hk, viewValues, g1]
  · simp only [viewValues, hk, g1]
    rw [List.map_snd_zip (by omega)]
  · rw [List.map_fst_zip (by omega)]

/-- C101: a name in lower case can be read through the view if it is in the loop, with the value that the block has for it, and a
`KeyError` is raised otherwise. Missing: other spellings of the name, see `C101_case_fails`. -/
theorem C101_get_partial {b : Block} (hr : Reachable b) {name : Str} {n : Nat} (h : b.getLoop name = .ok n) (x : Str) (hx : lower x = x) :
    (b.viewContains n x = .ok (decide (b.getLoop x = .ok n))) ∧
    (b.getLoop x = .ok n → b.viewGet n x = b.getItem x ∧ b.viewLoopNames n x = .ok (b.loopOf x)) ∧
    (b.getLoop x ≠ .ok n → b.viewGet n x = .error .key) := by
  have hw := (reachable_wf hr).1
  obtain ⟨l, h1, h2, h3⟩ := getLoop_ok hw h
  have hk : b.viewKeys n = .ok l := by unfold viewKeys; rw [h1]
  have hiff : x ∈ l ↔ b.getLoop x = .ok n := by
    constructor
    · intro hm; exact getLoop_of hw h1 (by rw [hx]; exact hm)
    · intro hm
      obtain ⟨l', h1', h2', -⟩ := getLoop_ok hw hm
      rw [h1] at h1'
      injection h1' with e
      rw [e, ← hx]
      exact h2'
  have hc : b.viewContains n x = .ok (decide (b.getLoop x = .ok n)) := by
    simp only [viewContains, hk, hiff]
  refine ⟨hc, fun hm => ?_, fun hm => ?_⟩
  · obtain ⟨l', h1', h2', h3'⟩ := getLoop_ok hw hm
    rw [h1] at h1'
    injection h1' with e
    simp only [viewGet, viewLoopNames, hc, hm, decide_true, hk, h3', e, and_self]
  · simp only [viewGet, hc, hm, decide_false]

/-- Where C101 fails: other spellings of a name are not found through the view, although the block and `GetLoop` find them. -/
theorem C101_case_fails {b : Block} (hr : Reachable b) {name : Str} {n : Nat} (h : b.getLoop name = .ok n) (x : Str) (hx : lower x ≠ x) :
    b.viewContains n x = .ok false ∧ b.viewGet n x = .error .key := by
  have hw := (reachable_wf hr).1
  obtain ⟨l, h1, h2, h3⟩ := getLoop_ok hw h
  have hc : b.viewContains n x = .ok false := by
    have hm : x ∉ l := fun hm => hx (hw.loopLower x (mem_allLooped.mpr ⟨n, l, dget_mem h1, hm⟩))
    simp only [viewContains, viewKeys, h1, hm, decide_false]
  exact ⟨hc, by simp only [viewGet, hc]⟩

/-- Where C101 fails: for names outside the loop `GetLoopNames` raises `AttributeError` in place of `KeyError`. -/
theorem C101_names_fails {b : Block} (hr : Reachable b) {name : Str} {n : Nat} (h : b.getLoop name = .ok n) (x : Str) (hx : b.getLoop x ≠ .ok n) :
    b.viewLoopNames n x = .error .attribute := by
  have hw := (reachable_wf hr).1
  obtain ⟨l, h1, h2, h3⟩ := getLoop_ok hw h
  have hc : b.viewContains n x = .ok false := by
    by_cases hl : lower x = x
    · rw [(C101_get_partial hr h x hl).1, decide_eq_false hx]
    · exact (C101_case_fails hr h x hl).1
  have hne : b.loops ≠ [] := by
    intro e
    rw [e] at h1
    cases h1
  simp only [viewLoopNames, hc, hne, if_false]

/-! ## C102: changing loops through views -/

theorem setItem_new {b b' : Block} {k : Str} {v : PyVal} (h : b.setItem k v = (b', .ok ())) : b'.loops = b.loops ∧ k ≠ saves := by
  obtain ⟨h1, h2⟩ := setItem_ok h
  obtain ⟨sv, -, -, rfl⟩ := addItem_ok h2 (by simp)
  exact ⟨rfl, h1⟩

/-- C102: setting a new item through a view adds the item at the end of the loop, if it is a column with as many values as the
others; no other value and no other loop changes. Missing: columns of other lengths (`C102_length_fails`) and items of the loop
(`C102_ragged_fails`). -/
theorem C102_set_partial {b : Block} (hr : Reachable b) (hrect : b.Rect) {name : Str} {n : Nat} (h : b.getLoop name = .ok n) {x : Str} {vs c : List PyVal}
    (hx : lower x ≠ saves) (hnew : b.contains x = false) (hc : b.column (lower name) = some c) (hlen : vs.length = c.length) (hok : (b.setItem x (.list vs)).2 = .ok ()) :
    (b.viewSet n x (.list vs)).2 = .ok () ∧ (b.viewSet n x (.list vs)).1.loopOf name = b.loopOf name ++ [lower x] ∧
    (b.viewSet n x (.list vs)).1.lookup x = some (.list vs) ∧ (∀ y, lower y ≠ lower x → (b.viewSet n x (.list vs)).1.lookup y = b.lookup y) ∧
    (∀ m, m ≠ n → dget (b.viewSet n x (.list vs)).1.loops m = dget b.loops m) ∧ Reachable (b.viewSet n x (.list vs)).1 ∧
    (b.viewSet n x (.list vs)).1.Rect := by
  obtain ⟨hw, hfull⟩ := reachable_wf hr
  obtain ⟨l, h1, h2, h3⟩ := getLoop_ok hw h
  have hxl : ∀ m l', dget b.loops m = some l' → lower x ∉ l' := by
    intro m l' hm hx
    have := hfull _ (mem_allLooped.mpr ⟨m, l', dget_mem hm, hx⟩)
    rw [contains_false] at hnew
    exact hnew this
  cases hs : b.setItem x (.list vs) with
  | mk b1 r =>
    rw [hs] at hok
    have hr1 : r = .ok () := hok
    subst hr1
    obtain ⟨hloops, hsav⟩ := setItem_new hs
    have hval := val_setItem hs
    have hlk : ∀ y, b1.lookup y = if lower y = lower x ∧ y ≠ saves then some (.list vs) else b.lookup y := by
      intro y
      by_cases hy : y = saves
      · rw [if_neg (fun hh => hh.2 hy), hy]
        simp only [lookup, getItem, if_true]
      · rw [lookup_val _ _ hy, lookup_val _ _ hy, hval]
        by_cases e : lower y = lower x
        · rw [if_pos e, if_pos ⟨e, hy⟩]
        · rw [if_neg e, if_neg (fun hh => e hh.1)]
    have hreach1 : Reachable b1 := by
      have := Reachable.step b (.add x (.list vs) false) hr hx
      simp only [step, (setItem_ok hs).2] at this
      exact this
    obtain ⟨hw1, hfull1⟩ := reachable_wf hreach1
    obtain ⟨k, l', rfl⟩ : ∃ k l', l = k :: l' := by
      cases l with
      | nil => cases h2
      | cons k l' => exact ⟨k, l', rfl⟩
    have hkl : lower k = k := hw.loopLower k (mem_allLooped.mpr ⟨n, _, dget_mem h1, List.mem_cons_self⟩)
    obtain ⟨len, hlens⟩ := hrect n _ h1
    obtain ⟨ck, hck, hck'⟩ := hlens k List.mem_cons_self
    obtain ⟨cn, hcn, hcn'⟩ := hlens _ h2
    rw [hc] at hcn
    injection hcn with hcn
    subst hcn
    have hkx : k ≠ lower x := fun e => hxl n _ h1 (e ▸ List.mem_cons_self)
    have hgk : b1.getItem k = .ok (.list ck) := by
      apply lookup_some.mp
      rw [hlk k, if_neg (fun hh => hkx (hkl ▸ hh.1))]
      unfold column at hck
      split at hck
      · rename_i e; injection hck with hck; rw [e, hck]
      · cases hck
    have hgx : b1.getItem x = .ok (.list vs) := by
      apply lookup_some.mp
      rw [hlk x, if_pos ⟨rfl, hsav⟩]
    have hfl : b1.findLoop k = some n := findLoop_eq hw1 (by rw [hloops]; exact dget_mem h1) (by rw [hkl]; exact List.mem_cons_self)
    have hset : b.viewSet n x (.list vs) = ({ b1 with
                     loops := dset (dropFromLoops b1.loops [lower x]) n (k :: l' ++ [lower x])
                     order := pyErase b1.order (.name (lower x)) }, .ok ()) := by
      have hl1 : (ck.length ≠ vs.length) ↔ False := by rw [hlen, hck', ← hcn']; simp
      simp only [viewSet, hs, viewKeys, hloops, h1, addLoopName, hfl, hxl n _ h1, if_false, hgk, hgx, PyVal.pyLen]
      rw [if_neg (by omega)]
    have hadd : b.viewSet n x (.list vs) = b1.addLoopName k x := by
      simp only [viewSet, hs, viewKeys, hloops, h1]
    have hreach : Reachable (b.viewSet n x (.list vs)).1 := by
      rw [hadd]
      exact Reachable.step b1 (.addLoopName k x) hreach1 trivial
    have hdrop : ∀ m, dget (dropFromLoops b1.loops [lower x]) m = dget b.loops m := by
      intro m
      rw [hloops, show dropFromLoops b.loops [lower x] = b.loops from ?_]
      rw [dropFromLoops_eq hw.looped]
      conv => rhs; rw [← List.map_id b.loops]
      apply List.map_congr_left
      rintro ⟨m', l''⟩ hm'
      have := hxl m' l'' (dget_of_mem hw.loopsNodup hm')
      simp only [id, Prod.mk.injEq, true_and, List.filter_eq_self, List.mem_singleton, decide_eq_true_eq]
      intro a ha e
      exact this (e ▸ ha)
    refine ⟨by rw [hset], ?_, ?_, ?_, ?_, hreach, ?_⟩
    · rw [h3]
      refine Print.loopOf_in (reachable_wf hreach).1 (n := n) ?_ (List.mem_append_left _ h2)
      rw [hset]
      exact dget_dset_self ..
    · rw [hset]
      exact (hlk x).trans (if_pos ⟨rfl, hsav⟩)
    · intro y hy
      rw [hset]
      exact (hlk y).trans (if_neg fun hh => hy hh.1)
    · intro m hm
      rw [hset]
      simp only [dget_dset, if_neg (Ne.symm hm), hdrop]
    · have hcol : ∀ y, lower y ≠ lower x → ({ b1 with
                     loops := dset (dropFromLoops b1.loops [lower x]) n (k :: l' ++ [lower x])
                     order := pyErase b1.order (.name (lower x)) } : Block).column y = b.column y := by
        intro y hy
        have e : b1.lookup y = b.lookup y := (hlk y).trans (if_neg fun hh => hy hh.1)
        have e' : b1.column y = b.column y := by unfold column; rw [e]
        exact e'
      rw [hset]
      intro m lm hm
      simp only [dget_dset, hdrop] at hm
      have hold : ∀ m l', dget b.loops m = some l' → ∀ y ∈ l', lower y ≠ lower x := by
        intro m l' hml y hy e
        have := hw.loopLower y (mem_allLooped.mpr ⟨m, l', dget_mem hml, hy⟩)
        rw [this] at e
        exact hxl m l' hml (e ▸ hy)
      by_cases e : n = m
      · rw [if_pos e] at hm
        injection hm with hm
        refine ⟨len, fun y hy => ?_⟩
        rw [← hm] at hy
        rcases List.mem_append.mp hy with hy | hy
        · rw [hcol y (hold n _ h1 y hy)]
          exact hlens y hy
        · rw [List.mem_singleton.mp hy]
          refine ⟨vs, ?_, by omega⟩
          have e : b1.lookup (lower x) = some (.list vs) := (hlk (lower x)).trans (if_pos ⟨low2 x, hx⟩)
          have e' : b1.column (lower x) = some vs := by unfold column; rw [e]
          exact e'
      · rw [if_neg e] at hm
        obtain ⟨len', hl'⟩ := hrect m lm hm
        refine ⟨len', fun y hy => ?_⟩
        rw [hcol y (hold m lm hm y hy)]
        exact hl' y hy

/-- Where C102 fails: if the new column has another length the call raises `StarLengthError`, but the item has been stored, outside the
loop. -/
theorem C102_length_fails {b : Block} (hr : Reachable b) (hrect : b.Rect) {name : Str} {n : Nat} (h : b.getLoop name = .ok n) {x : Str} {vs c : List PyVal}
    (hx : lower x ≠ saves) (hnew : b.contains x = false) (hc : b.column (lower name) = some c) (hlen : vs.length ≠ c.length)
    (hok : (b.setItem x (.list vs)).2 = .ok ()) :
    (b.viewSet n x (.list vs)).2 = .error .length ∧ (b.viewSet n x (.list vs)).1.lookup x = some (.list vs) ∧
    (b.viewSet n x (.list vs)).1.loopOf x = [] := by
  obtain ⟨hw, hfull⟩ := reachable_wf hr
  obtain ⟨l, h1, h2, h3⟩ := getLoop_ok hw h
  have hxl : ∀ m l', dget b.loops m = some l' → lower x ∉ l' := by
    intro m l' hm hx
    have := hfull _ (mem_allLooped.mpr ⟨m, l', dget_mem hm, hx⟩)
    rw [contains_false] at hnew
    exact hnew this
  cases hs : b.setItem x (.list vs) with
  | mk b1 r =>
    rw [hs] at hok
    have hr1 : r = .ok () := hok
    subst hr1
    obtain ⟨hloops, hsav⟩ := setItem_new hs
    have hval := val_setItem hs
    have hreach1 : Reachable b1 := by
      have := Reachable.step b (.add x (.list vs) false) hr hx
      simp only [step, (setItem_ok hs).2] at this
      exact this
    obtain ⟨hw1, -⟩ := reachable_wf hreach1
    obtain ⟨k, l', rfl⟩ : ∃ k l', l = k :: l' := by
      cases l with
      | nil => cases h2
      | cons k l' => exact ⟨k, l', rfl⟩
    have hkm : k ∈ allLooped b.loops := mem_allLooped.mpr ⟨n, _, dget_mem h1, List.mem_cons_self⟩
    have hkl : lower k = k := hw.loopLower k hkm
    obtain ⟨len, hlens⟩ := hrect n _ h1
    obtain ⟨ck, hck, hck'⟩ := hlens k List.mem_cons_self
    obtain ⟨cn, hcn, hcn'⟩ := hlens _ h2
    rw [hc] at hcn
    injection hcn with hcn
    subst hcn
    have hkx : k ≠ lower x := fun e => hxl n _ h1 (e ▸ List.mem_cons_self)
    have hgk : b1.getItem k = .ok (.list ck) := by
      apply lookup_some.mp
      have hks : k ≠ saves := by
        rintro rfl
        simp [column, lookup, getItem] at hck
      rw [lookup_val _ _ hks, hval, hkl, if_neg hkx, ← hkl, ← lookup_val _ _ hks]
      unfold column at hck
      split at hck
      · rename_i e; injection hck with hck; rw [e, hck]
      · cases hck
    have hgx : b1.lookup x = some (.list vs) := by
      rw [lookup_val _ _ hsav, hval, if_pos rfl]
    have hfl : b1.findLoop k = some n := findLoop_eq hw1 (by rw [hloops]; exact dget_mem h1) (by rw [hkl]; exact List.mem_cons_self)
    have hset : b.viewSet n x (.list vs) = (b1, .error .length) := by
      simp only [viewSet, hs, viewKeys, hloops, h1, addLoopName, hfl, hxl n _ h1, if_false, hgk, lookup_some.mp hgx, PyVal.pyLen]
      rw [if_pos (by omega)]
    rw [hset]
    refine ⟨rfl, hgx, Print.not_looped ?_⟩
    show lower x ∉ allLooped b1.loops
    rw [hloops]
    intro hm
    obtain ⟨m, lm, g1, g2⟩ := mem_allLooped.mp hm
    exact hxl m lm (dget_of_mem hw.loopsNodup g1) g2

/-- Where C102 fails: an item of the loop can be given a column of another length through the view, without an exception, after which the
loop is not rectangular. -/
theorem C102_ragged_fails {b : Block} (hr : Reachable b) {n : Nat} {x y : Str} {vs c : List PyVal}
    (hx : b.getLoop x = .ok n) (hy : b.getLoop y = .ok n) (hne : lower y ≠ lower x) (hys : lower y ≠ saves) (hxs : lower x ≠ saves) (hc : b.column (lower y) = some c)
    (hlen : vs.length ≠ c.length) (hok : (b.setItem x (.list vs)).2 = .ok ()) :
    (b.viewSet n x (.list vs)).2 = .ok () ∧ ¬ (b.viewSet n x (.list vs)).1.Rect := by
  obtain ⟨hw, hfull⟩ := reachable_wf hr
  obtain ⟨l, h1, h2, h3⟩ := getLoop_ok hw hx
  obtain ⟨l2, g1, g2, g3⟩ := getLoop_ok hw hy
  rw [h1] at g1
  injection g1 with g1
  subst g1
  cases hs : b.setItem x (.list vs) with
  | mk b1 r =>
    rw [hs] at hok
    have hr1 : r = .ok () := hok
    subst hr1
    obtain ⟨hloops, hsav⟩ := setItem_new hs
    have hval := val_setItem hs
    have hreach1 : Reachable b1 := by
      have := Reachable.step b (.add x (.list vs) false) hr hxs
      simp only [step, (setItem_ok hs).2] at this
      exact this
    obtain ⟨hw1, -⟩ := reachable_wf hreach1
    obtain ⟨k, l', rfl⟩ : ∃ k l', l = k :: l' := by
      cases l with
      | nil => cases h2
      | cons k l' => exact ⟨k, l', rfl⟩
    have hkl : lower k = k := hw.loopLower k (mem_allLooped.mpr ⟨n, _, dget_mem h1, List.mem_cons_self⟩)
    have hfl : b1.findLoop k = some n := findLoop_eq hw1 (by rw [hloops]; exact dget_mem h1) (by rw [hkl]; exact List.mem_cons_self)
    have hset : b.viewSet n x (.list vs) = (b1, .ok ()) := by
      simp only [viewSet, hs, viewKeys, hloops, h1, addLoopName, hfl, h2, if_true]
    rw [hset]
    refine ⟨rfl, fun hrect => ?_⟩
    obtain ⟨len, hlens⟩ := hrect n _ (by show dget b1.loops n = _; rw [hloops]; exact h1)
    obtain ⟨cx, e1, e2⟩ := hlens _ h2
    obtain ⟨cy, e3, e4⟩ := hlens _ g2
    have f1 : b1.lookup (lower x) = some (.list vs) := by rw [lookup_val _ _ hxs, hval, if_pos (low2 x)]
    have f2 : b1.lookup (lower y) = b.lookup (lower y) := by
      rw [lookup_val _ _ hys, lookup_val _ _ hys, hval, if_neg (by rw [low2]; exact hne)]
    have e1' : b1.column (lower x) = some vs := by unfold column; rw [f1]
    have e3' : b1.column (lower y) = some c := by unfold column; rw [f2]; exact hc
    have e1 : b1.column (lower x) = some cx := e1
    have e3 : b1.column (lower y) = some cy := e3
    rw [e1] at e1'
    rw [e3] at e3'
    injection e1' with e1'
    injection e3' with e3'
    subst e1' e3'
    omega

/-- C102: moving an item through the view is the same as moving it through the block, which C21 is about; a name that is
not in the loop is refused and nothing changes. -/
theorem C102_order {b : Block} (hr : Reachable b) {name : Str} {n : Nat} (h : b.getLoop name = .ok n) (x : Str) (pos : Int) :
    (b.getLoop x = .ok n → b.viewChangeOrder n x pos = b.changeItemOrder (.name x) pos ∧ (b.viewChangeOrder n x pos).2 = .ok ()) ∧
    (b.getLoop x ≠ .ok n → b.viewChangeOrder n x pos = (b, .error .value)) := by
  obtain ⟨hw, hfull⟩ := reachable_wf hr
  obtain ⟨l, h1, h2, h3⟩ := getLoop_ok hw h
  constructor
  · intro hx
    obtain ⟨l2, g1, g2, g3⟩ := getLoop_ok hw hx
    rw [h1] at g1
    injection g1 with g1
    subst g1
    have hfl : b.findLoop (lower x) = some n := findLoop_eq hw (dget_mem h1) (by rw [low2]; exact g2)
    have hrm : pyRemove l (lower x) = some (pyErase l (lower x)) := pyRemove_eq g2
    constructor
    · simp only [viewChangeOrder, changeItemOrder, hfl, h1, hrm]
    · simp only [viewChangeOrder, h1, hrm]
  · intro hx
    have : lower x ∉ l := fun hm => hx (getLoop_of hw h1 hm)
    have hrm : pyRemove l (lower x) = none := pyRemove_none.mpr this
    simp only [viewChangeOrder, h1, hrm]

theorem setItem_settings {b b' : Block} (hu : b'.unicode = b.unicode) (hm : b'.maxName = b.maxName) {k : Str} {v : PyVal}
    (h1 : b.contains k = false) (h2 : b'.contains k = false) : (b'.setItem k v).2 = (b.setItem k v).2 := by
  unfold setItem
  split
  · rfl
  · unfold addItem addItemCheck
    rw [hu, hm, h1, h2]
    simp only [Bool.false_and]
    split <;> rfl

theorem viewSet_settings (b : Block) (n : Nat) (x : Str) (v : PyVal) :
    (b.viewSet n x v).1.unicode = b.unicode ∧ (b.viewSet n x v).1.maxName = b.maxName ∧
    ∀ y, lower y ≠ lower x → (b.viewSet n x v).1.contains y = b.contains y := by
  have hs : ∀ b1 r, b.setItem x v = (b1, r) → b1.unicode = b.unicode ∧ b1.maxName = b.maxName ∧ ∀ y, lower y ≠ lower x → b1.contains y = b.contains y := by
    intro b1 r h
    cases r with
    | error e => rw [setItem_err h]; exact ⟨rfl, rfl, fun _ _ => rfl⟩
    | ok u =>
      obtain ⟨sv, -, -, rfl⟩ := addItem_ok (setItem_ok h).2 (by simp)
      refine ⟨rfl, rfl, fun y hy => ?_⟩
      simp only [contains]
      congr 1
      rw [eq_iff_iff, keys_store]
      simp [hy]
  have ha : ∀ (b1 : Block) k, (b1.addLoopName k x).1.unicode = b1.unicode ∧ (b1.addLoopName k x).1.maxName = b1.maxName ∧
      ∀ y, (b1.addLoopName k x).1.contains y = b1.contains y := by
    intro b1 k
    rcases addLoopName_cases b1 k x with ⟨r, h1⟩ | ⟨n', l, nv, _, _, _, _, _, h1⟩ <;> rw [h1] <;> exact ⟨rfl, rfl, fun _ => rfl⟩
  unfold viewSet
  generalize hq : b.setItem x v = q
  obtain ⟨b1, r⟩ := q
  obtain ⟨e1, e2, e3⟩ := hs b1 r hq
  cases r with
  | error e => exact ⟨e1, e2, e3⟩
  | ok u =>
    simp only
    split
    · exact ⟨e1, e2, e3⟩
    · exact ⟨e1, e2, e3⟩
    · rename_i k _ _
      obtain ⟨a1, a2, a3⟩ := ha b1 k
      exact ⟨a1.trans e1, a2.trans e2, fun y hy => (a3 y).trans (e3 y hy)⟩

theorem viewSetAll_ok {name : Str} {n : Nat} {len : Nat} : ∀ (data : List (Str × List PyVal)) {b : Block}, Reachable b → b.Rect →
    b.getLoop name = .ok n → (∃ c, b.column (lower name) = some c ∧ c.length = len) → (data.map fun p => lower p.1).Nodup →
    (∀ p ∈ data, lower p.1 ≠ saves ∧ b.contains p.1 = false ∧ p.2.length = len ∧ (b.setItem p.1 (.list p.2)).2 = .ok ()) →
    (b.viewSetAll n (data.map fun p => (p.1, .list p.2))).2 = .ok () ∧
    (b.viewSetAll n (data.map fun p => (p.1, .list p.2))).1.loopOf name = b.loopOf name ++ data.map (fun p => lower p.1) ∧
    (∀ p ∈ data, (b.viewSetAll n (data.map fun p => (p.1, .list p.2))).1.lookup p.1 = some (.list p.2)) ∧
    (∀ y, (∀ p ∈ data, lower y ≠ lower p.1) → (b.viewSetAll n (data.map fun p => (p.1, .list p.2))).1.lookup y = b.lookup y)
  | [], b, _, _, _, _, _, _ => ⟨rfl, by simp [viewSetAll], (fun p hp => by cases hp), fun _ _ => rfl⟩
  | (x, vs) :: data, b, hr, hrect, h, ⟨c, hc, hcl⟩, hnd, hall => by
    obtain ⟨hx, hnew, hlen, hok⟩ := hall (x, vs) List.mem_cons_self
    obtain ⟨h1, h2, h3, h4, h5, h6, h7⟩ := C102_set_partial hr hrect h hx hnew hc (hlen.trans hcl.symm) hok
    obtain ⟨s1, s2, s3⟩ := viewSet_settings b n x (.list vs)
    have hw := (reachable_wf hr).1
    obtain ⟨l, g1, g2, g3⟩ := getLoop_ok hw h
    simp only [List.map_cons, List.nodup_cons, List.mem_map, not_exists, not_and] at hnd
    have hxn : lower (lower name) ≠ lower x := by
      rw [low2]
      intro e
      have := (reachable_wf hr).2 _ (mem_allLooped.mpr ⟨n, l, dget_mem g1, g2⟩)
      rw [e] at this
      rw [contains_false] at hnew
      exact hnew this
    simp only [List.map_cons, viewSetAll]
    generalize b.viewSet n x (.list vs) = q at h1 h2 h3 h4 h5 h6 h7 s1 s2 s3
    obtain ⟨b1, r⟩ := q
    simp only at h1 h2 h3 h4 h5 h6 h7 s1 s2 s3
    subst h1
    simp only
    have hlk : b1.getLoop name = .ok n := by
      obtain ⟨hw1, -⟩ := reachable_wf h6
      have hm : b1.loopOf name ≠ [] := by rw [h2]; simp
      cases hf : b1.findLoop name with
      | none => exact absurd (Print.not_looped (findLoop_none.mp hf)) hm
      | some m =>
        by_cases e : m = n
        · unfold getLoop; rw [hf, e]
        · obtain ⟨l', q1, q2⟩ := findLoop_some' hw1 hf
          rw [h5 m e] at q1
          exact absurd (flatMap_unique hw.looped hw.loopsNodup (dget_mem q1) q2 (dget_mem g1) g2).1 e
    obtain ⟨i1, i2, i3, i4⟩ := viewSetAll_ok data h6 h7 hlk
      ⟨c, by unfold column at hc ⊢; rw [h4 _ hxn]; exact hc, hcl⟩ hnd.2 (fun p hp => by
        obtain ⟨j1, j2, j3, j4⟩ := hall p (List.mem_cons_of_mem _ hp)
        have hne : lower p.1 ≠ lower x := hnd.1 p hp
        exact ⟨j1, (s3 _ hne).trans j2, j3, (setItem_settings s1 s2 j2 ((s3 _ hne).trans j2)).trans j4⟩)
    refine ⟨i1, ?_, ?_, ?_⟩
    · rw [i2, h2, List.append_assoc]; rfl
    · intro p hp
      rcases List.mem_cons.mp hp with rfl | hp
      · rw [i4 x fun p hp e => hnd.1 p hp e.symm]
        exact h3
      · exact i3 p hp
    · intro y hy
      rw [i4 y fun p hp => hy p (List.mem_cons_of_mem _ hp), h4 y (hy (x, vs) List.mem_cons_self)]

/-- C102: adding several columns to the loop of a name through a view appends them in the order given, with no other change. Missing:
as in `C102_set_partial`. -/
theorem C102_add_partial {b : Block} (hr : Reachable b) (hrect : b.Rect) {name : Str} {c : List PyVal} (h : b.loopOf name ≠ [])
    (hc : b.column (lower name) = some c) (data : List (Str × List PyVal)) (hnd : (data.map fun p => lower p.1).Nodup)
    (hall : ∀ p ∈ data, lower p.1 ≠ saves ∧ b.contains p.1 = false ∧ p.2.length = c.length ∧ (b.setItem p.1 (.list p.2)).2 = .ok ()) :
    ∃ b', b.viewAddToLoop name (data.map fun p => (p.1, .list p.2)) = (b', .ok ()) ∧ b'.loopOf name = b.loopOf name ++ data.map (fun p => lower p.1) ∧
    (∀ p ∈ data, b'.lookup p.1 = some (.list p.2)) ∧ ∀ y, (∀ p ∈ data, lower y ≠ lower p.1) → b'.lookup y = b.lookup y := by
  obtain ⟨n, hn⟩ : ∃ n, b.getLoop name = .ok n := by
    unfold getLoop
    cases hf : b.findLoop name with
    | none => exact absurd (Print.not_looped (findLoop_none.mp hf)) h
    | some n => exact ⟨n, rfl⟩
  obtain ⟨h1, h2, h3, h4⟩ := viewSetAll_ok data hr hrect hn ⟨c, hc, rfl⟩ hnd hall
  exact ⟨(b.viewSetAll n (data.map fun p => (p.1, .list p.2))).1, by unfold viewAddToLoop; rw [hn]; exact Prod.ext rfl h1, h2, h3, h4⟩

/-! ## C103: views while the block changes -/

theorem addPacketFrom_loops (p : Packet) : ∀ (ds : List Str) (b : Block), (b.addPacketFrom p ds).1.loops = b.loops
  | [], b => rfl
  | d :: ds, b => by
    unfold addPacketFrom
    split
    · rfl
    · split
      · rfl
      · rename_i x _
        obtain ⟨blk, -, h2⟩ := appendInPlace_frame b d x
        have h3 : (b.appendInPlace d x).1.loops = b.loops := by rw [h2]
        split
        · rename_i h; rw [h] at h3; exact h3
        · rename_i b1 l' h
          rw [h] at h3
          have h4 : (b1.setItem d l').1.loops = b1.loops := by
            simp only [setItem, addItem]
            split
            · rfl
            · split <;> rfl
          split
          · rename_i h'; rw [h'] at h4; exact h4.trans h3
          · rename_i h'; rw [h'] at h4; exact (addPacketFrom_loops p ds _).trans (h4.trans h3)

theorem addPacket_loops (b : Block) (n : Nat) (p : Packet) : (b.addPacket n p).1.loops = b.loops := by
  unfold addPacket
  split
  · rfl
  · exact addPacketFrom_loops ..

theorem getLoop_step {b : Block} (hr : Reachable b) {x : Str} {n : Nat} (h : b.getLoop x = .ok n) (op : Op) (hc : op.Checked b) (hl : op.Leaves x) :
    (b.step op).1.getLoop x = .ok n := by
  obtain ⟨hw, hf⟩ := reachable_wf hr
  obtain ⟨l, h1, h2, -⟩ := getLoop_ok hw h
  have hw' := (reachable_wf (hr.step b op hc)).1
  have key : ∀ b' : Block, b'.loops = b.loops → ∃ l', dget b'.loops n = some l' ∧ lower x ∈ l' := fun b' e => ⟨l, by rw [e]; exact h1, h2⟩
  suffices ∃ l', dget (b.step op).1.loops n = some l' ∧ lower x ∈ l' by
    obtain ⟨l', e1, e2⟩ := this
    exact getLoop_of hw' e1 e2
  clear hw'
  cases op with
  | add k v pre =>
    refine key _ ?_
    simp only [step, addItem]
    split <;> rfl
  | remove k =>
    simp only [Op.Leaves] at hl
    simp only [step, removeItem_eq hw]
    split
    · split
      · rename_i m hm
        obtain ⟨lm, e1, e2⟩ := findLoop_some' hw hm
        simp only [e1]
        by_cases e : m = n
        · subst e
          rw [h1] at e1
          injection e1 with e1
          subst e1
          have hmem : lower x ∈ pyErase l (lower k) := by
            rw [pyErase_eq_filter (loop_nodup hw.looped (dget_mem h1))]
            simp [h2, Ne.symm hl]
          rw [if_neg (List.ne_nil_of_mem hmem)]
          exact ⟨_, dget_dset_self .., hmem⟩
        · split
          · exact ⟨l, by rw [dget_ddel, if_neg e]; exact h1, h2⟩
          · exact ⟨l, by rw [dget_dset, if_neg e]; exact h1, h2⟩
      · exact key _ rfl
    · exact key _ rfl
  | createLoop ns o lc =>
    simp only [Op.Leaves] at hl
    have hmake : ∀ b1 : Block, WF b1 → b1.loops = b.loops → ∃ l', dget (b1.makeLoop ns o).1.loops n = some l' ∧ lower x ∈ l' := by
      intro b1 hw1 e
      rw [makeLoop_eq hw1]
      simp only
      have hmem : lower x ∈ l.filter (fun y => decide (y ∉ ns.map lower)) := by simp only [List.mem_filter, h2, hl, not_false_eq_true, decide_true, and_self]
      have hr : (n, l.filter (fun y => decide (y ∉ ns.map lower))) ∈ restLoops b1.loops (ns.map lower) :=
        mem_restLoops.mpr ⟨List.ne_nil_of_mem hmem, l, by rw [e]; exact dget_mem h1, rfl⟩
      refine ⟨_, ?_, hmem⟩
      rw [dget_append, dget_of_mem (dkeys_restLoops_nodup hw1.loopsNodup _) hr]
      rfl
    simp only [step, createLoop]
    split
    · have hck : (b.createLoopCheck ns).1.loops = b.loops := by
        rcases createLoopCheck_cases b ns with ⟨e, h', -⟩ | ⟨h', -⟩ | ⟨-, h', -⟩
        · rw [h']
        · rw [h']
        · rw [h']; exact (wrapAll_frame rfl).2.1
      have hwc := wf_createLoopCheck hw ns
      generalize b.createLoopCheck ns = q at hck hwc
      obtain ⟨b1, r⟩ := q
      cases r with
      | error e => exact key _ hck
      | ok u => exact hmake b1 hwc hck
    · exact hmake b hw rfl
  | addLoopName o nw =>
    simp only [Op.Leaves] at hl
    simp only [step]
    rcases addLoopName_cases b o nw with ⟨r, h'⟩ | ⟨m, lm, nv, -, e1, -, -, -, h'⟩
    · rw [h']; exact key _ rfl
    · rw [h']
      simp only
      by_cases e : m = n
      · subst e
        rw [h1] at e1
        injection e1 with e1
        subst e1
        exact ⟨_, dget_dset_self .., List.mem_append_left _ h2⟩
      · rw [dget_dset, if_neg e]
        refine ⟨l.filter (fun y => decide (y ≠ lower nw)), dget_of_mem ?_ ?_, ?_⟩
        · rw [dkeys_dropFromLoops]; exact hw.loopsNodup
        · exact (mem_dropOne hw.looped).mpr ⟨l, dget_mem h1, rfl⟩
        · simp [h2, Ne.symm hl]
  | changeOrder r p =>
    simp only [step]
    rcases changeItemOrder_cases hw r p with ⟨e, h'⟩ | ⟨s, _, g1, h'⟩ | ⟨s, m, lm, _, g1, g2, h'⟩
    · rw [h']; exact key _ rfl
    · rw [h']; exact key _ rfl
    · rw [h']
      simp only
      by_cases e : m = n
      · subst e
        rw [h1] at g1
        injection g1 with g1
        subst g1
        exact ⟨_, dget_dset_self .., (reinsert_perm g2 p).mem_iff.mpr h2⟩
      · exact ⟨l, by rw [dget_dset, if_neg e]; exact h1, h2⟩
  | clear => exact absurd hl id
  | removePacket k v =>
    obtain ⟨blk, -, h'⟩ := removeKeyedPacket_frame b k v
    refine key _ ?_
    simp only [step, h']
  | addPacket k p =>
    refine key _ ?_
    simp only [step]
    split
    · rfl
    · exact addPacket_loops b _ p
  | configure o m u => exact key _ rfl

/-- C103: while the block is changed in any way, a view stays the view of the loop of every name that is in it and that is neither
removed nor put into another loop. Missing: loops all of whose names are removed or moved, see `C103_reused_fails`. -/
theorem C103_stays_partial {x : Str} {n : Nat} : ∀ (ops : List Op) {b : Block}, Reachable b → b.getLoop x = .ok n → LeavesRun x b ops →
    (b.run ops).getLoop x = .ok n ∧ (b.run ops).viewKeys n = .ok ((b.run ops).loopOf x)
  | [], b, hr, h, _ => by
    obtain ⟨l, h1, h2, h3⟩ := getLoop_ok (reachable_wf hr).1 h
    exact ⟨h, by simp only [run, viewKeys, h1, h3]⟩
  | o :: os, b, hr, h, ⟨h1, h2, h3⟩ => C103_stays_partial os (hr.step b o h1) (getLoop_step hr h o h1 h2) h3

/-- Where C103 fails: if the last name of the only loop is removed and another loop is made, the old view shows the new loop. -/
theorem C103_reused_fails {b : Block} (hr : Reachable b) {x : Str} (h : b.loops = [(1, [lower x])]) (ys : List Str) (o : Int) :
    b.getLoop x = .ok 1 ∧ (((b.removeItem x).1.createLoop ys o false).1).viewKeys 1 = .ok (ys.map lower) := by
  obtain ⟨hw, hf⟩ := reachable_wf hr
  have hg : b.getLoop x = .ok 1 := getLoop_of hw (l := [lower x]) (by rw [h]; rfl) List.mem_cons_self
  refine ⟨hg, ?_⟩
  have hk : lower x ∈ b.keys := hf _ (by rw [h]; simp [allLooped])
  have hfl : b.findLoop x = some 1 := findLoop_eq hw (l := [lower x]) (by rw [h]; simp) List.mem_cons_self
  have hrm : (b.removeItem x).1.loops = [] := by
    rw [removeItem_eq hw]
    simp only [hk, if_true, hfl, h, dget, pyErase]
    simp [ddel]
  have hw1 : WF (b.removeItem x).1 := wf_step hw (.remove x) trivial
  simp only [createLoop, Bool.false_eq_true, if_false, makeLoop_eq hw1, hrm]
  rfl

end

section Samples
attribute [local instance] asciiFold

/-- A loop of `_A` and `_b`, and an item. -/
def viewed : Block := ({} : Block).run [.add "_A".toList (.list [.str "1".toList, .str "2".toList]) false,
  .add "_b".toList (.list [.str "x".toList, .str "y".toList]) false, .add "_c".toList (.str "z".toList) false,
  .createLoop ["_a".toList, "_B".toList] (-1) true]

theorem viewed_reachable : Reachable viewed := by
  unfold viewed
  simp only [run]
  refine .step _ _ (.step _ _ (.step _ _ (.step _ _ (.fresh _ ⟨rfl, rfl, rfl, rfl⟩) ?_) ?_) ?_) ?_
  · show lower _ ≠ saves
    decide +kernel
  · show lower _ ≠ saves
    decide +kernel
  · show lower _ ≠ saves
    decide +kernel
  · exact ⟨by decide +kernel, .inl rfl⟩

theorem viewed_rect : viewed.Rect := by
  intro n l h
  have hl : viewed.loops = [(1, ["_a".toList, "_b".toList])] := by decide +kernel
  rw [hl] at h
  simp only [dget] at h
  split at h
  · injection h with h
    subst h
    refine ⟨2, fun s hs => ?_⟩
    simp only [List.mem_cons, List.not_mem_nil, or_false] at hs
    rcases hs with rfl | rfl
    · exact ⟨[.str "1".toList, .str "2".toList], by decide +kernel, rfl⟩
    · exact ⟨[.str "x".toList, .str "y".toList], by decide +kernel, rfl⟩
  · cases h

/-- C101 applies, and gives the columns. -/
example : Reachable viewed ∧ viewed.Rect ∧ viewed.getLoop "_B".toList = .ok 1 ∧
    viewed.viewItems 1 = .ok [("_a".toList, .list [.str "1".toList, .str "2".toList]), ("_b".toList, .list [.str "x".toList, .str "y".toList])] ∧
    viewed.viewGet 1 "_a".toList = .ok (.list [.str "1".toList, .str "2".toList]) ∧ lower "_A".toList ≠ "_A".toList ∧
    viewed.getLoop "_c".toList ≠ .ok 1 :=
  ⟨viewed_reachable, viewed_rect, by decide +kernel, by decide +kernel, by decide +kernel, by decide +kernel, by decide +kernel⟩

/-- C102 applies. -/
example : viewed.contains "_D".toList = false ∧ lower "_D".toList ≠ saves ∧ viewed.column "_b".toList = some [.str "x".toList, .str "y".toList] ∧
    (viewed.setItem "_D".toList (.list [.str "p".toList, .str "q".toList])).2 = .ok () ∧ (viewed.setItem "_D".toList (.list [.str "p".toList])).2 = .ok () ∧
    (viewed.setItem "_a".toList (.list [.str "p".toList])).2 = .ok () ∧ viewed.getLoop "_a".toList = .ok 1 := by
  refine ⟨?_, ?_, ?_, ?_, ?_, ?_, ?_⟩ <;> decide +kernel

/-- C102 for several columns applies. -/
example : viewed.loopOf "_a".toList ≠ [] ∧
    (([("_D".toList, [.str "p".toList, .str "q".toList]), ("_e".toList, [.str "r".toList, .str "s".toList])] : List (Str × List PyVal)).map fun p => lower p.1).Nodup ∧
    ∀ p ∈ ([("_D".toList, [.str "p".toList, .str "q".toList]), ("_e".toList, [.str "r".toList, .str "s".toList])] : List (Str × List PyVal)),
      lower p.1 ≠ saves ∧ viewed.contains p.1 = false ∧ p.2.length = 2 ∧ (viewed.setItem p.1 (.list p.2)).2 = .ok () := by
  refine ⟨?_, ?_, ?_⟩ <;> decide +kernel

/-- C103 applies: another name of the loop is removed, an item joins, and another loop is made. -/
example : LeavesRun "_a".toList viewed [.remove "_b".toList, .createLoop ["_c".toList] (-1) true, .changeOrder (.name "_A".toList) 0] := by
  refine ⟨trivial, ?_, ⟨by decide +kernel, .inl rfl⟩, ?_, trivial, trivial, trivial⟩
  · show lower _ ≠ lower _
    decide +kernel
  · show lower _ ∉ List.map lower _
    decide +kernel

/-- The hypothesis of `C103_reused_fails` holds after the removal of a name. -/
example : (viewed.removeItem "_b".toList).1.loops = [(1, [lower "_A".toList])] ∧ Reachable (viewed.removeItem "_b".toList).1 :=
  ⟨by decide +kernel, .step _ (.remove "_b".toList) viewed_reachable trivial⟩

end Samples
end Verif.Block
