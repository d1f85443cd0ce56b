import Verif.Lemmas.Alias
import Verif.Spec.Alias
import Verif.Props.BlockLoop
/-! # C96, C97: blocks that share nothing, and copies -/
namespace Verif.Alias
open Block
set_option linter.unusedSectionVars false

section
variable [CaseFold]

theorem step_does {h : Heap} {x : HBlock} (ho : Own h x) (op : Op) : Does h x (hStep h x op) ((view h x).step op) := by
  cases op with
  | add k v pre => exact addItem_does ho k v pre
  | remove k => exact removeItem_does ho k
  | createLoop ns o lc => exact createLoop_does ho ns o lc
  | addLoopName o n => exact addLoopName_does ho o n
  | changeOrder r p => exact changeItemOrder_does ho r p
  | clear =>
    exact ⟨⟨by simp [hStep, hClear, dkeys], by simp [hStep, hClear, dkeys], by simp [hStep, hClear], by simp [hStep, hClear], nofun, nofun⟩,
      frame_less (List.nil_sublist _) (List.nil_sublist _), rfl, rfl⟩
  | removePacket k v => exact removeKeyedPacket_does ho k v
  | addPacket k p =>
    simp only [hStep, step]
    cases (view h x).getLoop k with
    | error e => exact .same ho _
    | ok n => exact addPacket_does ho n p
  | configure o m u =>
    exact ⟨own_less ho (List.Sublist.refl _) (List.Sublist.refl _), frame_less (List.Sublist.refl _) (List.Sublist.refl _), rfl, rfl⟩

/-- Two blocks without a common object. -/
structure Apart (x y : HBlock) : Prop where
  cells : ∀ a, a ∈ x.block.map (·.2) → a ∉ y.block.map (·.2)
  lists : ∀ a, a ∈ x.loops.map (·.2) → a ∉ y.loops.map (·.2)

theorem Apart.symm {x y : HBlock} (h : Apart x y) : Apart y x := ⟨fun a h1 h2 => h.cells a h2 h1, fun a h1 h2 => h.lists a h2 h1⟩

theorem view_congr {h h' : Heap} {x : HBlock} (h1 : ∀ a ∈ x.block.map (·.2), h'.cells a = h.cells a)
    (h2 : ∀ a ∈ x.loops.map (·.2), h'.lists a = h.lists a) : view h' x = view h x := by
  unfold view
  rw [follow_congr h1, follow_congr h2]

/-- A call on one of two blocks that have nothing in common. -/
theorem apart_step {h : Heap} {x y : HBlock} (hx : Own h x) (hy : Own h y) (ha : Apart x y) (op : Op) :
    Own (hStep h x op).1 (hStep h x op).2.1 ∧ Own (hStep h x op).1 y ∧ Apart (hStep h x op).2.1 y ∧
      view (hStep h x op).1 (hStep h x op).2.1 = ((view h x).step op).1 ∧ view (hStep h x op).1 y = view h y := by
  have d := step_does hx op
  refine ⟨d.own, own_heap hy d.frame.next, ⟨?_, ?_⟩, d.seen, ?_⟩
  · intro a h1 h2
    rcases d.frame.newCells a h1 with h3 | h3
    · exact ha.cells a h3 h2
    · exact absurd (hy.cellsIn a h2) (by omega)
  · intro a h1 h2
    rcases d.frame.newLists a h1 with h3 | h3
    · exact ha.lists a h3 h2
    · exact absurd (hy.listsIn a h2) (by omega)
  · exact view_congr (fun a h1 => d.frame.cells a (hy.cellsIn a h1) fun h2 => ha.cells a h2 h1)
      (fun a h1 => d.frame.lists a (hy.listsIn a h1) fun h2 => ha.lists a h2 h1)

theorem apart_run : ∀ (hist : List (Bool × Op)) (w : World), Own w.heap w.a → Own w.heap w.b → Apart w.a w.b →
    view (w.run hist).heap (w.run hist).a = (view w.heap w.a).run (onSide true hist) ∧
    view (w.run hist).heap (w.run hist).b = (view w.heap w.b).run (onSide false hist)
  | [], _, _, _, _ => ⟨rfl, rfl⟩
  | (true, o) :: r, w, ha, hb, hab => by
    obtain ⟨h1, h2, h3, h4, h5⟩ := apart_step ha hb hab o
    obtain ⟨g1, g2⟩ := apart_run r (w.step true o) h1 h2 h3
    refine ⟨?_, ?_⟩
    · rw [World.run, g1]
      show Block.run (view (hStep w.heap w.a o).1 (hStep w.heap w.a o).2.1) _ = _
      rw [h4]
      rfl
    · rw [World.run, g2]
      show Block.run (view (hStep w.heap w.a o).1 w.b) _ = _
      rw [h5]
      rfl
  | (false, o) :: r, w, ha, hb, hab => by
    obtain ⟨h1, h2, h3, h4, h5⟩ := apart_step hb ha hab.symm o
    obtain ⟨g1, g2⟩ := apart_run r (w.step false o) h2 h1 h3.symm
    refine ⟨?_, ?_⟩
    · rw [World.run, g1]
      show Block.run (view (hStep w.heap w.b o).1 w.a) _ = _
      rw [h5]
      rfl
    · rw [World.run, g2]
      show Block.run (view (hStep w.heap w.b o).1 (hStep w.heap w.b o).2.1) _ = _
      rw [h4]
      rfl

theorem own_empty {h : Heap} {x : HBlock} (he : Empty x) : Own h x := by
  obtain ⟨h1, h2⟩ := he
  constructor <;> simp [h1, h2, dkeys]

/-- C96: blocks that were made separately never influence each other: after any calls on both, in any order and whether they succeed or
not, each appears as if only the calls on itself had been made. -/
theorem C96_independent (h : Heap) (x y : HBlock) (hx : Empty x) (hy : Empty y) (hist : List (Bool × Op)) :
    view ((World.mk h x y).run hist).heap ((World.mk h x y).run hist).a = (view h x).run (onSide true hist) ∧
    view ((World.mk h x y).run hist).heap ((World.mk h x y).run hist).b = (view h y).run (onSide false hist) :=
  apart_run hist ⟨h, x, y⟩ (own_empty hx) (own_empty hy) ⟨by simp [hx.1], by simp [hx.2]⟩

/-- C96: a new block made at any time has nothing in common with those that are there. -/
theorem C96_new (h : Heap) (x y : HBlock) (hx : Own h x) (hy : Empty y) (hist : List (Bool × Op)) :
    view ((World.mk h x y).run hist).heap ((World.mk h x y).run hist).a = (view h x).run (onSide true hist) ∧
    view ((World.mk h x y).run hist).heap ((World.mk h x y).run hist).b = (view h y).run (onSide false hist) :=
  apart_run hist ⟨h, x, y⟩ hx (own_empty hy) ⟨by simp [hy.1], by simp [hy.2]⟩

/-- C96: each call does, and returns, what it does in the model of blocks as values (`Model/Block`). -/
theorem C96_call (h : Heap) (x : HBlock) (hx : Own h x) (op : Op) :
    view (hStep h x op).1 (hStep h x op).2.1 = ((view h x).step op).1 ∧ (hStep h x op).2.2 = ((view h x).step op).2 ∧
      Own (hStep h x op).1 (hStep h x op).2.1 :=
  ⟨(step_does hx op).seen, (step_does hx op).result, (step_does hx op).own⟩

/-! ## Copies -/

/-- The objects that are there stay as they are. -/
def Keeps (h h' : Heap) : Prop := h.next ≤ h'.next ∧ (∀ a, a < h.next → h'.cells a = h.cells a) ∧ ∀ a, a < h.next → h'.lists a = h.lists a

theorem Keeps.refl (h : Heap) : Keeps h h := ⟨Nat.le_refl _, fun _ _ => rfl, fun _ _ => rfl⟩

theorem Keeps.trans {h h1 h2 : Heap} (a : Keeps h h1) (b : Keeps h1 h2) : Keeps h h2 :=
  ⟨Nat.le_trans a.1 b.1, fun n hn => by rw [b.2.1 n (Nat.lt_of_lt_of_le hn a.1), a.2.1 n hn],
    fun n hn => by rw [b.2.2 n (Nat.lt_of_lt_of_le hn a.1), a.2.2 n hn]⟩

theorem keeps_addItem (h : Heap) (x : HBlock) (k : Str) (v : PyVal) (pre : Bool) :
    Keeps h (hAddItem h x k v pre).1 ∧ (hAddItem h x k v pre).2.1.loops = x.loops := by
  unfold hAddItem
  cases (view h x).addItemCheck k v pre with
  | error e => exact ⟨.refl h, rfl⟩
  | ok sv =>
    refine ⟨⟨Nat.le_succ _, ?_, fun _ _ => rfl⟩, rfl⟩
    intro a ha
    have : a ≠ h.next := Nat.ne_of_lt ha
    simp [hStore, Heap.newCell, Heap.setCell, this]

theorem keeps_wrapAll : ∀ (ns : List Str) (h : Heap) (x : HBlock),
    Keeps h (hWrapAll h x ns).1 ∧ (hWrapAll h x ns).2.1.loops = x.loops
  | [], h, x => ⟨.refl h, rfl⟩
  | d :: ds, h, x => by
    rw [hWrapAll]
    cases (view h x).getItem d with
    | error e => exact ⟨.refl h, rfl⟩
    | ok v =>
      simp only
      have hk : Keeps h (hSetItem h x d (.list [v])).1 ∧ (hSetItem h x d (.list [v])).2.1.loops = x.loops := by
        unfold hSetItem
        by_cases hd : d = saves
        · rw [if_pos hd]; exact ⟨.refl h, rfl⟩
        · rw [if_neg hd]; exact keeps_addItem h x d _ _
      generalize hSetItem h x d (.list [v]) = q at hk ⊢
      obtain ⟨h1, x1, r⟩ := q
      simp only at hk
      cases r with
      | error e => exact hk
      | ok u =>
        cases u
        simp only
        obtain ⟨k1, k2⟩ := keeps_wrapAll ds h1 x1
        exact ⟨hk.1.trans k1, k2.trans hk.2⟩

theorem keeps_createLoopCheck (h : Heap) (x : HBlock) (ns : List Str) :
    Keeps h (hCreateLoopCheck h x ns).1 ∧ (hCreateLoopCheck h x ns).2.1.loops = x.loops := by
  unfold hCreateLoopCheck
  cases (view h x).getAll ns with
  | error e => exact ⟨.refl h, rfl⟩
  | ok vs =>
    simp only
    by_cases h1 : (vs.filter PyVal.isColumn).length = ns.length
    · rw [if_pos h1]
      split <;> exact ⟨.refl h, rfl⟩
    · rw [if_neg h1]
      split
      · exact ⟨.refl h, rfl⟩
      · exact keeps_wrapAll ns h x

theorem foldl_erase_none (ns l : List Str) (h : ∀ n ∈ ns, n ∉ l) : ns.foldl (fun l n => pyErase l n) l = l := by
  induction ns with
  | nil => rfl
  | cons n r ih =>
    rw [List.foldl_cons, pyErase_of_not_mem (h n List.mem_cons_self)]
    exact ih fun m hm => h m (List.mem_cons_of_mem _ hm)

theorem loopOf_nil' {b : Block} {k : Str} (h : b.loopOf k = []) : lower k ∉ allLooped b.loops := by
  rw [← findLoop_none]
  unfold loopOf at h
  unfold findLoop
  cases hf : b.loops.find? fun p => decide (lower k ∈ p.2) with
  | none => rfl
  | some p =>
    rw [hf] at h
    have h : p.2 = [] := h
    have := List.find?_some hf
    simp only [decide_eq_true_eq, h] at this
    cases this

theorem not_in_list {h : Heap} {x : HBlock} {s : Str} (hn : s ∉ allLooped (view h x).loops) {a : Nat} (ha : a ∈ x.loops.map (·.2)) :
    s ∉ h.lists a := by
  intro hs
  obtain ⟨p, hp, rfl⟩ := List.mem_map.mp ha
  exact hn (mem_allLooped.mpr ⟨p.1, h.lists p.2, List.mem_map.mpr ⟨p, hp, rfl⟩, hs⟩)

theorem keeps_makeLoop {h : Heap} {x : HBlock} (ns : List Str) (o : Int) (hn : ∀ n ∈ ns, lower n ∉ allLooped (view h x).loops) :
    Keeps h (hMakeLoop h x ns o).1 := by
  have h1 : Keeps h (dropNames h (x.loops.map (·.2)) (ns.map lower)) := by
    refine ⟨Nat.le_refl _, fun _ _ => rfl, fun a _ => ?_⟩
    simp only [dropNames]
    by_cases ha : a ∈ x.loops.map (·.2)
    · rw [if_pos ha]
      apply foldl_erase_none
      intro n hm
      obtain ⟨m, hm', rfl⟩ := List.mem_map.mp hm
      exact not_in_list (hn m hm') ha
    · rw [if_neg ha]
  unfold hMakeLoop
  simp only
  generalize dropNames h (x.loops.map (·.2)) (ns.map lower) = g at h1 ⊢
  generalize hDropEmpty x _ = q
  obtain ⟨x2, r⟩ := q
  cases r with
  | error e => exact h1
  | ok u =>
    cases u
    simp only
    refine h1.trans ⟨Nat.le_succ _, fun _ _ => rfl, fun a ha => ?_⟩
    have : a ≠ g.next := Nat.ne_of_lt ha
    simp [Heap.newList, Heap.setList, this]

theorem keeps_mild {h : Heap} {x : HBlock} (ho : Own h x) {op : Op} (hm : Mild (view h x) op) : Keeps h (hStep h x op).1 := by
  cases op with
  | add k v pre => exact (keeps_addItem h x k v pre).1
  | remove k =>
    have hf : (view h x).findLoop k = none := findLoop_none.mpr (loopOf_nil' hm)
    simp only [hStep, hRemoveItem, hf]
    split
    · split
      · exact .refl h
      · split <;> exact .refl h
    · exact .refl h
  | createLoop ns o lc =>
    have hn : ∀ n ∈ ns, lower n ∉ allLooped (view h x).loops := fun n hh => loopOf_nil' (hm n hh)
    simp only [hStep, hCreateLoop]
    cases lc with
    | false => exact keeps_makeLoop ns o hn
    | true =>
      simp only [if_true]
      obtain ⟨k1, k2⟩ := keeps_createLoopCheck h x ns
      generalize hCreateLoopCheck h x ns = q at k1 k2 ⊢
      obtain ⟨h1, x1, r⟩ := q
      cases r with
      | error e => exact k1
      | ok u =>
        cases u
        simp only
        refine k1.trans (keeps_makeLoop ns o ?_)
        have : (view h1 x1).loops = (view h x).loops := by
          simp only [view]
          simp only at k2
          rw [k2]
          exact follow_congr fun a ha => k1.2.2 a (ho.listsIn a ha)
        rw [this]
        exact hn
  | addLoopName o n => exact hm.elim
  | changeOrder r p =>
    cases r with
    | loop n =>
      simp only [hStep, hChangeItemOrder]
      split
      · exact .refl h
      · split <;> exact .refl h
    | name s =>
      have hf : (view h x).findLoop (lower s) = none := findLoop_none.mpr (by
        rw [CaseFold.lower_lower]
        exact loopOf_nil' hm)
      simp only [hStep, hChangeItemOrder, hf]
      split <;> exact .refl h
  | clear => exact .refl h
  | removePacket k v => exact hm.elim
  | addPacket k p => exact hm.elim
  | configure o m u => exact .refl h

theorem view_keeps {h h' : Heap} {x : HBlock} (ho : Own h x) (hk : Keeps h h') : view h' x = view h x :=
  view_congr (fun a ha => hk.2.1 a (ho.cellsIn a ha)) (fun a ha => hk.2.2 a (ho.listsIn a ha))

theorem mild_run : ∀ (hist : List (Bool × Op)) (w : World), Own w.heap w.a → Own w.heap w.b → MildHistory w hist →
    view (w.run hist).heap (w.run hist).a = (view w.heap w.a).run (onSide true hist) ∧
    view (w.run hist).heap (w.run hist).b = (view w.heap w.b).run (onSide false hist)
  | [], _, _, _, _ => ⟨rfl, rfl⟩
  | (true, o) :: r, w, ha, hb, hm => by
    have hk := keeps_mild ha hm.1
    have hd := step_does ha o
    obtain ⟨g1, g2⟩ := mild_run r (w.step true o) hd.own (own_heap hb hk.1) hm.2
    refine ⟨?_, ?_⟩
    · rw [World.run, g1]
      show Block.run (view (hStep w.heap w.a o).1 (hStep w.heap w.a o).2.1) _ = _
      rw [hd.seen]
      rfl
    · rw [World.run, g2]
      show Block.run (view (hStep w.heap w.a o).1 w.b) _ = _
      rw [view_keeps hb hk]
      rfl
  | (false, o) :: r, w, ha, hb, hm => by
    have hk := keeps_mild hb hm.1
    have hd := step_does hb o
    obtain ⟨g1, g2⟩ := mild_run r (w.step false o) (own_heap ha hk.1) hd.own hm.2
    refine ⟨?_, ?_⟩
    · rw [World.run, g1]
      show Block.run (view (hStep w.heap w.b o).1 w.a) _ = _
      rw [view_keeps ha hk]
      rfl
    · rw [World.run, g2]
      show Block.run (view (hStep w.heap w.b o).1 (hStep w.heap w.b o).2.1) _ = _
      rw [hd.seen]
      rfl

theorem own_copy {h : Heap} {x : HBlock} (ho : Own h x) : Own h (copyOf x) := own_less ho (List.Sublist.refl _) (List.Sublist.refl _)

/-- C97: a copy has the same items, loops and order as the block. -/
theorem C97_same (h : Heap) (x : HBlock) : (view h (copyOf x)).block = (view h x).block ∧ (view h (copyOf x)).loops = (view h x).loops ∧
    (view h (copyOf x)).order = (view h x).order ∧ (view h (copyOf x)).trueCase = (view h x).trueCase := ⟨rfl, rfl, rfl, rfl⟩

/-- C97: as long as no existing loop is changed, a block and its copy are independent: after any such calls on both, in any order, each
appears as if only the calls on itself had been made. Missing: calls that change existing loops, or add and remove their packets, see the
`_fails` theorems. -/
theorem C97_mild_partial (h : Heap) (x : HBlock) (hx : Own h x) (hist : List (Bool × Op)) (hm : MildHistory ⟨h, x, copyOf x⟩ hist) :
    view ((World.mk h x (copyOf x)).run hist).heap ((World.mk h x (copyOf x)).run hist).a = (view h x).run (onSide true hist) ∧
    view ((World.mk h x (copyOf x)).run hist).heap ((World.mk h x (copyOf x)).run hist).b = (view h (copyOf x)).run (onSide false hist) :=
  mild_run hist ⟨h, x, copyOf x⟩ hx (own_copy hx) hm

theorem getItem_copy (h : Heap) (x : HBlock) (k : Str) : (view h (copyOf x)).getItem k = (view h x).getItem k := rfl

theorem findLoop_copy (h : Heap) (x : HBlock) (k : Str) : (view h (copyOf x)).findLoop k = (view h x).findLoop k := rfl

/-- Where C97 fails: moving a looped item in the copy moves it in the original as well, just as if the original had been asked. -/
theorem C97_move_fails (h : Heap) (x : HBlock) (hx : Own h x) (s : Str) (p : Int) (hs : (view h x).loopOf s ≠ []) :
    view (hChangeItemOrder h (copyOf x) (.name s) p).1 x = ((view h x).changeItemOrder (.name s) p).1 := by
  have hd := changeItemOrder_does hx (.name s) p
  rw [← hd.seen]
  have hf : (view h x).findLoop (lower s) ≠ none := by
    intro hf
    unfold loopOf at hs
    rw [findLoop_none, CaseFold.lower_lower] at hf
    apply hs
    cases hq : (view h x).loops.find? fun p => decide (lower s ∈ p.2) with
    | none => rfl
    | some q =>
      have h1 := List.find?_some hq
      simp only [decide_eq_true_eq] at h1
      exact absurd (mem_allLooped.mpr ⟨q.1, q.2, List.mem_of_find?_eq_some hq, h1⟩) hf
  simp only [hChangeItemOrder, findLoop_copy]
  cases hl : (view h x).findLoop (lower s) with
  | none => exact absurd hl hf
  | some n =>
    simp only [copyOf]
    cases dget x.loops n with
    | none => rfl
    | some a =>
      simp only
      cases pyRemove (h.lists a) (lower s) <;> rfl

theorem removeRow_copy (i : Nat) (x : HBlock) : ∀ (ns : List Str) (h : Heap),
    (hRemoveRow h (copyOf x) i ns).1 = (hRemoveRow h x i ns).1 ∧ (hRemoveRow h x i ns).2.1 = x
  | [], h => ⟨rfl, rfl⟩
  | d :: ds, h => by
    rw [hRemoveRow, hRemoveRow]
    simp only [copyOf]
    cases dget x.block d with
    | none => exact ⟨rfl, rfl⟩
    | some a =>
      simp only
      cases delAt (h.cells a).1 i with
      | error e => exact ⟨rfl, rfl⟩
      | ok s' =>
        simp only
        cases delAt (h.cells a).2 i with
        | error e => exact ⟨rfl, rfl⟩
        | ok v' => exact removeRow_copy i x ds _

/-- Where C97 fails: removing a packet from a loop of the copy removes it from the original as well, just as if the original had been
asked. -/
theorem C97_packet_fails (h : Heap) (x : HBlock) (hx : Own h x) (k : Str) (v : PyVal) :
    view (hRemoveKeyedPacket h (copyOf x) k v).1 x = ((view h x).removeKeyedPacket k v).1 := by
  have hd := removeKeyedPacket_does hx k v
  rw [← hd.seen]
  have : (hRemoveKeyedPacket h (copyOf x) k v).1 = (hRemoveKeyedPacket h x k v).1 ∧ (hRemoveKeyedPacket h x k v).2.1 = x := by
    unfold hRemoveKeyedPacket
    simp only [getItem_copy, findLoop_copy]
    cases (view h x).getItem k with
    | error e => exact ⟨rfl, rfl⟩
    | ok col =>
      simp only
      cases pyIter col with
      | error e => exact ⟨rfl, rfl⟩
      | ok l =>
        simp only
        by_cases hm : v ∈ l
        · rw [if_pos hm, if_pos hm]
          cases (view h x).findLoop k with
          | none => exact ⟨rfl, rfl⟩
          | some n =>
            simp only
            show (match dget (view h x).loops n with
              | none => (h, copyOf x, .error .key)
              | some names => hRemoveRow h (copyOf x) (l.idxOf v) names : Res).1 = _ ∧ _
            cases dget (view h x).loops n with
            | none => exact ⟨rfl, rfl⟩
            | some names => exact removeRow_copy _ x names h
        · rw [if_neg hm, if_neg hm]; exact ⟨rfl, rfl⟩
  rw [this.1, this.2]

/-- The names a block prints when its loops are replaced. -/
theorem not_printed {b : Block} (hw : WF b) {L : Dict Nat (List Str)} {s : Str} (hs : s ∈ allLooped b.loops)
    (hL : ∀ n l, dget L n = some l → s ∉ l) : s ∉ ({ b with loops := L } : Block).printed := by
  unfold printed
  simp only [List.mem_flatMap, not_exists, not_and]
  intro r hr
  cases r with
  | name t =>
    simp only [List.mem_singleton]
    rintro rfl
    exact ((hw.orderName s).mp hr).2 hs
  | loop n =>
    simp only
    cases hg : dget L n with
    | none => simp
    | some l => exact hL n l hg

/-- Where C97 fails: when a looped item is removed from the copy, the original still has its value but does not print it any more. -/
theorem C97_remove_fails (h : Heap) (x : HBlock) (hx : Own h x) (hr : Reachable (view h x)) (k : Str) (hk : (view h x).loopOf k ≠ []) :
    lower k ∈ (view h x).printed ∧
    (view (hRemoveItem h (copyOf x) k).1 x).contains k = true ∧
    (view (hRemoveItem h (copyOf x) k).1 x).lookup k = (view h x).lookup k ∧
    lower k ∉ (view (hRemoveItem h (copyOf x) k).1 x).printed := by
  obtain ⟨hw, hfull⟩ := reachable_wf hr
  have hloop : lower k ∈ allLooped (view h x).loops := by
    apply Classical.byContradiction
    intro hn
    apply hk
    rw [← findLoop_none] at hn
    unfold findLoop at hn
    unfold loopOf
    cases hq : (view h x).loops.find? fun p => decide (lower k ∈ p.2) with
    | none => rfl
    | some q => rw [hq] at hn; cases hn
  have hkey := hfull _ hloop
  cases hf : (view h x).findLoop k with
  | none => exact absurd hloop (findLoop_none.mp hf)
  | some n =>
    obtain ⟨l, hl, hkl⟩ := findLoop_some' hw hf
    have hl' : dget (view h x).loops n = (dget x.loops n).map h.lists := dget_follow _ _ _
    rw [hl'] at hl
    cases hg : dget x.loops n with
    | none => rw [hg] at hl; cases hl
    | some a =>
      rw [hg] at hl
      obtain rfl : h.lists a = l := by simpa using hl
      have hheap : (hRemoveItem h (copyOf x) k).1 = h.setList a (pyErase (h.lists a) (lower k)) := by
        have hc : (view h (copyOf x)).contains (lower k) = true := by
          simp only [contains, CaseFold.lower_lower, decide_eq_true_eq]
          exact hkey
        have ht : ¬ lower k ∉ dkeys (copyOf x).trueCase := fun hh => hh (hw.caseKeys _ hkey)
        unfold hRemoveItem
        simp only [hc, if_true, ht, if_false, findLoop_copy, hf]
        simp only [copyOf, hg, pyRemove, if_pos hkl]
        split
        · split <;> rfl
        · rfl
      have hview : view (hRemoveItem h (copyOf x) k).1 x =
          { view h x with loops := dset (view h x).loops n (pyErase (h.lists a) (lower k)) } := by
        rw [hheap, view_setList hx hg]
      rw [hview]
      refine ⟨(mem_printed hw).mpr (.inl hloop), ?_, rfl, ?_⟩
      · simp only [contains, decide_eq_true_eq]
        exact hkey
      · apply not_printed hw hloop
        intro m l' hm
        rw [dget_dset] at hm
        have hnl : (n, h.lists a) ∈ (view h x).loops := dget_mem (by rw [hl', hg]; rfl)
        by_cases hnm : n = m
        · rw [if_pos hnm] at hm
          injection hm with hm
          subst hm
          rw [pyErase_eq_filter (loop_nodup hw.looped hnl), List.mem_filter]
          simp
        · rw [if_neg hnm] at hm
          intro hkl'
          exact hnm (flatMap_unique hw.looped hw.loopsNodup hnl hkl (dget_mem hm) hkl').1

/-- Where C97 fails: when a looped item is put into a new loop of the copy, the original still has its value but does not print it any
more. -/
theorem C97_loop_fails (h : Heap) (x : HBlock) (hx : Own h x) (hr : Reachable (view h x)) (ns : List Str) (o : Int) (lc : Bool)
    (hok : (hCreateLoop h (copyOf x) ns o lc).2.2 = .ok ()) (k : Str) (hk : k ∈ ns) (hl : (view h x).loopOf k ≠ []) :
    lower k ∈ (view h x).printed ∧
    (view (hCreateLoop h (copyOf x) ns o lc).1 x).contains k = true ∧
    lower k ∉ (view (hCreateLoop h (copyOf x) ns o lc).1 x).printed := by
  obtain ⟨hw, hfull⟩ := reachable_wf hr
  have hloop : lower k ∈ allLooped (view h x).loops := by
    apply Classical.byContradiction
    intro hn
    apply hl
    rw [← findLoop_none] at hn
    unfold findLoop at hn
    unfold loopOf
    cases hq : (view h x).loops.find? fun p => decide (lower k ∈ p.2) with
    | none => rfl
    | some q => rw [hq] at hn; cases hn
  have hkey := hfull _ hloop
  -- the heap after the call, as far as the original is concerned
  have hmake : ∀ (h1 : Heap) (y : HBlock), y.loops = x.loops → Keeps h h1 →
      view (hMakeLoop h1 y ns o).1 x = { view h x with loops := dropFromLoops (view h x).loops (ns.map lower) } := by
    intro h1 y hy hkp
    have hv1 : view (dropNames h1 (x.loops.map (·.2)) (ns.map lower)) x =
        { view h x with loops := dropFromLoops (view h x).loops (ns.map lower) } := by
      rw [view_dropNames, view_keeps hx hkp]
    rw [← hv1]
    unfold hMakeLoop
    simp only [hy]
    have hn : h.next ≤ (dropNames h1 (x.loops.map (·.2)) (ns.map lower)).next := hkp.1
    generalize dropNames h1 (x.loops.map (·.2)) (ns.map lower) = h2 at hn ⊢
    generalize hDropEmpty y _ = q
    obtain ⟨x2, r⟩ := q
    cases r with
    | error e => rfl
    | ok u =>
      cases u
      simp only
      apply view_congr
      · exact fun _ _ => rfl
      · intro a ha
        have : a ≠ h2.next := by
          have := hx.listsIn a ha
          omega
        simp [Heap.newList, Heap.setList, this]
  have hview : view (hCreateLoop h (copyOf x) ns o lc).1 x = { view h x with loops := dropFromLoops (view h x).loops (ns.map lower) } := by
    unfold hCreateLoop at hok ⊢
    cases lc with
    | false => exact hmake h (copyOf x) rfl (.refl h)
    | true =>
      simp only [if_true] at hok ⊢
      obtain ⟨k1, k2⟩ := keeps_createLoopCheck h (copyOf x) ns
      generalize hCreateLoopCheck h (copyOf x) ns = q at k1 k2 hok ⊢
      obtain ⟨h1, x1, r⟩ := q
      cases r with
      | error e => cases hok
      | ok u => cases u; exact hmake h1 x1 k2 k1
  rw [hview]
  refine ⟨(mem_printed hw).mpr (.inl hloop), ?_, ?_⟩
  · simp only [contains, decide_eq_true_eq]
    exact hkey
  · apply not_printed hw hloop
    intro m l' hm
    rw [dropFromLoops_eq hw.looped] at hm
    obtain ⟨p, -, hp⟩ := List.mem_map.mp (dget_mem hm)
    injection hp with hp1 hp2
    rw [← hp2, List.mem_filter]
    rintro ⟨-, hh⟩
    simp only [decide_eq_true_eq] at hh
    exact hh (List.mem_map_of_mem hk)

theorem dup_flatMap {α β : Type} {f : α → List β} {r1 r2 : α} {s : β} (hne : r1 ≠ r2) (h1 : s ∈ f r1) (h2 : s ∈ f r2) :
    ∀ {l : List α}, r1 ∈ l → r2 ∈ l → ¬ (l.flatMap f).Nodup
  | [], hr, _ => nomatch hr
  | a :: l, hr1, hr2 => by
    rw [List.flatMap_cons, List.nodup_append]
    rintro ⟨-, hn, hd⟩
    rcases List.mem_cons.mp hr1 with e1 | e1
    · rcases List.mem_cons.mp hr2 with e2 | e2
      · exact hne (e1.trans e2.symm)
      · exact hd s (e1 ▸ h1) s (List.mem_flatMap.mpr ⟨r2, e2, h2⟩) rfl
    · rcases List.mem_cons.mp hr2 with e2 | e2
      · exact hd s (e2 ▸ h2) s (List.mem_flatMap.mpr ⟨r1, e1, h1⟩) rfl
      · exact dup_flatMap hne h1 h2 e1 e2 hn

/-- Where C97 fails: when an item is added to a loop of the copy, the original prints it twice, in the loop and on its own. -/
theorem C97_loop_name_fails (h : Heap) (x : HBlock) (hr : Reachable (view h x)) (old new : Str)
    (hok : (hAddLoopName h (copyOf x) old new).2.2 = .ok ()) (hn : (view h x).loopOf new = []) :
    (view h x).printed.Nodup ∧ ¬ (view (hAddLoopName h (copyOf x) old new).1 x).printed.Nodup := by
  obtain ⟨hw, hfull⟩ := reachable_wf hr
  refine ⟨nodup_printed hw, ?_⟩
  have hnl : lower new ∉ allLooped (view h x).loops := loopOf_nil' hn
  unfold hAddLoopName at hok ⊢
  simp only [findLoop_copy, getItem_copy] at hok ⊢
  cases hf : (view h x).findLoop old with
  | none => rw [hf] at hok; cases hok
  | some n =>
    rw [hf] at hok
    simp only at hok ⊢
    obtain ⟨l, hl, hol⟩ := findLoop_some' hw hf
    have hl' : dget (view h x).loops n = (dget x.loops n).map h.lists := dget_follow _ _ _
    cases hg : dget x.loops n with
    | none => rw [hl', hg] at hl; cases hl
    | some a =>
      have hgc : dget (copyOf x).loops n = some a := hg
      rw [hgc] at hok
      simp only [hgc] at hok ⊢
      have haL : a ∈ x.loops.map (·.2) := mem_vals_of_dget hg
      have hka : lower new ∉ h.lists a := not_in_list hnl haL
      rw [if_neg hka] at hok
      rw [if_neg hka]
      cases hov : (view h x).getItem old with
      | error e => rw [hov] at hok; cases hok
      | ok ov =>
        rw [hov] at hok
        simp only at hok ⊢
        cases hlen : ov.pyLen with
        | error e => rw [hlen] at hok; cases hok
        | ok len =>
          rw [hlen] at hok
          simp only at hok ⊢
          cases hnv : (view h x).getItem new with
          | error e => rw [hnv] at hok; cases hok
          | ok nv =>
            rw [hnv] at hok
            simp only at hok ⊢
            cases hlen' : nv.pyLen with
            | error e => rw [hlen'] at hok; cases hok
            | ok len' =>
              rw [hlen'] at hok
              simp only at hok ⊢
              by_cases hne : len' ≠ len
              · rw [if_pos hne] at hok; cases hok
              · rw [if_neg hne]
                simp only
                have hkey : lower new ∈ dkeys (view h x).block := by
                  apply Classical.byContradiction
                  intro hh
                  unfold getItem getFullItemValue at hnv
                  rw [dget_eq_none.mpr hh] at hnv
                  split at hnv <;> cases hnv
                have hord : Ref.name (lower new) ∈ x.order := (hw.orderName _).mpr ⟨hkey, hnl⟩
                have hlo : Ref.loop n ∈ x.order := by
                  refine (hw.orderLoop n).mpr ?_
                  rw [← dget_isSome, hl', hg]
                  exact ⟨_, rfl⟩
                have hmem : ∀ g : Heap, lower new ∈ g.lists a →
                    ¬ (view g x).printed.Nodup := by
                  intro g hm
                  unfold printed
                  refine dup_flatMap (r1 := Ref.name (lower new)) (r2 := Ref.loop n) (s := lower new) (by simp) (by simp) ?_ hord hlo
                  have : dget (view g x).loops n = some (g.lists a) := by
                    show dget (follow g.lists x.loops) n = _
                    rw [dget_follow, hg]
                    rfl
                  simp only [this]
                  exact hm
                apply hmem
                simp [Heap.setList]

end

section
attribute [local instance] asciiFold

private def ea : Str := "_a".toList
private def eb : Str := "_b".toList
private def ec : Str := "_c".toList
private def col (a b : String) : PyVal := .list [.str a.toList, .str b.toList]

/-- Three columns, two of them in a loop. -/
private def eops : List Op := [.add ea (col "1" "2") false, .add eb (col "3" "4") false, .add ec (col "5" "6") false,
  .createLoop [ea, eb] (-1) true]

private def h0 : Heap := ⟨fun _ => (.none, .none), fun _ => [], 0⟩
private def w0 : World := World.run ⟨h0, {}, {}⟩ (eops.map fun o => (true, o))

private theorem own0 : Own w0.heap w0.a := by
  have : ∀ (l : List Op) (w : World), Own w.heap w.a → Own (World.run w (l.map fun o => (true, o))).heap (World.run w (l.map fun o => (true, o))).a := by
    intro l
    induction l with
    | nil => exact fun _ h => h
    | cons o r ih => exact fun w h => ih (w.step true o) (step_does h o).own
  exact this eops _ (own_empty ⟨rfl, rfl⟩)

private theorem view0 : view w0.heap w0.a = (view h0 {}).run eops :=
  (C96_independent h0 {} {} ⟨rfl, rfl⟩ ⟨rfl, rfl⟩ (eops.map fun o => (true, o))).1

private theorem reach0 : Reachable (view w0.heap w0.a) := by
  rw [view0]
  refine .step _ (.createLoop [ea, eb] (-1) true) (.step _ (.add ec _ _) (.step _ (.add eb _ _) (.step _ (.add ea _ _) (.fresh _ ⟨rfl, rfl, rfl, rfl⟩) ?_) ?_) ?_) ?_
  · show lower _ ≠ saves; decide +kernel
  · show lower _ ≠ saves; decide +kernel
  · show lower _ ≠ saves; decide +kernel
  · exact ⟨by decide +kernel, .inl rfl⟩

/-- The example block prints its loop and the item that is not looped. -/
example : (view w0.heap w0.a).printed = [ec, ea, eb] := by decide +kernel
/-- Two blocks with calls on both. -/
example : (view ((World.mk h0 {} {}).run [(true, .add ea (.str "x".toList) false), (false, .add eb (.str "y".toList) false), (true, .remove ea)]).heap
    ((World.mk h0 {} {}).run [(true, .add ea (.str "x".toList) false), (false, .add eb (.str "y".toList) false), (true, .remove ea)]).b).lookup eb = some (.str "y".toList) := by
  decide +kernel
/-- `C97_mild_partial`: a value replaced on one side, an item removed on the other. -/
example : view ((World.mk w0.heap w0.a (copyOf w0.a)).run [(true, .add ea (col "7" "8") false), (false, .remove ec)]).heap
    ((World.mk w0.heap w0.a (copyOf w0.a)).run [(true, .add ea (col "7" "8") false), (false, .remove ec)]).b = (view w0.heap (copyOf w0.a)).run [.remove ec] :=
  (C97_mild_partial w0.heap w0.a own0 [(true, .add ea (col "7" "8") false), (false, .remove ec)] ⟨trivial, (by decide +kernel : (view (w0.step true (.add ea (col "7" "8") false)).heap (copyOf w0.a)).loopOf ec = []), trivial⟩).2
/-- `C97_remove_fails`. -/
example : ea ∉ (view (hRemoveItem w0.heap (copyOf w0.a) ea).1 w0.a).printed :=
  (C97_remove_fails w0.heap w0.a own0 reach0 ea (by decide +kernel)).2.2.2
/-- `C97_move_fails`: the original now begins its loop with `_b`. -/
example : (view (hChangeItemOrder w0.heap (copyOf w0.a) (.name eb) 0).1 w0.a).printed = [ec, eb, ea] := by
  rw [C97_move_fails w0.heap w0.a own0 eb 0 (by decide +kernel), view0]
  decide +kernel
/-- `C97_packet_fails`: the original has lost a packet. -/
example : (view (hRemoveKeyedPacket w0.heap (copyOf w0.a) ea (.str "1".toList)).1 w0.a).lookup eb = some (.list [.str "4".toList]) := by
  rw [C97_packet_fails w0.heap w0.a own0, view0]
  decide +kernel
/-- `C97_loop_fails`. -/
example : eb ∉ (view (hCreateLoop w0.heap (copyOf w0.a) [eb, ec] (-1) true).1 w0.a).printed :=
  (C97_loop_fails w0.heap w0.a own0 reach0 [eb, ec] (-1) true (by decide +kernel) eb (by decide +kernel) (by decide +kernel)).2.2
/-- `C97_loop_name_fails`. -/
example : ¬ (view (hAddLoopName w0.heap (copyOf w0.a) ea ec).1 w0.a).printed.Nodup :=
  (C97_loop_name_fails w0.heap w0.a reach0 ea ec (by decide +kernel) (by decide +kernel)).2
/-- Where C97 fails: adding a packet to a loop of the copy lengthens the columns of the original. -/
theorem C97_add_packet_fails : (hAddPacket w0.heap (copyOf w0.a) 1 ⟨[], [(ea, .str "8".toList), (eb, .str "9".toList)]⟩).2.2 = .ok () ∧
    (view w0.heap w0.a).lookup eb = some (col "3" "4") ∧
    (view (hAddPacket w0.heap (copyOf w0.a) 1 ⟨[], [(ea, .str "8".toList), (eb, .str "9".toList)]⟩).1 w0.a).lookup eb =
      some (.list [.str "3".toList, .str "4".toList, .str "9".toList]) := by
  decide +kernel
end
end Verif.Alias
