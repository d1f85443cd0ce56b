import Verif.Model.Alias
import Verif.Lemmas.Block
import Verif.Spec.Block
import Verif.Spec.Alias
/-! Calls on blocks in a heap are calls on the blocks as they appear. -/
namespace Verif.Alias
open Block
set_option linter.unusedSectionVars false

section follow
variable {α β : Type} [DecidableEq α]

theorem dkeys_follow (f : Nat → β) (d : Dict α Nat) : dkeys (follow f d) = dkeys d := by
  simp [dkeys, follow, Function.comp_def]

theorem dget_follow (f : Nat → β) (d : Dict α Nat) (k : α) : dget (follow f d) k = (dget d k).map f := by
  induction d with
  | nil => rfl
  | cons p r ih =>
    obtain ⟨a, b⟩ := p
    simp only [follow, List.map_cons, dget]
    by_cases h : a = k
    · simp [h]
    · simp only [h, if_false]; exact ih

theorem ddel_follow (f : Nat → β) (d : Dict α Nat) (k : α) : ddel (follow f d) k = follow f (ddel d k) := by
  unfold ddel follow
  rw [List.filter_map]
  rfl

theorem dset_follow (f : Nat → β) (d : Dict α Nat) (k : α) (a : Nat) : dset (follow f d) k (f a) = follow f (dset d k a) := by
  induction d with
  | nil => rfl
  | cons p r ih =>
    obtain ⟨b, c⟩ := p
    simp only [follow, List.map_cons, dset]
    by_cases h : b = k
    · simp [h]
    · simp only [h, if_false, List.map_cons]
      rw [← follow, ih]
      rfl

theorem follow_congr {f g : Nat → β} {d : Dict α Nat} (h : ∀ a ∈ d.map (·.2), f a = g a) : follow f d = follow g d := by
  unfold follow
  apply List.map_congr_left
  intro p hp
  rw [h p.2 (List.mem_map_of_mem hp)]

theorem mem_vals_of_dget {d : Dict α Nat} {k : α} {a : Nat} (h : dget d k = some a) : a ∈ d.map (·.2) :=
  List.mem_map.mpr ⟨(k, a), dget_mem h, rfl⟩

/-- Writing to the object of one key. -/
theorem follow_write {f : Nat → β} {d : Dict α Nat} {k : α} {a : Nat} (v : β) (hk : (dkeys d).Nodup) (hv : (d.map (·.2)).Nodup)
    (h : dget d k = some a) : follow (fun n => if n = a then v else f n) d = dset (follow f d) k v := by
  induction d with
  | nil => simp [dget] at h
  | cons p r ih =>
    obtain ⟨b, c⟩ := p
    simp only [dkeys, List.map_cons, List.nodup_cons] at hk hv
    simp only [dget] at h
    simp only [follow, List.map_cons, dset]
    by_cases hb : b = k
    · simp only [hb, if_true, Option.some.injEq] at h ⊢
      subst h
      simp only [if_true, List.cons.injEq, true_and]
      apply List.map_congr_left
      intro p hp
      have : p.2 ≠ c := fun hh => hv.1 (hh ▸ List.mem_map_of_mem hp)
      simp [this]
    · simp only [hb, if_false] at h ⊢
      have hca : c ≠ a := fun hh => hv.1 (hh ▸ mem_vals_of_dget h)
      simp only [hca, if_false, List.cons.injEq, true_and]
      exact ih hk.2 hv.2 h

theorem vals_dset {d : Dict α Nat} {k : α} {a : Nat} : ∀ b ∈ (dset d k a).map (·.2), b = a ∨ b ∈ d.map (·.2) := by
  induction d with
  | nil => simp [dset]
  | cons p r ih =>
    obtain ⟨b, c⟩ := p
    intro x hx
    simp only [dset] at hx
    by_cases hb : b = k
    · simp only [hb, if_true, List.map_cons, List.mem_cons] at hx
      rcases hx with rfl | hx
      · exact .inl rfl
      · exact .inr (by simp [hx])
    · simp only [hb, if_false, List.map_cons, List.mem_cons] at hx
      rcases hx with rfl | hx
      · exact .inr (by simp)
      · rcases ih x hx with h | h
        · exact .inl h
        · exact .inr (List.mem_cons_of_mem _ h)

theorem nodup_vals_dset {d : Dict α Nat} {k : α} {a : Nat} (h : (d.map (·.2)).Nodup) (ha : a ∉ d.map (·.2)) :
    ((dset d k a).map (·.2)).Nodup := by
  induction d with
  | nil => simp [dset]
  | cons p r ih =>
    obtain ⟨b, c⟩ := p
    simp only [List.map_cons, List.nodup_cons, List.mem_cons, not_or] at h ha
    simp only [dset]
    by_cases hb : b = k
    · simp only [hb, if_true, List.map_cons, List.nodup_cons]
      exact ⟨ha.2, h.2⟩
    · simp only [hb, if_false, List.map_cons, List.nodup_cons]
      refine ⟨fun hm => ?_, ih h.2 ha.2⟩
      rcases vals_dset _ hm with h1 | h1
      · exact ha.1 h1.symm
      · exact h.1 h1

theorem vals_ddel {d : Dict α Nat} {k : α} : ((ddel d k).map (·.2)).Sublist (d.map (·.2)) :=
  List.Sublist.map _ List.filter_sublist

end follow

/-- What a call may do: other objects are left alone, and further objects of the block are new. -/
structure Frame (h : Heap) (x : HBlock) (h' : Heap) (x' : HBlock) : Prop where
  next : h.next ≤ h'.next
  cells : ∀ a, a < h.next → a ∉ x.block.map (·.2) → h'.cells a = h.cells a
  lists : ∀ a, a < h.next → a ∉ x.loops.map (·.2) → h'.lists a = h.lists a
  newCells : ∀ a ∈ x'.block.map (·.2), a ∈ x.block.map (·.2) ∨ h.next ≤ a
  newLists : ∀ a ∈ x'.loops.map (·.2), a ∈ x.loops.map (·.2) ∨ h.next ≤ a

theorem Frame.refl (h : Heap) (x : HBlock) : Frame h x h x :=
  ⟨Nat.le_refl _, fun _ _ _ => rfl, fun _ _ _ => rfl, fun _ => .inl, fun _ => .inl⟩

theorem Frame.trans {h h1 h2 : Heap} {x x1 x2 : HBlock} (f : Frame h x h1 x1) (g : Frame h1 x1 h2 x2) : Frame h x h2 x2 where
  next := Nat.le_trans f.next g.next
  cells a ha hn := by
    rw [g.cells a (Nat.lt_of_lt_of_le ha f.next) (fun hm => ?_), f.cells a ha hn]
    rcases f.newCells a hm with h | h
    · exact hn h
    · omega
  lists a ha hn := by
    rw [g.lists a (Nat.lt_of_lt_of_le ha f.next) (fun hm => ?_), f.lists a ha hn]
    rcases f.newLists a hm with h | h
    · exact hn h
    · omega
  newCells a ha := by
    rcases g.newCells a ha with h | h
    · exact f.newCells a h
    · exact .inr (Nat.le_trans f.next h)
  newLists a ha := by
    rcases g.newLists a ha with h | h
    · exact f.newLists a h
    · exact .inr (Nat.le_trans f.next h)

/-- A call on a block in the heap does what the call on the block as it appears does. -/
structure Does (h : Heap) (x : HBlock) (r : Res) (p : Block × Except PyErr Unit) : Prop where
  own : Own r.1 r.2.1
  frame : Frame h x r.1 r.2.1
  seen : view r.1 r.2.1 = p.1
  result : r.2.2 = p.2

theorem Does.same {h : Heap} {x : HBlock} (ho : Own h x) (r : Except PyErr Unit) : Does h x (h, x, r) (view h x, r) :=
  ⟨ho, .refl h x, rfl, rfl⟩

section
variable [CaseFold]

/-- One call after another. -/
theorem Does.bind {h h1 : Heap} {x x1 : HBlock} {r1 : Except PyErr Unit} {p : Block × Except PyErr Unit} {q : Res}
    {s : Block × Except PyErr Unit} (d : Does h x (h1, x1, r1) p) (e : Does h1 x1 q s) : Does h x q s :=
  ⟨e.own, d.frame.trans e.frame, e.seen, e.result⟩

theorem store_does {h : Heap} {x : HBlock} (ho : Own h x) (key : Str) (sv : PyVal × PyVal) :
    Own (hStore h x key sv).1 (hStore h x key sv).2 ∧ Frame h x (hStore h x key sv).1 (hStore h x key sv).2 ∧
      view (hStore h x key sv).1 (hStore h x key sv).2 = (view h x).store key sv := by
  have hfresh : h.next ∉ x.block.map (·.2) := fun hm => Nat.lt_irrefl _ (ho.cellsIn _ hm)
  refine ⟨⟨?_, ho.loops, ?_, ho.lists, ?_, ?_⟩, ⟨Nat.le_succ _, ?_, fun _ _ _ => rfl, ?_, fun _ => .inl⟩, ?_⟩
  · exact nodup_dkeys_dset _ _ _ ho.keys
  · exact nodup_vals_dset ho.cells hfresh
  · intro a ha
    rcases vals_dset a ha with rfl | ha
    · exact Nat.lt_succ_self _
    · exact Nat.lt_succ_of_lt (ho.cellsIn a ha)
  · intro a ha
    exact Nat.lt_succ_of_lt (ho.listsIn a ha)
  · intro a ha _
    have : a ≠ h.next := Nat.ne_of_lt ha
    simp [hStore, Heap.newCell, Heap.setCell, this]
  · intro a ha
    rcases vals_dset a ha with rfl | ha
    · exact .inr (Nat.le_refl _)
    · exact .inl ha
  · have h1 : follow (h.newCell sv).cells x.block = follow h.cells x.block :=
      follow_congr fun a ha => by
        have : a ≠ h.next := fun hh => hfresh (hh ▸ ha)
        simp [Heap.newCell, Heap.setCell, this]
    have h2 : (h.newCell sv).cells h.next = sv := by simp [Heap.newCell, Heap.setCell]
    unfold view hStore store
    simp only [Block.mk.injEq, and_true]
    refine ⟨?_, rfl, rfl⟩
    rw [← dset_follow, h1, h2]

theorem addItem_does {h : Heap} {x : HBlock} (ho : Own h x) (key : Str) (v : PyVal) (pre : Bool) :
    Does h x (hAddItem h x key v pre) ((view h x).addItem key v pre) := by
  unfold hAddItem addItem
  cases (view h x).addItemCheck key v pre with
  | error e => exact .same ho _
  | ok sv =>
    obtain ⟨h1, h2, h3⟩ := store_does ho key sv
    exact ⟨h1, h2, h3, rfl⟩

theorem setItem_does {h : Heap} {x : HBlock} (ho : Own h x) (key : Str) (v : PyVal) :
    Does h x (hSetItem h x key v) ((view h x).setItem key v) := by
  unfold hSetItem setItem
  by_cases hk : key = saves
  · rw [if_pos hk, if_pos hk]; exact .same ho _
  · rw [if_neg hk, if_neg hk]; exact addItem_does ho _ _ _

theorem view_setList {h : Heap} {x : HBlock} (ho : Own h x) {n a : Nat} (hg : dget x.loops n = some a) (l : List Str) :
    view (h.setList a l) x = { view h x with loops := dset (view h x).loops n l } := by
  unfold view
  simp only [Block.mk.injEq, and_true]
  exact ⟨rfl, follow_write l ho.loops ho.lists hg⟩

theorem view_setCell {h : Heap} {x : HBlock} (ho : Own h x) {k : Str} {a : Nat} (hg : dget x.block k = some a) (c : PyVal × PyVal) :
    view (h.setCell a c) x = { view h x with block := dset (view h x).block k c } := by
  unfold view
  simp only [Block.mk.injEq, and_true]
  exact ⟨follow_write c ho.keys ho.cells hg, rfl⟩

/-- A smaller block. -/
theorem own_less {h : Heap} {x x' : HBlock} (ho : Own h x) (h1 : x'.block.Sublist x.block) (h2 : x'.loops.Sublist x.loops) : Own h x' where
  keys := (List.Sublist.map _ h1).nodup ho.keys
  loops := (List.Sublist.map _ h2).nodup ho.loops
  cells := (List.Sublist.map _ h1).nodup ho.cells
  lists := (List.Sublist.map _ h2).nodup ho.lists
  cellsIn a ha := ho.cellsIn a ((List.Sublist.map _ h1).subset ha)
  listsIn a ha := ho.listsIn a ((List.Sublist.map _ h2).subset ha)

theorem own_heap {h h' : Heap} {x : HBlock} (ho : Own h x) (hn : h.next ≤ h'.next) : Own h' x :=
  { ho with
    cellsIn := fun a ha => Nat.lt_of_lt_of_le (ho.cellsIn a ha) hn
    listsIn := fun a ha => Nat.lt_of_lt_of_le (ho.listsIn a ha) hn }

theorem frame_less {h : Heap} {x x' : HBlock} (h1 : x'.block.Sublist x.block) (h2 : x'.loops.Sublist x.loops) : Frame h x h x' :=
  ⟨Nat.le_refl _, fun _ _ _ => rfl, fun _ _ _ => rfl, fun _ ha => .inl ((List.Sublist.map _ h1).subset ha),
    fun _ ha => .inl ((List.Sublist.map _ h2).subset ha)⟩

theorem frame_setList {h : Heap} {x x' : HBlock} {a : Nat} (ha : a ∈ x.loops.map (·.2)) (l : List Str)
    (h1 : x'.block.Sublist x.block) (h2 : x'.loops.Sublist x.loops) : Frame h x (h.setList a l) x' where
  next := Nat.le_refl _
  cells _ _ _ := rfl
  lists b _ hn := by
    have : b ≠ a := fun hh => hn (hh ▸ ha)
    simp [Heap.setList, this]
  newCells _ hb := .inl ((List.Sublist.map _ h1).subset hb)
  newLists _ hb := .inl ((List.Sublist.map _ h2).subset hb)

theorem ddel_dset_same {α β : Type} [DecidableEq α] (d : Dict α β) (k : α) (v : β) (hn : (dkeys d).Nodup) : ddel (dset d k v) k = ddel d k := by
  induction d with
  | nil => simp [dset, ddel]
  | cons p r ih =>
    obtain ⟨a, b⟩ := p
    simp only [dkeys, List.map_cons, List.nodup_cons] at hn
    simp only [dset]
    by_cases h : a = k
    · simp [h, ddel]
    · simp only [h, if_false]
      unfold ddel at ih ⊢
      rw [List.filter_cons_of_pos (by simp [h]), List.filter_cons_of_pos (by simp [h]), ih hn.2]

theorem removeItem_does {h : Heap} {x : HBlock} (ho : Own h x) (k : Str) :
    Does h x (hRemoveItem h x k) ((view h x).removeItem k) := by
  have hsub : (ddel x.block (lower k)).Sublist x.block := List.filter_sublist
  unfold hRemoveItem removeItem
  simp only
  by_cases hc : (view h x).contains (lower k) = true
  · rw [if_pos hc, if_pos hc]
    by_cases ht : lower k ∉ dkeys x.trueCase
    · rw [if_pos ht, if_pos (show lower k ∉ dkeys (view h x).trueCase from ht)]
      refine ⟨own_less ho hsub (List.Sublist.refl _), frame_less hsub (List.Sublist.refl _), ?_, rfl⟩
      simp only [view, ddel_follow]
    · rw [if_neg ht, if_neg (show ¬ lower k ∉ dkeys (view h x).trueCase from ht)]
      cases hf : (view h x).findLoop k with
      | none =>
        simp only
        have ho' : (view h x).order = x.order := rfl
        rw [ho']
        cases pyRemove x.order (.name (lower k)) with
        | none =>
          refine ⟨own_less ho hsub (List.Sublist.refl _), frame_less hsub (List.Sublist.refl _), ?_, rfl⟩
          simp only [view, ddel_follow]
        | some o =>
          refine ⟨own_less ho hsub (List.Sublist.refl _), frame_less hsub (List.Sublist.refl _), ?_, rfl⟩
          simp only [view, ddel_follow]
      | some n =>
        simp only
        have hl : dget (view h x).loops n = (dget x.loops n).map h.lists := dget_follow _ _ _
        rw [hl]
        cases hg : dget x.loops n with
        | none =>
          simp only [Option.map_none]
          refine ⟨own_less ho hsub (List.Sublist.refl _), frame_less hsub (List.Sublist.refl _), ?_, rfl⟩
          simp only [view, ddel_follow]
        | some a =>
          simp only [Option.map_some]
          have hav := mem_vals_of_dget hg
          cases pyRemove (h.lists a) (lower k) with
          | none =>
            refine ⟨own_less ho hsub (List.Sublist.refl _), frame_less hsub (List.Sublist.refl _), ?_, rfl⟩
            simp only [view, ddel_follow]
          | some l' =>
            simp only
            have hw := follow_write (f := h.lists) l' ho.loops ho.lists hg
            by_cases hnil : l' = []
            · rw [if_pos hnil, if_pos hnil]
              have ho' : (view h x).order = x.order := rfl
              rw [ho']
              have hsub2 : (ddel x.loops n).Sublist x.loops := List.filter_sublist
              have hv : follow (h.setList a l').lists (ddel x.loops n) = ddel (follow h.lists x.loops) n := by
                rw [← ddel_follow]
                show ddel (follow (fun m => if m = a then l' else h.lists m) x.loops) n = _
                rw [hw, ddel_dset_same _ _ _ (by rw [dkeys_follow]; exact ho.loops)]
              cases pyRemove x.order (.loop n) with
              | none =>
                refine ⟨own_less (own_heap ho (Nat.le_refl _)) hsub hsub2, frame_setList hav l' hsub hsub2, ?_, rfl⟩
                simp only [view, hv, ddel_follow]
                rfl
              | some o =>
                refine ⟨own_less (own_heap ho (Nat.le_refl _)) hsub hsub2, frame_setList hav l' hsub hsub2, ?_, rfl⟩
                simp only [view, hv, ddel_follow]
                rfl
            · rw [if_neg hnil, if_neg hnil]
              refine ⟨own_less (own_heap ho (Nat.le_refl _)) hsub (List.Sublist.refl _),
                frame_setList hav l' hsub (List.Sublist.refl _), ?_, rfl⟩
              have hv : follow (h.setList a l').lists x.loops = dset (follow h.lists x.loops) n l' := hw
              simp only [view, hv, ddel_follow]
              rfl
  · rw [if_neg hc, if_neg hc]; exact .same ho _

theorem wrapAll_does : ∀ (ns : List Str) {h : Heap} {x : HBlock}, Own h x → Does h x (hWrapAll h x ns) ((view h x).wrapAll ns)
  | [], _, _, ho => .same ho _
  | d :: ds, h, x, ho => by
    rw [hWrapAll, wrapAll]
    cases (view h x).getItem d with
    | error e => exact .same ho _
    | ok v =>
      simp only
      have hs := setItem_does ho d (.list [v])
      generalize hSetItem h x d (.list [v]) = q at hs ⊢
      generalize (view h x).setItem d (.list [v]) = s at hs ⊢
      obtain ⟨h1, x1, r⟩ := q
      obtain ⟨b1, r'⟩ := s
      obtain rfl : r = r' := hs.result
      obtain rfl : view h1 x1 = b1 := hs.seen
      cases r with
      | error e => exact hs
      | ok u => cases u; exact hs.bind (wrapAll_does ds hs.own)

theorem createLoopCheck_does {h : Heap} {x : HBlock} (ho : Own h x) (ns : List Str) :
    Does h x (hCreateLoopCheck h x ns) ((view h x).createLoopCheck ns) := by
  unfold hCreateLoopCheck createLoopCheck
  cases (view h x).getAll ns with
  | error e => exact .same ho _
  | ok vs =>
    simp only
    by_cases h1 : (vs.filter PyVal.isColumn).length = ns.length
    · rw [if_pos h1, if_pos h1]
      split
      · exact .same ho _
      · exact .same ho _
    · rw [if_neg h1, if_neg h1]
      split
      · exact .same ho _
      · exact wrapAll_does ns ho

theorem dropEmpty_does (h : Heap) : ∀ (ns : List Nat) (x : HBlock),
    view h (hDropEmpty x ns).1 = ((view h x).dropEmpty ns).1 ∧ (hDropEmpty x ns).2 = ((view h x).dropEmpty ns).2 ∧
      (hDropEmpty x ns).1.block = x.block ∧ (hDropEmpty x ns).1.loops.Sublist x.loops
  | [], x => ⟨rfl, rfl, rfl, List.Sublist.refl _⟩
  | a :: r, x => by
    rw [hDropEmpty, dropEmpty]
    have ho' : (view h x).order = x.order := rfl
    rw [ho']
    cases pyRemove x.order (.loop a) with
    | none => exact ⟨rfl, rfl, rfl, List.Sublist.refl _⟩
    | some o =>
      simp only
      obtain ⟨h1, h2, h3, h4⟩ := dropEmpty_does h r { x with order := o, loops := ddel x.loops a }
      have hv : view h { x with order := o, loops := ddel x.loops a } = { view h x with order := o, loops := ddel (view h x).loops a } := by
        simp only [view, ddel_follow]
      rw [← hv]
      exact ⟨h1, h2, h3, h4.trans List.filter_sublist⟩

theorem view_dropNames (h : Heap) (x : HBlock) (ns : List Str) :
    view (dropNames h (x.loops.map (·.2)) ns) x = { view h x with loops := dropFromLoops (view h x).loops ns } := by
  unfold view
  simp only [Block.mk.injEq, and_true]
  refine ⟨rfl, ?_⟩
  unfold dropFromLoops follow
  rw [List.map_map]
  apply List.map_congr_left
  intro p hp
  have : p.2 ∈ x.loops.map (·.2) := List.mem_map_of_mem hp
  simp only [dropNames, this, if_true, Function.comp]

theorem frame_dropNames (h : Heap) (x : HBlock) (ns : List Str) : Frame h x (dropNames h (x.loops.map (·.2)) ns) x where
  next := Nat.le_refl _
  cells _ _ _ := rfl
  lists a _ hn := by simp only [dropNames, hn, if_false]
  newCells _ := .inl
  newLists _ := .inl

theorem makeLoop_does {h : Heap} {x : HBlock} (ho : Own h x) (ns : List Str) (o : Int) :
    Does h x (hMakeLoop h x ns o) ((view h x).makeLoop ns o) := by
  have hv := view_dropNames h x (ns.map lower)
  have hf := frame_dropNames h x (ns.map lower)
  have ho1 : Own (dropNames h (x.loops.map (·.2)) (ns.map lower)) x := own_heap ho (Nat.le_refl _)
  unfold hMakeLoop makeLoop
  simp only
  have hv2 : dropFromLoops (view h x).loops (ns.map lower) = (view (dropNames h (x.loops.map (·.2)) (ns.map lower)) x).loops := by rw [hv]
  rw [← hv, hv2]
  clear hv hv2
  generalize dropNames h (x.loops.map (·.2)) (ns.map lower) = h1 at hf ho1 ⊢
  obtain ⟨d1, d2, d3, d4⟩ := dropEmpty_does h1 (((view h1 x).loops.filter fun p : Nat × List Str => decide (p.2.length = 0)).map fun p : Nat × List Str => p.1) x
  generalize hDropEmpty x (((view h1 x).loops.filter fun p : Nat × List Str => decide (p.2.length = 0)).map fun p : Nat × List Str => p.1) = q at d1 d2 d3 d4 ⊢
  generalize (view h1 x).dropEmpty (((view h1 x).loops.filter fun p : Nat × List Str => decide (p.2.length = 0)).map fun p : Nat × List Str => p.1) = s at d1 d2 ⊢
  obtain ⟨x2, r⟩ := q
  obtain ⟨b2, r'⟩ := s
  simp only at d1 d2 d3 d4
  subst d2
  subst d1
  have ho2 : Own h1 x2 := own_less ho1 (d3 ▸ List.Sublist.refl _) d4
  have hf2 : Frame h x h1 x2 := hf.trans (frame_less (d3 ▸ List.Sublist.refl _) d4)
  cases r with
  | error e => exact ⟨ho2, hf2, rfl, rfl⟩
  | ok u =>
    cases u
    simp only
    have hfresh : h1.next ∉ x2.loops.map (·.2) := fun hm => Nat.lt_irrefl _ (ho2.listsIn _ hm)
    generalize newLoopNo (view h1 x2).loops = n
    have hfr : ∀ o', Frame h1 x2 (h1.newList (ns.map lower)) { x2 with loops := dset x2.loops n h1.next, order := o' } := by
      intro o'
      refine ⟨Nat.le_succ _, fun _ _ _ => rfl, ?_, fun _ => .inl, ?_⟩
      · intro a ha _
        have : a ≠ h1.next := Nat.ne_of_lt ha
        simp [Heap.newList, Heap.setList, this]
      · intro a ha
        rcases vals_dset a ha with rfl | ha
        · exact .inr (Nat.le_refl _)
        · exact .inl ha
    refine ⟨⟨ho2.keys, nodup_dkeys_dset _ _ _ ho2.loops, ho2.cells, nodup_vals_dset ho2.lists hfresh, ?_, ?_⟩, hf2.trans (hfr _), ?_, rfl⟩
    · intro a ha
      exact Nat.lt_succ_of_lt (ho2.cellsIn a ha)
    · intro a ha
      rcases vals_dset a ha with rfl | ha
      · exact Nat.lt_succ_self _
      · exact Nat.lt_succ_of_lt (ho2.listsIn a ha)
    · have e1 : follow (h1.newList (ns.map lower)).lists x2.loops = follow h1.lists x2.loops :=
        follow_congr fun a ha => by
          have : a ≠ h1.next := fun hh => hfresh (hh ▸ ha)
          simp [Heap.newList, Heap.setList, this]
      have e2 : (h1.newList (ns.map lower)).lists h1.next = ns.map lower := by simp [Heap.newList, Heap.setList]
      unfold view
      simp only [Block.mk.injEq, and_true]
      refine ⟨rfl, ?_, rfl⟩
      rw [← dset_follow, e1, e2]

theorem createLoop_does {h : Heap} {x : HBlock} (ho : Own h x) (ns : List Str) (o : Int) (lc : Bool) :
    Does h x (hCreateLoop h x ns o lc) ((view h x).createLoop ns o lc) := by
  unfold hCreateLoop createLoop
  cases lc with
  | false => exact makeLoop_does ho ns o
  | true =>
    simp only [if_true]
    have hs := createLoopCheck_does ho ns
    generalize hCreateLoopCheck h x ns = q at hs ⊢
    generalize (view h x).createLoopCheck ns = s at hs ⊢
    obtain ⟨h1, x1, r⟩ := q
    obtain ⟨b1, r'⟩ := s
    obtain rfl : r = r' := hs.result
    obtain rfl : view h1 x1 = b1 := hs.seen
    cases r with
    | error e => exact hs
    | ok u => cases u; exact hs.bind (makeLoop_does hs.own ns o)

theorem addLoopName_does {h : Heap} {x : HBlock} (ho : Own h x) (o n : Str) :
    Does h x (hAddLoopName h x o n) ((view h x).addLoopName o n) := by
  unfold hAddLoopName addLoopName
  simp only
  cases (view h x).findLoop o with
  | none => exact .same ho _
  | some m =>
    simp only
    have hl : dget (view h x).loops m = (dget x.loops m).map h.lists := dget_follow _ _ _
    rw [hl]
    cases hg : dget x.loops m with
    | none => exact .same ho _
    | some a =>
      simp only [Option.map_some]
      by_cases hk : lower n ∈ h.lists a
      · rw [if_pos hk, if_pos hk]; exact .same ho _
      · rw [if_neg hk, if_neg hk]
        cases (view h x).getItem o with
        | error e => exact .same ho _
        | ok ov =>
          simp only
          cases ov.pyLen with
          | error e => exact .same ho _
          | ok len =>
            simp only
            cases (view h x).getItem n with
            | error e => exact .same ho _
            | ok nv =>
              simp only
              cases nv.pyLen with
              | error e => exact .same ho _
              | ok len' =>
                simp only
                by_cases hne : len' ≠ len
                · rw [if_pos hne, if_pos hne]; exact .same ho _
                · rw [if_neg hne, if_neg hne]
                  have hav := mem_vals_of_dget hg
                  have hf := frame_dropNames h x [lower n]
                  have hv := view_dropNames h x [lower n]
                  have ho1 : Own (dropNames h (x.loops.map (·.2)) [lower n]) x := own_heap ho (Nat.le_refl _)
                  have hla : (dropNames h (x.loops.map (·.2)) [lower n]).lists a = h.lists a := by
                    simp only [dropNames, hav, if_true, List.foldl_cons, List.foldl_nil]
                    exact pyErase_of_not_mem hk
                  rw [hla]
                  generalize dropNames h (x.loops.map (·.2)) [lower n] = h1 at hf hv ho1
                  have hsl := view_setList ho1 hg (h.lists a ++ [lower n])
                  refine ⟨own_less (own_heap ho1 (Nat.le_refl _)) (List.Sublist.refl _) (List.Sublist.refl _),
                    hf.trans (frame_setList hav _ (List.Sublist.refl _) (List.Sublist.refl _)), ?_, rfl⟩
                  have : view (h1.setList a (h.lists a ++ [lower n])) { x with order := pyErase x.order (.name (lower n)) } =
                      { view (h1.setList a (h.lists a ++ [lower n])) x with order := pyErase x.order (.name (lower n)) } := rfl
                  simp only
                  rw [this, hsl, hv]
                  rfl

theorem changeItemOrder_does {h : Heap} {x : HBlock} (ho : Own h x) (r : Ref) (p : Int) :
    Does h x (hChangeItemOrder h x r p) ((view h x).changeItemOrder r p) := by
  unfold hChangeItemOrder changeItemOrder
  have ho' : (view h x).order = x.order := rfl
  cases r with
  | loop n =>
    simp only [ho']
    have hl : (view h x).loops ≠ [] ↔ x.loops ≠ [] := by simp [view, follow]
    by_cases hn : x.loops ≠ []
    · rw [if_pos hn, if_pos (hl.mpr hn)]; exact .same ho _
    · rw [if_neg hn, if_neg (fun hh => hn (hl.mp hh))]
      cases pyRemove x.order (.loop n) with
      | none => exact .same ho _
      | some o =>
        exact ⟨own_less ho (List.Sublist.refl _) (List.Sublist.refl _), frame_less (List.Sublist.refl _) (List.Sublist.refl _), rfl, rfl⟩
  | name s =>
    simp only [ho']
    cases (view h x).findLoop (lower s) with
    | none =>
      simp only
      cases pyRemove x.order (.name (lower s)) with
      | none => exact .same ho _
      | some o =>
        exact ⟨own_less ho (List.Sublist.refl _) (List.Sublist.refl _), frame_less (List.Sublist.refl _) (List.Sublist.refl _), rfl, rfl⟩
    | some n =>
      simp only
      have hl : dget (view h x).loops n = (dget x.loops n).map h.lists := dget_follow _ _ _
      rw [hl]
      cases hg : dget x.loops n with
      | none => exact .same ho _
      | some a =>
        simp only [Option.map_some]
        cases pyRemove (h.lists a) (lower s) with
        | none => exact .same ho _
        | some l' =>
          exact ⟨own_heap ho (Nat.le_refl _), frame_setList (mem_vals_of_dget hg) _ (List.Sublist.refl _) (List.Sublist.refl _),
            view_setList ho hg _, rfl⟩

theorem frame_setCell {h : Heap} {x : HBlock} {a : Nat} (ha : a ∈ x.block.map (·.2)) (c : PyVal × PyVal) : Frame h x (h.setCell a c) x where
  next := Nat.le_refl _
  lists _ _ _ := rfl
  cells b _ hn := by
    have : b ≠ a := fun hh => hn (hh ▸ ha)
    simp [Heap.setCell, this]
  newCells _ := .inl
  newLists _ := .inl

theorem removeRow_does (i : Nat) : ∀ (ns : List Str) {h : Heap} {x : HBlock}, Own h x →
    Does h x (hRemoveRow h x i ns) ((view h x).removeRow i ns)
  | [], _, _, ho => .same ho _
  | d :: ds, h, x, ho => by
    rw [hRemoveRow, removeRow]
    have hl : dget (view h x).block d = (dget x.block d).map h.cells := dget_follow _ _ _
    rw [hl]
    cases hg : dget x.block d with
    | none => exact .same ho _
    | some a =>
      have hav := mem_vals_of_dget hg
      simp only [Option.map_some]
      cases delAt (h.cells a).1 i with
      | error e =>
        exact ⟨own_heap ho (Nat.le_refl _), frame_setCell hav _, view_setCell ho hg _, rfl⟩
      | ok s' =>
        simp only
        cases delAt (h.cells a).2 i with
        | error e =>
          exact ⟨own_heap ho (Nat.le_refl _), frame_setCell hav _, view_setCell ho hg _, rfl⟩
        | ok v' =>
          simp only
          have ho1 : Own (h.setCell a (s', v')) x := own_heap ho (Nat.le_refl _)
          have := removeRow_does i ds ho1
          rw [view_setCell ho hg] at this
          exact ⟨this.own, (frame_setCell hav _).trans this.frame, this.seen, this.result⟩

theorem removeKeyedPacket_does {h : Heap} {x : HBlock} (ho : Own h x) (k : Str) (v : PyVal) :
    Does h x (hRemoveKeyedPacket h x k v) ((view h x).removeKeyedPacket k v) := by
  unfold hRemoveKeyedPacket removeKeyedPacket
  cases (view h x).getItem k with
  | error e => exact .same ho _
  | ok col =>
    simp only
    cases pyIter col with
    | error e => exact .same ho _
    | ok l =>
      simp only
      by_cases hm : v ∈ l
      · rw [if_pos hm, if_pos hm]
        cases (view h x).findLoop k with
        | none => exact .same ho _
        | some n =>
          simp only
          cases dget (view h x).loops n with
          | none => exact .same ho _
          | some names => exact removeRow_does _ names ho
      · rw [if_neg hm, if_neg hm]; exact .same ho _

/-- Appending in place. -/
theorem append_does {h : Heap} {x : HBlock} (ho : Own h x) (d : Str) (v : PyVal) :
    Own (hAppend h x d v).1 x ∧ Frame h x (hAppend h x d v).1 x ∧ view (hAppend h x d v).1 x = ((view h x).appendInPlace d v).1 ∧
      (hAppend h x d v).2 = ((view h x).appendInPlace d v).2 := by
  unfold hAppend appendInPlace
  have hl : dget (view h x).block (lower d) = (dget x.block (lower d)).map h.cells := dget_follow _ _ _
  rw [hl]
  cases hg : dget x.block (lower d) with
  | none => exact ⟨ho, .refl _ _, rfl, rfl⟩
  | some a =>
    have hav := mem_vals_of_dget hg
    simp only [Option.map_some]
    cases (view h x).getItem d with
    | error e => exact ⟨ho, .refl _ _, rfl, rfl⟩
    | ok w =>
      cases w with
      | list l =>
        simp only
        split
        · exact ⟨own_heap ho (Nat.le_refl _), frame_setCell hav _, view_setCell ho hg _, rfl⟩
        · exact ⟨own_heap ho (Nat.le_refl _), frame_setCell hav _, view_setCell ho hg _, rfl⟩
      | slist l =>
        simp only
        split
        · exact ⟨own_heap ho (Nat.le_refl _), frame_setCell hav _, view_setCell ho hg _, rfl⟩
        · exact ⟨own_heap ho (Nat.le_refl _), frame_setCell hav _, view_setCell ho hg _, rfl⟩
      | none => exact ⟨ho, .refl _ _, rfl, rfl⟩
      | num _ => exact ⟨ho, .refl _ _, rfl, rfl⟩
      | str _ => exact ⟨ho, .refl _ _, rfl, rfl⟩
      | sdict _ => exact ⟨ho, .refl _ _, rfl, rfl⟩

theorem addPacketFrom_does (p : Packet) : ∀ (ns : List Str) {h : Heap} {x : HBlock}, Own h x →
    Does h x (hAddPacketFrom h x p ns) ((view h x).addPacketFrom p ns)
  | [], _, _, ho => .same ho _
  | d :: ds, h, x, ho => by
    rw [hAddPacketFrom, addPacketFrom]
    cases (view h x).getItem d with
    | error e => exact .same ho _
    | ok w =>
      simp only
      cases dget p.attrs d with
      | none => exact .same ho _
      | some v =>
        simp only
        obtain ⟨a1, a2, a3, a4⟩ := append_does ho d v
        generalize hAppend h x d v = q at a1 a2 a3 a4 ⊢
        generalize (view h x).appendInPlace d v = s at a3 a4 ⊢
        obtain ⟨h1, r⟩ := q
        obtain ⟨b1, r'⟩ := s
        simp only at a1 a2 a3 a4
        subst a4
        subst a3
        cases r with
        | error e => exact ⟨a1, a2, rfl, rfl⟩
        | ok l' =>
          simp only
          have hs := setItem_does a1 d l'
          generalize hSetItem h1 x d l' = q at hs ⊢
          generalize (view h1 x).setItem d l' = s at hs ⊢
          obtain ⟨h2, x2, r⟩ := q
          obtain ⟨b2, r'⟩ := s
          obtain rfl : r = r' := hs.result
          obtain rfl : view h2 x2 = b2 := hs.seen
          cases r with
          | error e => exact ⟨hs.own, a2.trans hs.frame, rfl, rfl⟩
          | ok u =>
            cases u
            have := addPacketFrom_does p ds hs.own
            exact ⟨this.own, (a2.trans hs.frame).trans this.frame, this.seen, this.result⟩

theorem addPacket_does {h : Heap} {x : HBlock} (ho : Own h x) (n : Nat) (p : Packet) :
    Does h x (hAddPacket h x n p) ((view h x).addPacket n p) := by
  unfold hAddPacket addPacket
  cases dget (view h x).loops n with
  | none => exact .same ho _
  | some names => exact addPacketFrom_does p names ho

end
end Verif.Alias
