import Verif.Model.Order
import Verif.Props.BlockMerge
/-! # C25, C26: print order -/
set_option linter.unusedSectionVars false
namespace Verif.Block
variable [CaseFold]

theorem mem_reorder {req names : List Str} {s : Str} : s ∈ reorder req names ↔ s ∈ names := by
  unfold reorder
  simp only [List.mem_append, List.mem_filter, decide_eq_true_eq]
  by_cases h1 : s ∈ names <;> by_cases h2 : s ∈ req <;> simp [h1, h2]

theorem nodup_reorder {req names : List Str} (hr : req.Nodup) (hn : names.Nodup) : (reorder req names).Nodup := by
  unfold reorder
  simp only
  rw [List.nodup_append]
  refine ⟨hr.filter _, hn.filter _, ?_⟩
  rintro a ha b hb rfl
  rw [List.mem_filter] at hb
  simp only [decide_eq_true_eq] at hb
  exact hb.2 ha

theorem perm_of_nodup_mem {α : Type} {l l' : List α} (h : l.Nodup) (h' : l'.Nodup) (hm : ∀ x, x ∈ l ↔ x ∈ l') : l.Perm l' :=
  (List.perm_ext_iff_of_nodup h h').mpr hm

theorem reorder_perm {req names : List Str} (hr : req.Nodup) (hn : names.Nodup) : (reorder req names).Perm names :=
  perm_of_nodup_mem (nodup_reorder hr hn) hn fun _ => mem_reorder

theorem reorder_none {req names : List Str} (h : ∀ s ∈ req, s ∉ names) : reorder req names = names := by
  unfold reorder
  have : req.filter (fun i => decide (i ∈ names)) = [] := by
    rw [List.filter_eq_nil_iff]; intro s hs; simpa using h s hs
  simp only [this]
  rw [List.nil_append, List.filter_eq_self]
  intro x _; simp

/-- The place in the print order that a data name stands for: itself, or its loop. -/
def placeOf (b : Block) (s : Str) : Option Ref :=
  if b.contains s = true then
    match b.findLoop s with
    | some n => some (.loop n)
    | none => some (.name (lower s))
  else none

/-- The loops of the block with those reordered whose number is in `new`. -/
def partly (b : Block) (req : List Str) (new : List Ref) : Block :=
  { b with loops := b.loops.map fun p => (p.1, if Ref.loop p.1 ∈ new then reorder req p.2 else p.2) }

theorem findLoop_partly (b : Block) (req : List Str) (new : List Ref) (s : Str) :
    (partly b req new).findLoop s = b.findLoop s := by
  unfold findLoop partly
  simp only
  rw [List.find?_map]
  have : ((fun p : Nat × List Str => decide (lower s ∈ p.2)) ∘ fun p : Nat × List Str => (p.1, if Ref.loop p.1 ∈ new then reorder req p.2 else p.2))
      = fun p => decide (lower s ∈ p.2) := by
    funext p
    simp only [Function.comp]
    split
    · simp only [mem_reorder]
    · rfl
  rw [this]
  cases List.find? (fun p => decide (lower s ∈ p.2)) b.loops <;> rfl

theorem dkeys_partly (b : Block) (req : List Str) (new : List Ref) : dkeys (partly b req new).loops = dkeys b.loops := by
  simp [partly, dkeys, Function.comp_def]

theorem dget_partly {b : Block} {req : List Str} {new : List Ref} (n : Nat) :
    dget (partly b req new).loops n = (dget b.loops n).map fun l => if Ref.loop n ∈ new then reorder req l else l := by
  unfold partly
  simp only
  induction b.loops with
  | nil => rfl
  | cons p r ih =>
    obtain ⟨a, l⟩ := p
    simp only [List.map_cons, dget]
    by_cases e : a = n
    · subst e; rw [if_pos rfl, if_pos rfl]; rfl
    · rw [if_neg e, if_neg e]; exact ih

theorem partly_dset {b : Block} (hw : WF b) {req : List Str} {new : List Ref} {n : Nat} {l : List Str}
    (hl : dget b.loops n = some l) (hn : Ref.loop n ∉ new) :
    { partly b req new with loops := dset (partly b req new).loops n (reorder req l) } = partly b req (new ++ [.loop n]) := by
  have hk : n ∈ dkeys (partly b req new).loops := by rw [dkeys_partly]; exact dget_isSome.mp ⟨l, hl⟩
  have hnd : (dkeys (partly b req new).loops).Nodup := by rw [dkeys_partly]; exact hw.loopsNodup
  rw [dset_map_of_nodup _ _ _ hnd hk]
  unfold partly
  simp only [List.map_map]
  congr 1
  apply List.map_congr_left
  rintro ⟨a, m⟩ hm
  simp only [Function.comp]
  by_cases e : a = n
  · subst e
    have : m = l := by
      have := dget_of_mem hw.loopsNodup hm
      rw [hl] at this; simpa using this.symm
    subst this
    simp
  · have h1 : (Ref.loop a ∈ new ++ [Ref.loop n]) ↔ Ref.loop a ∈ new := by simp [e]
    simp only [h1, e, if_false]

theorem orderStep_eq {b : Block} (hw : WF b) {req : List Str} {new : List Ref} {i : Str} :
    orderStep req (partly b req new) new i = .ok (match placeOf b i with
      | none => (partly b req new, new)
      | some (.name s) => (partly b req (new ++ [.name s]), new ++ [.name s])
      | some (.loop n) => if Ref.loop n ∈ new then (partly b req new, new) else (partly b req (new ++ [.loop n]), new ++ [.loop n])) := by
  have hpn : ∀ s, partly b req (new ++ [Ref.name s]) = partly b req new := by
    intro s; unfold partly; congr 1
    apply List.map_congr_left; intro p _; simp
  unfold orderStep placeOf
  by_cases h1 : Ref.name (lower i) ∈ b.order
  · obtain ⟨h2, h3⟩ := (hw.orderName _).mp h1
    rw [if_pos (show Ref.name (lower i) ∈ (partly b req new).order from h1)]
    have hc : b.contains i = true := contains_iff.mpr h2
    rw [if_pos hc, findLoop_none.mpr h3]
    simp only [hpn]
  · rw [if_neg (show ¬ Ref.name (lower i) ∈ (partly b req new).order from h1)]
    by_cases hc : b.contains i = true
    · have hc' : (partly b req new).contains i = true := hc
      rw [if_pos hc', if_pos hc, findLoop_partly]
      cases hfl : b.findLoop i with
      | none =>
        exfalso
        exact h1 ((hw.orderName _).mpr ⟨contains_iff.mp hc, findLoop_none.mp hfl⟩)
      | some n =>
        obtain ⟨l, hl, _⟩ := findLoop_some' hw hfl
        simp only
        by_cases hin : Ref.loop n ∈ new
        · simp only [if_pos hin]
        · rw [if_neg hin, if_neg hin, dget_partly, hl]
          simp only [Option.map_some, if_neg hin]
          rw [partly_dset hw hl hin]
    · have hc' : ¬ (partly b req new).contains i = true := hc
      rw [if_neg hc', if_neg hc]

/-- The loop numbers and names `xs` stand for, in order of first mention. -/
theorem orderLoop_eq {b : Block} (hw : WF b) {req : List Str} (pre : List Str) (xs : List Str) (new : List Ref)
    (hreq : (pre ++ xs).Nodup) (hlow : ∀ s ∈ pre ++ xs, lower s = s)
    (h1 : ∀ r, r ∈ new ↔ r ∈ pre.filterMap (placeOf b))
    (h2 : new.Pairwise fun x y => ((pre ++ xs).filterMap (placeOf b)).idxOf x < ((pre ++ xs).filterMap (placeOf b)).idxOf y) :
    ∃ new', orderLoop req (partly b req new) new xs = .ok (partly b req new', new') ∧
      (∀ r, r ∈ new' ↔ r ∈ (pre ++ xs).filterMap (placeOf b)) ∧
      new'.Pairwise fun x y => ((pre ++ xs).filterMap (placeOf b)).idxOf x < ((pre ++ xs).filterMap (placeOf b)).idxOf y := by
  induction xs generalizing pre new with
  | nil => refine ⟨new, rfl, ?_, h2⟩; simpa using h1
  | cons i xs ih =>
    unfold orderLoop
    rw [orderStep_eq hw]
    have hassoc : pre ++ i :: xs = (pre ++ [i]) ++ xs := by simp
    have step : ∀ q, placeOf b i = some q → q ∉ new →
        (∀ r, r ∈ new ++ [q] ↔ r ∈ (pre ++ [i]).filterMap (placeOf b)) ∧
        (new ++ [q]).Pairwise fun x y => (((pre ++ [i]) ++ xs).filterMap (placeOf b)).idxOf x < (((pre ++ [i]) ++ xs).filterMap (placeOf b)).idxOf y := by
      intro q hq hqn
      refine ⟨?_, ?_⟩
      · intro r
        rw [List.filterMap_append, List.mem_append, List.mem_append, h1]
        simp [hq]
      · rw [List.pairwise_append]
        rw [hassoc] at h2
        refine ⟨h2, by simp, ?_⟩
        intro x hx y hy
        simp only [List.mem_singleton] at hy
        subst hy
        rw [List.filterMap_append, List.filterMap_append]
        have hx' := (h1 x).mp hx
        have hy' : y ∉ pre.filterMap (placeOf b) := fun h => hqn ((h1 y).mpr h)
        rw [List.append_assoc, List.idxOf_append, if_pos hx', List.idxOf_append, if_neg hy']
        have := List.idxOf_lt_length_iff.mpr hx'
        omega
    cases hp : placeOf b i with
    | none =>
      simp only
      rw [hassoc] at hreq hlow h2 ⊢
      refine ih (pre ++ [i]) new hreq hlow ?_ h2
      intro r; rw [List.filterMap_append, List.mem_append, h1]; simp [hp]
    | some q =>
      cases q with
      | name s =>
        simp only
        have hs : s = lower i := by
          unfold placeOf at hp
          split at hp
          · split at hp
            · simp at hp
            · simpa using hp.symm
          · simp at hp
        have hqn : Ref.name s ∉ new := by
          intro h
          obtain ⟨j, hj, hj'⟩ := List.mem_filterMap.mp ((h1 _).mp h)
          have hs' : s = lower j := by
            unfold placeOf at hj'
            split at hj'
            · split at hj'
              · simp at hj'
              · simpa using hj'.symm
            · simp at hj'
          rw [hlow i (by simp)] at hs
          rw [hlow j (by simp [hj])] at hs'
          have : i = j := hs.symm.trans hs'
          subst this
          exact (List.nodup_append.mp hreq).2.2 i hj i (by simp) rfl
        obtain ⟨e1, e2⟩ := step _ hp hqn
        rw [hassoc] at hreq hlow ⊢
        exact ih (pre ++ [i]) _ hreq hlow e1 e2
      | loop n =>
        simp only
        by_cases hin : Ref.loop n ∈ new
        · rw [if_pos hin]
          rw [hassoc] at hreq hlow h2 ⊢
          refine ih (pre ++ [i]) new hreq hlow ?_ h2
          intro r; rw [List.filterMap_append, List.mem_append, h1]; simp [hp]
          rintro rfl
          exact List.mem_filterMap.mp ((h1 _).mp hin)
        · rw [if_neg hin]
          obtain ⟨e1, e2⟩ := step _ hp hin
          rw [hassoc] at hreq hlow ⊢
          exact ih (pre ++ [i]) _ hreq hlow e1 e2

/-- The block after ordering: every loop reordered. -/
def reordered (b : Block) (req : List Str) : Block := { b with loops := b.loops.map fun p => (p.1, reorder req p.2) }

theorem partly_all {b : Block} (hw : WF b) (hf : Full b) {req : List Str} {new : List Ref} (hlow : ∀ s ∈ req, lower s = s)
    (h : ∀ r, r ∈ new ↔ r ∈ req.filterMap (placeOf b)) : partly b req new = reordered b req := by
  unfold partly reordered
  congr 1
  apply List.map_congr_left
  rintro ⟨n, l⟩ hl
  simp only
  split
  · rfl
  · rename_i hn
    rw [reorder_none]
    intro s hs hsl
    apply hn
    rw [h]
    refine List.mem_filterMap.mpr ⟨s, hs, ?_⟩
    unfold placeOf
    have hc : b.contains s = true := contains_iff.mpr (by
      rw [hlow s hs]; exact hf s (mem_allLooped.mpr ⟨n, l, hl, hsl⟩))
    rw [if_pos hc, findLoop_eq hw hl (by rw [hlow s hs]; exact hsl)]

/-- The complete order for the requested names. -/
theorem orderLoop_full {b : Block} (hw : WF b) (hf : Full b) {req : List Str} (hn : req.Nodup) (hlow : ∀ s ∈ req, lower s = s) :
    ∃ new, orderLoop req b [] req = .ok (reordered b req, new) ∧ (∀ r, r ∈ new ↔ r ∈ req.filterMap (placeOf b)) ∧
      new.Pairwise fun x y => (req.filterMap (placeOf b)).idxOf x < (req.filterMap (placeOf b)).idxOf y := by
  have h0 : partly b req [] = b := by
    unfold partly
    have : b.loops.map (fun p => (p.1, if Ref.loop p.1 ∈ ([] : List Ref) then reorder req p.2 else p.2)) = b.loops := by
      conv => rhs; rw [← List.map_id b.loops]
      apply List.map_congr_left; intro p _; simp
    rw [this]
  obtain ⟨new, h1, h2, h3⟩ := orderLoop_eq hw (req := req) [] req [] (by simpa using hn) (by simpa using hlow) (by simp) (by simp)
  rw [h0] at h1
  simp only [List.nil_append] at h2 h3
  rw [partly_all hw hf hlow h2] at h1
  exact ⟨new, h1, h2, h3⟩

theorem placeOf_mem {b : Block} (hw : WF b) {s : Str} {r : Ref} (h : placeOf b s = some r) : r ∈ b.order := by
  unfold placeOf at h
  split at h
  · rename_i hc
    split at h
    · rename_i n hn
      obtain ⟨l, hl, _⟩ := findLoop_some' hw hn
      simp only [Option.some.injEq] at h; subst h
      exact (hw.orderLoop n).mpr (dget_isSome.mp ⟨l, hl⟩)
    · rename_i hn
      simp only [Option.some.injEq] at h; subst h
      exact (hw.orderName _).mpr ⟨contains_iff.mp hc, findLoop_none.mp hn⟩
  · simp at h

theorem out_perm {b : Block} (hw : WF b) {req : List Str} {new : List Ref}
    (h2 : ∀ r, r ∈ new ↔ r ∈ req.filterMap (placeOf b))
    (h3 : new.Pairwise fun x y => (req.filterMap (placeOf b)).idxOf x < (req.filterMap (placeOf b)).idxOf y) :
    (new ++ extras b new).Nodup ∧ ∀ r, r ∈ new ++ extras b new ↔ r ∈ b.order := by
  have hnd : new.Nodup := h3.imp fun h e => by subst e; omega
  refine ⟨?_, ?_⟩
  · rw [List.nodup_append]
    refine ⟨hnd, hw.orderNodup.filter _, ?_⟩
    rintro x hx y hy rfl
    simp only [extras, List.mem_filter, decide_eq_true_eq] at hy
    exact hy.2 hx
  · intro r
    simp only [List.mem_append, extras, List.mem_filter, decide_eq_true_eq]
    constructor
    · rintro (h | h)
      · obtain ⟨s, _, hs⟩ := List.mem_filterMap.mp ((h2 r).mp h)
        exact placeOf_mem hw hs
      · exact h.1
    · intro h
      by_cases e : r ∈ new
      · exact .inl e
      · exact .inr ⟨h, e⟩

/-- A template gives distinct lower-case names. -/
theorem template_names {t : Block} (ht : Reachable t) :
    (requestedOrder (hintNames t)).Nodup ∧ ∀ s ∈ requestedOrder (hintNames t), lower s = s := by
  obtain ⟨hw, hf⟩ := reachable_wf ht
  have he : requestedOrder (hintNames t) = t.printed.filter fun h => decide (h ≠ loopMark) := by
    unfold requestedOrder hintNames printed
    induction t.order with
    | nil => rfl
    | cons r rs ih =>
      simp only [List.flatMap_cons, List.filter_append, ih]
      congr 1
      cases r with
      | name s => rfl
      | loop n =>
        simp only
        cases dget t.loops n with
        | none => rfl
        | some l => simp
  rw [he]
  refine ⟨(nodup_printed hw).filter _, ?_⟩
  intro s hs
  have := (mem_printed hw).mp (List.mem_filter.mp hs).1
  rcases this with h | h
  · exact hw.loopLower s h
  · exact hw.keysLower s h.1

/-- C25 for any list of distinct lower-case names: the order consists of the places the names stand for, in
order of first mention, followed by the rest of the block in block order; nothing is left out or repeated. In each
loop the named columns come first in the order given, the others follow in their old order, and no column is lost. -/
theorem C25_order (b : Block) (hr : Reachable b) (hints : List Str) (hn : (requestedOrder hints).Nodup)
    (hlow : ∀ s ∈ requestedOrder hints, lower s = s) :
    ∃ b' out first rest, b.createOrdering hints [] [] = .ok (b', out) ∧
      -- everything exactly once
      out.Perm b.order ∧ ({ b' with order := out } : Block).printed.Perm b.keys ∧
      -- template order, then block order
      out = first ++ rest ∧
      (∀ r, r ∈ first ↔ ∃ s ∈ requestedOrder hints, placeOf b s = some r) ∧
      first.Pairwise (fun x y => ((requestedOrder hints).filterMap (placeOf b)).idxOf x <
        ((requestedOrder hints).filterMap (placeOf b)).idxOf y) ∧
      rest = b.order.filter (fun r => decide (r ∉ first)) ∧
      -- columns, values
      b'.block = b.block ∧ b'.order = b.order ∧ dkeys b'.loops = dkeys b.loops ∧
      ∀ n l, dget b.loops n = some l → ∃ l', dget b'.loops n = some l' ∧ l'.Perm l ∧
        l' = (requestedOrder hints).filter (fun s => decide (s ∈ l)) ++ l.filter (fun s => decide (s ∉ requestedOrder hints)) := by
  obtain ⟨hw, hf⟩ := reachable_wf hr
  obtain ⟨new, h1, h2, h3⟩ := orderLoop_full hw hf hn hlow
  obtain ⟨o1, o2⟩ := out_perm hw h2 h3
  have hdg : ∀ n, dget (reordered b (requestedOrder hints)).loops n = (dget b.loops n).map (reorder (requestedOrder hints)) := by
    intro n
    unfold reordered
    simp only
    induction b.loops with
    | nil => rfl
    | cons p r ih =>
      obtain ⟨a, l⟩ := p
      simp only [List.map_cons, dget]
      by_cases e : a = n
      · subst e; rw [if_pos rfl, if_pos rfl]; rfl
      · rw [if_neg e, if_neg e]; exact ih
  have hperm : (new ++ extras b new).Perm b.order := perm_of_nodup_mem o1 hw.orderNodup o2
  refine ⟨reordered b (requestedOrder hints), new ++ extras b new, new, extras b new, ?_, hperm, ?_, rfl, ?_, h3, rfl, rfl, rfl, ?_, ?_⟩
  · unfold createOrdering
    simp only [h1]
    rfl
  · have hpr : ({ reordered b (requestedOrder hints) with order := new ++ extras b new } : Block).printed.Perm b.printed := by
      unfold printed
      simp only
      refine List.Perm.trans (List.Perm.flatMap_right _ hperm) ?_
      generalize b.order = ord
      induction ord with
      | nil => exact List.Perm.refl _
      | cons r rs ih =>
        simp only [List.flatMap_cons]
        refine List.Perm.append ?_ ih
        cases r with
        | name s => exact List.Perm.refl _
        | loop n =>
          simp only [hdg]
          cases hl : dget b.loops n with
          | none => exact List.Perm.refl _
          | some l => exact reorder_perm hn (loop_nodup hw.looped (dget_mem hl))
    refine hpr.trans (perm_of_nodup_mem (nodup_printed hw) hw.keysNodup ?_)
    intro s
    rw [mem_printed hw]
    constructor
    · rintro (h | h)
      · exact hf s h
      · exact h.1
    · intro h
      by_cases e : s ∈ allLooped b.loops
      · exact .inl e
      · exact .inr ⟨h, e⟩
  · intro r; rw [h2, List.mem_filterMap]
  · simp [reordered, dkeys, Function.comp_def]
  · intro n l hl
    refine ⟨reorder (requestedOrder hints) l, by rw [hdg, hl]; rfl, reorder_perm hn (loop_nodup hw.looped (dget_mem hl)), ?_⟩
    unfold reorder
    simp only
    congr 1
    apply List.filter_congr
    intro x hx
    simp [hx]

/-- C25 for templates: every template block meets the conditions of `C25_order`. -/
theorem C25_template (b t : Block) (hr : Reachable b) (ht : Reachable t) :
    ∃ b' out, b.createOrdering (hintNames t) [] [] = .ok (b', out) ∧ out.Perm b.order ∧
      ({ b' with order := out } : Block).printed.Perm b.keys ∧
      ∀ n l, dget b.loops n = some l → ∃ l', dget b'.loops n = some l' ∧ l'.Perm l := by
  obtain ⟨h1, h2⟩ := template_names ht
  obtain ⟨b', out, f, r, e1, e2, e3, _, _, _, _, _, _, _, e4⟩ := C25_order b hr _ h1 h2
  refine ⟨b', out, e1, e2, e3, ?_⟩
  intro n l hl
  obtain ⟨l', g1, g2, _⟩ := e4 n l hl
  exact ⟨l', g1, g2⟩

/-! ## C26 -/

theorem reorder_idem {req names : List Str} : reorder req (reorder req names) = reorder req names := by
  have h1 : req.filter (fun i => decide (i ∈ reorder req names)) = req.filter fun i => decide (i ∈ names) := by
    apply List.filter_congr; intro x _; simp only [mem_reorder]
  generalize hR : reorder req names = R at h1 ⊢
  unfold reorder
  simp only [h1]
  rw [← hR]
  unfold reorder
  simp only [List.filter_append]
  have h2 : (req.filter fun i => decide (i ∈ names)).filter
      (fun i => decide (i ∉ req.filter fun i => decide (i ∈ names))) = [] := by
    rw [List.filter_eq_nil_iff]; intro x hx; simp only [decide_eq_true_eq, Classical.not_not]; exact hx
  rw [h2, List.nil_append, List.filter_filter]
  simp

theorem reordered_idem {b : Block} {req : List Str} : reordered (reordered b req) req = reordered b req := by
  unfold reordered
  simp only [List.map_map]
  congr 1
  apply List.map_congr_left
  intro p _
  simp [Function.comp, reorder_idem]

theorem placeOf_reordered {b : Block} {req : List Str} (s : Str) : placeOf (reordered b req) s = placeOf b s := by
  have : (reordered b req).findLoop s = b.findLoop s := by
    unfold findLoop reordered
    simp only
    rw [List.find?_map]
    have : ((fun p : Nat × List Str => decide (lower s ∈ p.2)) ∘ fun p : Nat × List Str => (p.1, reorder req p.2))
        = fun p => decide (lower s ∈ p.2) := by
      funext p
      simp only [Function.comp, mem_reorder]
    rw [this]
    cases List.find? (fun p => decide (lower s ∈ p.2)) b.loops <;> rfl
  unfold placeOf
  rw [this]
  rfl

theorem allLooped_reordered {b : Block} {req : List Str} {s : Str} :
    s ∈ allLooped (reordered b req).loops ↔ s ∈ allLooped b.loops := by
  simp only [allLooped, reordered, List.mem_flatMap, List.mem_map]
  constructor
  · rintro ⟨q, ⟨p, hp, rfl⟩, hs⟩; exact ⟨p, hp, mem_reorder.mp hs⟩
  · rintro ⟨p, hp, hs⟩; exact ⟨_, ⟨p, hp, rfl⟩, mem_reorder.mpr hs⟩

theorem wf_reordered {b : Block} (hw : WF b) {req : List Str} (hn : req.Nodup) : WF (reordered b req) := by
  have hk : dkeys (reordered b req).loops = dkeys b.loops := by simp [reordered, dkeys, Function.comp_def]
  constructor
  · exact hw.keysNodup
  · exact hw.keysLower
  · exact hw.caseKeys
  · exact hw.caseVal
  · rw [hk]; exact hw.loopsNodup
  · rw [hk]; exact hw.loopsPos
  · exact hw.orderNodup
  · intro s; rw [allLooped_reordered]; exact hw.orderName s
  · intro n; rw [hk]; exact hw.orderLoop n
  · have hp : (allLooped (reordered b req).loops).Perm (allLooped b.loops) := by
      have hnd : ∀ p ∈ b.loops, p.2.Nodup := fun p hp => loop_nodup hw.looped (n := p.1) (l := p.2) hp
      unfold allLooped reordered
      simp only
      generalize b.loops = L at hnd
      induction L with
      | nil => exact List.Perm.refl _
      | cons p r ih =>
        simp only [List.map_cons, List.flatMap_cons]
        exact List.Perm.append (reorder_perm hn (hnd p (by simp))) (ih fun q hq => hnd q (by simp [hq]))
    exact hp.nodup_iff.mpr hw.looped
  · intro s hs; exact hw.loopLower s (allLooped_reordered.mp hs)

theorem full_reordered {b : Block} (hf : Full b) {req : List Str} : Full (reordered b req) := by
  intro s hs; exact hf s (allLooped_reordered.mp hs)

/-- The list of places, computed from the names' places alone. -/
def newOf (f : Str → Option Ref) (new : List Ref) : List Str → List Ref
  | [] => new
  | i :: r => newOf f (match f i with
      | none => new
      | some (.name s) => new ++ [.name s]
      | some (.loop n) => if Ref.loop n ∈ new then new else new ++ [.loop n]) r

theorem orderLoop_newOf {b : Block} (hw : WF b) {req : List Str} (xs : List Str) (new : List Ref) :
    orderLoop req (partly b req new) new xs = .ok (partly b req (newOf (placeOf b) new xs), newOf (placeOf b) new xs) := by
  induction xs generalizing new with
  | nil => rfl
  | cons i xs ih =>
    unfold orderLoop newOf
    rw [orderStep_eq hw]
    cases placeOf b i with
    | none => exact ih _
    | some q =>
      cases q with
      | name s => exact ih _
      | loop n =>
        simp only
        by_cases h : Ref.loop n ∈ new
        · simp only [if_pos h]; exact ih _
        · simp only [if_neg h]; exact ih _

theorem partly_nil (b : Block) (req : List Str) : partly b req [] = b := by
  unfold partly
  have : b.loops.map (fun p => (p.1, if Ref.loop p.1 ∈ ([] : List Ref) then reorder req p.2 else p.2)) = b.loops := by
    conv => rhs; rw [← List.map_id b.loops]
    apply List.map_congr_left; intro p _; simp
  rw [this]

/-- The two halves for a fixed order fit together. -/
theorem halves {b : Block} (hw : WF b) {req : List Str} {new : List Ref} {x : Str} (hx : x ≠ [])
    (hfull : ∀ r, r ∈ new ++ extras b new ↔ r ∈ b.order) :
    ∃ p q, finishAt b req new (new ++ extras b new) x = .ok p ∧ startFrom b req new (new ++ extras b new) x = .ok q ∧
      p ++ q = new ++ extras b new := by
  unfold finishAt startFrom
  simp only [if_neg hx]
  by_cases h1 : x ∈ req
  · simp only [if_pos h1]
    have : ∃ c, candPos b req new (new ++ extras b new) x = some c := by
      unfold candPos
      simp only
      generalize hL : (req.drop (req.idxOf x)).filterMap b.findLoop = L
      cases L with
      | nil => exact ⟨_, rfl⟩
      | cons n r =>
        have hn : n ∈ (req.drop (req.idxOf x)).filterMap b.findLoop := by rw [hL]; simp
        obtain ⟨s, _, hs⟩ := List.mem_filterMap.mp hn
        obtain ⟨l, hl, _⟩ := findLoop_some' hw hs
        have : Ref.loop n ∈ new ++ extras b new := (hfull _).mpr ((hw.orderLoop n).mpr (dget_isSome.mp ⟨l, hl⟩))
        simp only [if_pos this]
        exact ⟨_, rfl⟩
    obtain ⟨c, hc⟩ := this
    simp only [hc]
    by_cases h2 : c < (new ++ extras b new).length
    · simp only [if_pos h2]
      exact ⟨_, _, rfl, rfl, List.take_append_drop _ _⟩
    · simp only [if_neg h2]
      exact ⟨_, _, rfl, rfl, List.append_nil _⟩
  · simp only [if_neg h1]
    by_cases h2 : Ref.name x ∈ extras b new
    · simp only [if_pos h2]
      rw [if_pos (List.mem_append.mpr (.inr h2))]
      exact ⟨_, _, rfl, rfl, List.take_append_drop _ _⟩
    · simp only [if_neg h2]
      exact ⟨_, _, rfl, rfl, List.append_nil _⟩

/-- C26: printing up to a name and then, in a second call, from that name on prints everything exactly once,
and in the same order as printing all at once. This holds for every name, also an unknown one. -/
theorem C26_halves (b : Block) (hr : Reachable b) (hints : List Str) (hn : (requestedOrder hints).Nodup)
    (hlow : ∀ s ∈ requestedOrder hints, lower s = s) (x : Str) (hx : x ≠ []) :
    ∃ b1 part1 b2 part2, b.createOrdering hints x [] = .ok (b1, part1) ∧ b1.createOrdering hints [] x = .ok (b2, part2) ∧
      b.createOrdering hints [] [] = .ok (b1, part1 ++ part2) ∧ b2 = b1 ∧ (part1 ++ part2).Perm b.order ∧
      (({ b1 with order := part1 } : Block).printed ++ ({ b2 with order := part2 } : Block).printed).Perm b.keys := by
  obtain ⟨hw, hf⟩ := reachable_wf hr
  obtain ⟨new, h1, h2, h3⟩ := orderLoop_full hw hf hn hlow
  have hw' := wf_reordered hw hn
  have hf' := full_reordered (req := requestedOrder hints) hf
  obtain ⟨new', h1', h2', h3'⟩ := orderLoop_full hw' hf' hn hlow
  rw [reordered_idem] at h1'
  have hnew : new' = new := by
    have e1 := orderLoop_newOf hw (req := requestedOrder hints) (requestedOrder hints) []
    have e2 := orderLoop_newOf hw' (req := requestedOrder hints) (requestedOrder hints) []
    rw [partly_nil] at e1 e2
    rw [h1] at e1
    rw [h1'] at e2
    have hp : placeOf (reordered b (requestedOrder hints)) = placeOf b := funext placeOf_reordered
    rw [hp] at e2
    simp only [Except.ok.injEq, Prod.mk.injEq] at e1 e2
    rw [e1.2, e2.2]
  rw [hnew] at h1'
  obtain ⟨o1, o2⟩ := out_perm hw h2 h3
  obtain ⟨p, q, g1, g2, g3⟩ := halves (b := reordered b (requestedOrder hints)) hw' (req := requestedOrder hints) (new := new) hx o2
  have full : b.createOrdering hints [] [] = .ok (reordered b (requestedOrder hints), p ++ q) := by
    unfold createOrdering
    simp only [h1]
    rw [g3]
    rfl
  obtain ⟨b', out, f, r, e1, e2, e3, _⟩ := C25_order b hr hints hn hlow
  rw [full] at e1
  simp only [Except.ok.injEq, Prod.mk.injEq] at e1
  obtain ⟨rfl, rfl⟩ := e1
  refine ⟨_, p, _, q, ?_, ?_, full, rfl, e2, ?_⟩
  · unfold createOrdering
    simp only [h1]
    have : startFrom (reordered b (requestedOrder hints)) (requestedOrder hints) new (new ++ extras (reordered b (requestedOrder hints)) new) [] =
      .ok (new ++ extras (reordered b (requestedOrder hints)) new) := rfl
    simp only [this, g1]
  · unfold createOrdering
    simp only [h1', g2]
    rfl
  · have : ({ reordered b (requestedOrder hints) with order := p } : Block).printed ++
        ({ reordered b (requestedOrder hints) with order := q } : Block).printed =
        ({ reordered b (requestedOrder hints) with order := p ++ q } : Block).printed := by
      unfold printed
      simp only [List.flatMap_append]
    rw [this]
    exact e3

/-- A template for `sample`, and its print order: the template's names in its order, then the rest. -/
def tmpl : Block := letI := asciiFold
  ({} : Block).run [.add "_b".toList (.list [.str "1".toList]) false, .add "_c".toList (.str "1".toList) false,
    .createLoop ["_b".toList] 0 true]

theorem tmpl_reachable : letI := asciiFold; Reachable tmpl := by
  letI := asciiFold
  have h0 : Reachable ({} : Block) := .fresh _ ⟨rfl, rfl, rfl, rfl⟩
  have h1 := Reachable.step _ (.add "_b".toList (.list [.str "1".toList]) false) h0 (by show _ ≠ _; decide +kernel)
  have h2 := Reachable.step _ (.add "_c".toList (.str "1".toList) false) h1 (by show _ ≠ _; decide +kernel)
  exact Reachable.step _ (.createLoop ["_b".toList] 0 true) h2 ⟨by decide +kernel, .inl rfl⟩

example : letI := asciiFold
    (sample.createOrdering (hintNames tmpl) [] []).map (fun p => ({ p.1 with order := p.2 } : Block).printed) =
      .ok ["_b".toList, "_a".toList, "_c".toList] ∧
    (sample.createOrdering (hintNames tmpl) "_c".toList []).map (fun p => ({ p.1 with order := p.2 } : Block).printed) =
      .ok ["_b".toList, "_a".toList] ∧
    (sample.createOrdering (hintNames tmpl) [] "_c".toList).map (fun p => ({ p.1 with order := p.2 } : Block).printed) =
      .ok ["_c".toList] := by decide +kernel

/-- A finding beside C25: hints that name an item twice, which a template cannot, print it twice. -/
theorem C25_repeated_hint_fails : letI := asciiFold
    (sample.createOrdering ["_c".toList, "_c".toList] [] []).map (fun p => ({ p.1 with order := p.2 } : Block).printed) =
      .ok ["_c".toList, "_c".toList, "_a".toList, "_b".toList] := by decide +kernel

end Verif.Block
