import Verif.Spec.ValidateRun
import Verif.Lemmas.ValidateLoop
import Verif.Lemmas.Dict
/-! # Lemmas about validation runs -/
namespace Verif
namespace Validate
open Spec
set_option linter.unusedSectionVars false
variable [CaseFold]

theorem failing_fails (rs : Results) : failing rs = rs.filter fun p => decide (Fails p.2) := by
  unfold failing
  apply List.filter_congr
  intro p _
  obtain ⟨n, o⟩ := p
  cases o <;> rfl

/-- What a dictionary of results holds under a key. -/
def under (d : Dict Str Results) (k : Str) : Results := (dget d k).getD []

theorem under_update (d : Dict Str Results) (k j : Str) (rs : Results) :
    under (updateValue d k rs) j = if j = k then under d j ++ rs else under d j := by
  unfold updateValue under
  cases h : dget d k with
  | none =>
    simp only [dget_dset]
    by_cases hj : j = k
    · subst hj; simp [h]
    · rw [if_neg (fun e => hj e.symm), if_neg hj]
  | some old =>
    simp only [dget_dset]
    by_cases hj : j = k
    · subst hj; simp [h]
    · rw [if_neg (fun e => hj e.symm), if_neg hj]

theorem nodup_update {d : Dict Str Results} (h : (dkeys d).Nodup) (k : Str) (rs : Results) : (dkeys (updateValue d k rs)).Nodup := by
  unfold updateValue
  split <;> exact nodup_dkeys_dset _ _ _ h

/-- The results of a list of events with a key. -/
def resultsOf (es : List Event) (k : Str) : Results := (es.filter fun e => decide (e.key = k)).map fun e => (e.check, e.outcome)

theorem resultsOf_append (a b : List Event) (k : Str) : resultsOf (a ++ b) k = resultsOf a k ++ resultsOf b k := by
  simp [resultsOf]

theorem resultsOf_same {es : List Event} {k : Str} (h : ∀ e ∈ es, e.key = k) (j : Str) :
    resultsOf es j = if j = k then es.map (fun e => (e.check, e.outcome)) else [] := by
  unfold resultsOf
  by_cases hj : j = k
  · rw [if_pos hj, List.filter_eq_self.2]
    intro e he
    simp [h e he, hj]
  · rw [if_neg hj, List.filter_eq_nil_iff.2, List.map_nil]
    intro e he
    simp only [h e he, decide_eq_true_eq]
    exact fun hc => hj hc.symm

theorem failuresOf_results (es : List Event) (k : Str) : failuresOf es k = failing (resultsOf es k) := by
  rw [failing_fails]
  unfold failuresOf resultsOf
  rw [List.filter_map, List.filter_filter]
  congr 1
  apply List.filter_congr
  intro e _
  simp only [Function.comp]
  by_cases h1 : e.key = k <;> by_cases h2 : Fails e.outcome <;> simp [h1, h2]

theorem run_returned {α : Type} {fs : List (Str × α)} {g : α → Except PyErr Outcome} {key : Str} {rs : Results} :
    mapE (fun f => do let o ← g f.2; .ok (f.1, o)) fs = .ok rs ↔
      ∃ es, Returned key (fs.map fun f => (f.1, g f.2)) es ∧ rs = es.map fun e => (e.check, e.outcome) := by
  induction fs generalizing rs with
  | nil =>
    constructor
    · intro h
      simp only [mapE, Except.ok.injEq] at h
      exact ⟨[], ⟨rfl, by simp⟩, h.symm⟩
    · rintro ⟨es, ⟨h, -⟩, rfl⟩
      have : es = [] := by simpa using h.symm
      subst this
      rfl
  | cons f r ih =>
    constructor
    · intro h
      simp only [mapE, bind, Except.bind] at h
      cases hg : g f.2 with
      | error e => simp [hg] at h
      | ok o =>
        simp only [hg] at h
        cases hr : mapE (fun f => do let o ← g f.2; .ok (f.1, o)) r with
        | error e =>
          simp only [bind, Except.bind] at hr
          simp [hr] at h
        | ok rs' =>
          have hr' := hr
          simp only [bind, Except.bind] at hr'
          simp only [hr', Except.ok.injEq] at h
          obtain ⟨es, ⟨h1, h2⟩, h3⟩ := ih.1 hr
          refine ⟨⟨key, f.1, o⟩ :: es, ⟨?_, ?_⟩, ?_⟩
          · simp [hg, h1]
          · intro e he
            rcases List.mem_cons.1 he with rfl | he
            · rfl
            · exact h2 e he
          · rw [← h, h3]
            rfl
    · rintro ⟨es, ⟨h1, h2⟩, rfl⟩
      cases es with
      | nil => simp at h1
      | cons e es =>
        simp only [List.map_cons, List.cons.injEq, Prod.mk.injEq] at h1
        obtain ⟨⟨e1, e2⟩, e3⟩ := h1
        have ih' := ih.2 ⟨es, ⟨e3, fun x hx => h2 x (List.mem_cons_of_mem _ hx)⟩, rfl⟩
        simp only [bind, Except.bind] at ih'
        simp only [mapE, bind, Except.bind, e2, ih', e1, List.map_cons]

theorem runGlobal_iff {wb : Block} {key : Str} {v : PyVal}
    {fs : List (Str × (Str → PyVal → Block → Dict Str PyVal → Option Done → Except PyErr (Outcome × Option Done)))} :
    ∀ {s s' : Option Done} {rs : Results}, runGlobal key v wb [] s fs = .ok (rs, s') ↔
      ∃ es, GlobalRun wb key v s fs es s' ∧ rs = es.map fun e => (e.check, e.outcome) := by
  induction fs with
  | nil =>
    intro s s' rs
    constructor
    · intro h
      simp only [runGlobal, Except.ok.injEq, Prod.mk.injEq] at h
      obtain ⟨rfl, rfl⟩ := h
      exact ⟨[], .nil s, rfl⟩
    · rintro ⟨es, h, rfl⟩
      cases h
      rfl
  | cons f r ih =>
    intro s s' rs
    obtain ⟨name, f⟩ := f
    constructor
    · intro h
      simp only [runGlobal] at h
      cases hf : f key v wb [] s with
      | error e => simp [hf] at h
      | ok p =>
        obtain ⟨o, s1⟩ := p
        simp only [hf] at h
        cases hr : runGlobal key v wb [] s1 r with
        | error e => simp [hr] at h
        | ok q =>
          obtain ⟨rs', s2⟩ := q
          simp only [hr, Except.ok.injEq, Prod.mk.injEq] at h
          obtain ⟨rfl, rfl⟩ := h
          obtain ⟨es, h1, h2⟩ := ih.1 hr
          exact ⟨⟨key, name, o⟩ :: es, .cons hf h1, by rw [h2]; rfl⟩
    · rintro ⟨es, h, rfl⟩
      cases h with
      | cons hf hr =>
        have := ih.2 ⟨_, hr, rfl⟩
        simp only [runGlobal, hf, this, List.map_cons]

theorem globalRun_key {wb : Block} {key : Str} {v : PyVal} {s s' : Option Done}
    {fs : List (Str × (Str → PyVal → Block → Dict Str PyVal → Option Done → Except PyErr (Outcome × Option Done)))} {es : List Event}
    (h : GlobalRun wb key v s fs es s') : ∀ e ∈ es, e.key = key := by
  induction h with
  | nil => simp
  | cons _ _ ih =>
    intro e he
    rcases List.mem_cons.1 he with rfl | he
    · rfl
    · exact ih e he

/-- A dictionary of results holds exactly what the events say, in addition to what `d` held. -/
def Holds (d d' : Dict Str Results) (es : List Event) : Prop :=
  (∀ j, under d' j = under d j ++ resultsOf es j) ∧ ((dkeys d).Nodup → (dkeys d').Nodup)

theorem holds_update {d : Dict Str Results} {k : Str} {es : List Event} (h : ∀ e ∈ es, e.key = k) :
    Holds d (updateValue d k (es.map fun e => (e.check, e.outcome))) es := by
  refine ⟨?_, fun hn => nodup_update hn _ _⟩
  intro j
  rw [under_update, resultsOf_same h]
  by_cases hj : j = k
  · rw [if_pos hj, if_pos hj]
  · rw [if_neg hj, if_neg hj, List.append_nil]

theorem holds_trans {d1 d2 d3 : Dict Str Results} {a b : List Event} (h1 : Holds d1 d2 a) (h2 : Holds d2 d3 b) : Holds d1 d3 (a ++ b) := by
  refine ⟨?_, fun h => h2.2 (h1.2 h)⟩
  intro j
  rw [h2.1, h1.1, resultsOf_append, List.append_assoc]

theorem itemsPass_run {C : Checks} {wb : Block} {s s' : Option Done} {keys : List Str} {es : List Event}
    (h : ItemsRun C wb s keys es s') : ∀ d, ∃ d', itemsPass C wb d s keys = .ok (d', s') ∧ Holds d d' es := by
  induction h with
  | nil s =>
    intro d
    exact ⟨d, rfl, by simp [Holds, resultsOf]⟩
  | @cons s s1 s2 key r v es1 es2 es hv h1 h2 hr ih =>
    intro d
    have r1 : runItem C.item key v = .ok (es1.map fun e => (e.check, e.outcome)) :=
      (run_returned (fs := C.item) (g := fun f => f key v)).2 ⟨es1, h1, rfl⟩
    have r2 := runGlobal_iff.2 ⟨es2, h2, rfl⟩
    obtain ⟨d', e1, e2⟩ := ih (updateValue (updateValue d key (es1.map fun e => (e.check, e.outcome))) key
      (es2.map fun e => (e.check, e.outcome)))
    refine ⟨d', ?_, ?_⟩
    · simp only [itemsPass, bind, Except.bind, hv, r1, r2]
      exact e1
    · exact holds_trans (holds_trans (holds_update h1.2) (holds_update (globalRun_key h2))) e2

theorem itemsPass_ok {C : Checks} {wb : Block} : ∀ {keys : List Str} {d d' : Dict Str Results} {s s' : Option Done},
    itemsPass C wb d s keys = .ok (d', s') → ∃ es, ItemsRun C wb s keys es s'
  | [], d, d', s, s', h => by
    simp only [itemsPass, Except.ok.injEq, Prod.mk.injEq] at h
    obtain ⟨rfl, rfl⟩ := h
    exact ⟨[], .nil s⟩
  | k :: r, d, d', s, s', h => by
    simp only [itemsPass, bind, Except.bind] at h
    cases hv : wb.getItem k with
    | error e => simp [hv] at h
    | ok v =>
      simp only [hv] at h
      cases h1 : runItem C.item k v with
      | error e => simp [h1] at h
      | ok rs1 =>
        simp only [h1] at h
        cases h2 : runGlobal k v wb [] s C.global with
        | error e => simp [h2] at h
        | ok p =>
          obtain ⟨rs2, s1⟩ := p
          simp only [h2] at h
          obtain ⟨es, he⟩ := itemsPass_ok h
          obtain ⟨es1, hr1, -⟩ := (run_returned (fs := C.item) (g := fun f => f k v) (key := k)).1 h1
          obtain ⟨es2, hr2, -⟩ := runGlobal_iff.1 h2
          exact ⟨_, .cons hv hr1 hr2 he⟩

theorem loopsPass_run {C : Checks} {ls : List (List Str)} {es : List Event} (h : LoopsRun C ls es) :
    ∀ d, ∃ d', loopsPass C d ls = .ok d' ∧ Holds d d' es := by
  induction h with
  | nil =>
    intro d
    exact ⟨d, rfl, by simp [Holds, resultsOf]⟩
  | @cons name names r es1 es h1 hr ih =>
    intro d
    have r1 : runLoop C.loop (name :: names) = .ok (es1.map fun e => (e.check, e.outcome)) :=
      (run_returned (fs := C.loop) (g := fun f => f (name :: names))).2 ⟨es1, h1, rfl⟩
    obtain ⟨d', e1, e2⟩ := ih (updateValue d name (es1.map fun e => (e.check, e.outcome)))
    refine ⟨d', ?_, holds_trans (holds_update h1.2) e2⟩
    simp only [loopsPass, bind, Except.bind, r1]
    exact e1

theorem loopsPass_ok {C : Checks} : ∀ {ls : List (List Str)} {d d' : Dict Str Results}, loopsPass C d ls = .ok d' → ∃ es, LoopsRun C ls es
  | [], _, _, _ => ⟨[], .nil⟩
  | [] :: _, _, _, h => by simp [loopsPass] at h
  | (n :: ns) :: r, d, d', h => by
    simp only [loopsPass, bind, Except.bind] at h
    cases h1 : runLoop C.loop (n :: ns) with
    | error e => simp [h1] at h
    | ok rs =>
      simp only [h1] at h
      obtain ⟨es, he⟩ := loopsPass_ok h
      obtain ⟨es1, hr1, -⟩ := (run_returned (fs := C.loop) (g := fun f => f (n :: ns)) (key := n)).1 h1
      exact ⟨_, .cons hr1 he⟩

theorem dget_contract {d : Dict Str Results} (h : (dkeys d).Nodup) (k : Str) :
    dget (contract d) k = if failing (under d k) = [] then none else some (failing (under d k)) := by
  induction d with
  | nil => simp [contract, under, dget, failing]
  | cons p r ih =>
    obtain ⟨a, rs⟩ := p
    have hn : a ∉ dkeys r ∧ (dkeys r).Nodup := List.nodup_cons.1 h
    have ihr := ih hn.2
    have hc : contract ((a, rs) :: r) = if failing rs = [] then contract r else (a, failing rs) :: contract r := by
      unfold contract
      by_cases hf : failing rs = []
      · simp [hf]
      · simp [hf]
    rw [hc]
    by_cases hk : a = k
    · subst hk
      have hu : under ((a, rs) :: r) a = rs := by simp [under, dget]
      rw [hu]
      by_cases hf : failing rs = []
      · rw [if_pos hf, if_pos hf, ihr]
        have : under r a = [] := by
          unfold under
          rw [dget_eq_none.2 hn.1]
          rfl
        rw [this]
        rfl
      · rw [if_neg hf, if_neg hf]
        simp [dget]
    · have hu : under ((a, rs) :: r) k = under r k := by simp [under, dget, hk]
      rw [hu]
      by_cases hf : failing rs = []
      · rw [if_pos hf]
        exact ihr
      · rw [if_neg hf]
        simp only [dget, if_neg hk]
        exact ihr

theorem nodup_contract {d : Dict Str Results} (h : (dkeys d).Nodup) : (dkeys (contract d)).Nodup := by
  unfold contract dkeys
  have h1 : ((d.map fun p => (p.1, failing p.2)).filter fun p => decide (p.2 ≠ [])).Sublist (d.map fun p => (p.1, failing p.2)) :=
    List.filter_sublist
  refine (h1.map _).nodup ?_
  rw [List.map_map]
  exact h

theorem contract_nil {d : Dict Str Results} (h : (dkeys d).Nodup) : contract d = [] ↔ ∀ k, failing (under d k) = [] := by
  constructor
  · intro hc k
    have := dget_contract h k
    rw [hc] at this
    apply Classical.byContradiction
    intro hn
    rw [if_neg hn] at this
    cases this
  · intro hall
    cases hc : contract d with
    | nil => rfl
    | cons p r =>
      have := dget_contract h p.1
      rw [hc, if_pos (hall _)] at this
      simp [dget] at this

theorem failuresOf_nil {es : List Event} : (∀ k, failuresOf es k = []) ↔ ∀ e ∈ es, ¬ Fails e.outcome := by
  constructor
  · intro h e he hf
    have := h e.key
    unfold failuresOf at this
    rw [List.map_eq_nil_iff, List.filter_eq_nil_iff] at this
    exact this e he (by simpa using hf)
  · intro h k
    unfold failuresOf
    rw [List.map_eq_nil_iff, List.filter_eq_nil_iff]
    intro e he
    have := h e he
    simp [this]

theorem runDataChecks_run {C : Checks} {wb : Block} {s : Option Done} {es : List Event} (h : BlockRun C wb s es) :
    ∃ d, runDataChecks C wb s = .ok (decide (contract d = []), contract d) ∧ (dkeys d).Nodup ∧ ∀ k, under d k = resultsOf es k := by
  obtain ⟨es1, es2, es3, s', h1, h2, h3, rfl⟩ := h
  obtain ⟨d1, e1, g1⟩ := itemsPass_run h1 []
  obtain ⟨d2, e2, g2⟩ := loopsPass_run h2 d1
  have r3 : runBlock C.block wb = .ok (es3.map fun e => (e.check, e.outcome)) :=
    (run_returned (fs := C.block) (g := fun f => f wb)).2 ⟨es3, h3, rfl⟩
  have g := holds_trans (holds_trans g1 g2) (holds_update (d := d2) h3.2)
  refine ⟨_, ?_, g.2 .nil, ?_⟩
  rotate_left
  · intro k
    have := g.1 k
    simpa [under, dget] using this
  · unfold runDataChecks
    simp only [bind, Except.bind, e1, e2, r3]
    rfl

theorem runDataChecks_ok {C : Checks} {wb : Block} {s : Option Done} {r : Bool × Dict Str Results} (h : runDataChecks C wb s = .ok r) :
    ∃ es, BlockRun C wb s es := by
  unfold runDataChecks at h
  simp only [bind, Except.bind] at h
  cases h1 : itemsPass C wb [] s wb.keys with
  | error e => simp [h1] at h
  | ok p =>
    obtain ⟨d1, s'⟩ := p
    simp only [h1] at h
    cases h2 : loopsPass C d1 (wb.loops.map (·.2)) with
    | error e => simp [h2] at h
    | ok d2 =>
      simp only [h2] at h
      cases h3 : runBlock C.block wb with
      | error e => simp [h3] at h
      | ok rs =>
        obtain ⟨es1, g1⟩ := itemsPass_ok h1
        obtain ⟨es2, g2⟩ := loopsPass_ok h2
        obtain ⟨es3, g3, -⟩ := (run_returned (fs := C.block) (g := fun f => f wb) (key := "whole_block".toList)).1 h3
        exact ⟨_, es1, es2, es3, s', g1, g2, g3, rfl⟩

theorem failing_nil {rs : Results} : failing rs = [] ↔ ∀ p ∈ rs, ¬ Fails p.2 := by
  rw [failing_fails, List.filter_eq_nil_iff]
  simp

theorem addItemChecks_pass {D : Dic} {C : Checks} {wb : Block} {key : Str} {v : PyVal} (h : addItemChecks D C wb key v = .ok ())
    (hk : D.known key = true) :
    (∀ r ∈ C.item.map (fun f => f.2 key v), ∃ o, r = .ok o ∧ ¬ Fails o) ∧
      ∃ es s, GlobalRun wb key v none C.global es s ∧ ∀ e ∈ es, ¬ Fails e.outcome := by
  simp only [addItemChecks, singleItemCheck, globalItemCheck, hk, if_true, bind, Except.bind] at h
  cases h1 : runItem C.item key v with
  | error e => simp [h1] at h
  | ok rs1 =>
    simp only [h1] at h
    cases hr1 : reportIfInvalid (failing rs1) with
    | error e => simp [hr1] at h
    | ok u =>
      simp only [hr1] at h
      cases h2 : runGlobal key v wb [] none C.global with
      | error e => simp [h2] at h
      | ok p =>
        obtain ⟨rs2, s⟩ := p
        simp only [h2] at h
        have f1 : failing rs1 = [] := by
          unfold reportIfInvalid at hr1
          split at hr1
          · assumption
          · cases hr1
        have f2 : failing rs2 = [] := by
          unfold reportIfInvalid at h
          split at h
          · assumption
          · cases h
        obtain ⟨es1, ⟨g1, -⟩, e1⟩ := (run_returned (fs := C.item) (g := fun f => f key v) (key := key)).1 h1
        obtain ⟨es2, g2, e2⟩ := runGlobal_iff.1 h2
        refine ⟨?_, es2, s, g2, ?_⟩
        · intro r hr
          have : r ∈ (C.item.map fun f => (f.1, f.2 key v)).map (·.2) := by
            rw [List.map_map]
            exact hr
          rw [g1, List.map_map] at this
          obtain ⟨e, he, rfl⟩ := List.mem_map.1 this
          refine ⟨e.outcome, rfl, ?_⟩
          exact failing_nil.1 f1 (e.check, e.outcome) (by rw [e1]; exact List.mem_map.2 ⟨e, he, rfl⟩)
        · intro e he
          exact failing_nil.1 f2 (e.check, e.outcome) (by rw [e2]; exact List.mem_map.2 ⟨e, he, rfl⟩)

end Validate
end Verif
