import Verif.Lemmas.Report
import Verif.Props.ValidFile
/-! # C111: reports on validations -/
namespace Verif.Validate
open Spec
set_option linter.unusedSectionVars false
set_option synthInstance.maxSize 1000

section
variable [CaseFold]

theorem mapE_key {α β : Type} {f : α → Except PyErr β} : ∀ {l : List α},
    (∀ a ∈ l, (∃ b, f a = .ok b) ∨ f a = .error .key) → (∃ a ∈ l, f a = .error .key) → mapE f l = .error .key
  | [], _, h => by obtain ⟨a, ha, -⟩ := h; cases ha
  | x :: r, hs, h => by
    rw [mapE]
    rcases hs x List.mem_cons_self with ⟨b, hb⟩ | hb
    · rw [hb]
      obtain ⟨a, ha, he⟩ := h
      have hr : ∃ a ∈ r, f a = .error .key := by
        rcases List.mem_cons.mp ha with rfl | ha
        · rw [hb] at he; cases he
        · exact ⟨a, ha, he⟩
      simp only [mapE_key (fun a ha => hs a (List.mem_cons_of_mem _ ha)) hr]
    · rw [hb]

/-- The failing checks all have an explanation. -/
def Explained (res : Dict Str Results) : Prop := ∀ f ∈ failuresIn res, ∃ x, explanation f.check = some x

theorem tables_report (P : Printer) (html : Bool) {res : Dict Str Results} (h : Explained res) :
    mapE (checkReport P html) (errorTypes [] res) = .ok ((failedChecks (failuresIn res)).map fun c =>
      if html then tableHtml P ((explanation c).getD []) (failuresOfCheck (failuresIn res) c)
      else tableText P ((explanation c).getD []) (failuresOfCheck (failuresIn res) c)) := by
  rw [errorTypes_tables, tablesOf, mapE_map]
  refine mapE_ok (fun c hc => ?_)
  obtain ⟨f, hf, rfl⟩ := mem_failedChecks.mp hc
  obtain ⟨x, hx⟩ := h f hf
  rw [checkReport_some P html hx (failuresOfCheck_ne hc), hx]
  rfl

theorem tables_raise (P : Printer) (html : Bool) {res : Dict Str Results} (h : ¬ Explained res) :
    mapE (checkReport P html) (errorTypes [] res) = .error .key := by
  rw [errorTypes_tables, tablesOf, mapE_map]
  apply mapE_key
  · intro c hc
    cases hx : explanation c with
    | none => exact .inr (checkReport_none P html hx)
    | some x => exact .inl ⟨_, checkReport_some P html hx (failuresOfCheck_ne hc)⟩
  · have : ∃ f ∈ failuresIn res, explanation f.check = none := by
      apply Classical.byContradiction
      intro hh
      apply h
      intro f hf
      cases hx : explanation f.check with
      | none => exact absurd ⟨f, hf, hx⟩ hh
      | some x => exact ⟨x, rfl⟩
    obtain ⟨f, hf, hx⟩ := this
    exact ⟨f.check, mem_failedChecks.mpr ⟨f, hf, rfl⟩, checkReport_none P html hx⟩

theorem headPart_text (sup : Bool) (block : Str) (valid : Bool) (u : List Str) :
    headPart false sup block valid u = "\n Block '".toList ++ block ++ (if valid then "' is VALID\n".toList else "' is INVALID\n".toList) := by
  unfold headPart outLine
  cases valid <;> simp

theorem headPart_html (sup : Prop) [Decidable sup] (block : Str) (valid : Bool) (u : List Str) :
    headPart true (decide sup) block valid u = if sup ∧ valid = true ∧ u = [] then [] else
      "<h3>Block '".toList ++ block ++ (if valid then "' is VALID</h3><p>".toList else "' is INVALID</h3><p>".toList) := by
  unfold headPart outLine
  by_cases hs : sup <;> cases valid <;> cases u <;> simp [hs]

theorem blockReport_text (P : Printer) (sup : Bool) {nm : Dict Str (List Str)} {p : Str × Bool × Dict Str Results} {u : List Str}
    (hu : dget nm p.1 = some u) (h : Explained p.2.2) :
    blockReport P false sup nm p = .ok (sectionText P (sectionFor p.1 p.2 u)) := by
  unfold blockReport
  rw [hu]
  simp only [tables_report P false h, bind, Except.bind, headPart_text]
  unfold sectionText sectionFor unmatchedPart
  simp only [List.flatMap_def, List.map_map, Function.comp_def]
  cases u <;> rfl

theorem blockReport_html (P : Printer) (sup : Prop) [Decidable sup] {nm : Dict Str (List Str)} {p : Str × Bool × Dict Str Results} {u : List Str}
    (hu : dget nm p.1 = some u) (h : Explained p.2.2) :
    blockReport P true (decide sup) nm p = .ok (sectionHtml P sup (sectionFor p.1 p.2 u)) := by
  unfold blockReport
  rw [hu]
  simp only [tables_report P true h, bind, Except.bind, headPart_html]
  unfold sectionHtml sectionFor unmatchedPart tagged
  simp only [List.flatMap_def, List.map_map, Function.comp_def]
  cases u <;> rfl

theorem blockReport_raise (P : Printer) (html sup : Bool) {nm : Dict Str (List Str)} {p : Str × Bool × Dict Str Results} {u : List Str}
    (hu : dget nm p.1 = some u) (h : ¬ Explained p.2.2) : blockReport P html sup nm p = .error .key := by
  unfold blockReport
  rw [hu]
  simp only [tables_raise P html h, bind, Except.bind]

theorem reportHead_text (sup : Bool) : reportHead false sup = "Validation results\n".toList ++ "------------------\n".toList := by
  unfold reportHead
  rw [if_neg (by decide)]

theorem reportHead_html (sup : Prop) [Decidable sup] : reportHead true (decide sup) = "<h2>Validation results</h2>".toList ++
    (if sup then "<p>For brevity, valid blocks are not reported in the output.</p>".toList else []) := by
  unfold reportHead
  rw [if_pos rfl]
  by_cases h : sup
  · rw [if_pos h, if_pos (decide_eq_true h)]
  · rw [if_neg h, if_neg (by rw [decide_eq_true_eq]; exact h)]

/-- C111: the report on a validation, as text or as a web page, has a section for each block, in order, with its headline, its unmatched
names, and a table for each check that failed; provided every failing check has an explanation. Missing: the failing check without an
explanation (see `C111_looped_fails`), and tables whose rows do not all have the cells of the first one (see `C111_headings_fails`). -/
theorem C111_report_partial (P : Printer) (r : FileResult) (hk : ∀ p ∈ r.valid, ∃ u, dget r.noMatches p.1 = some u)
    (he : ∀ p ∈ r.valid, Explained p.2.2) :
    validateReport P r = .ok (reportText P (sectionsFor r)) ∧ validateReport P r true = .ok (reportHtml P (sectionsFor r)) := by
  have hl : (sectionsFor r).length = r.valid.length := by simp [sectionsFor]
  constructor
  · unfold validateReport
    simp only
    rw [mapE_ok (g := fun p : Str × Bool × Dict Str Results => sectionText P (sectionFor p.1 p.2 ((dget r.noMatches p.1).getD [])))]
    · unfold reportText sectionsFor
      rw [List.flatMap_map, List.flatMap_def, ← reportHead_text (decide (r.valid.length > 10))]
      rfl
    · intro p hp
      obtain ⟨u, hu⟩ := hk p hp
      rw [blockReport_text P _ hu (he p hp), hu]
      rfl
  · unfold validateReport
    simp only
    rw [mapE_ok (g := fun p : Str × Bool × Dict Str Results => sectionHtml P (10 < (sectionsFor r).length) (sectionFor p.1 p.2 ((dget r.noMatches p.1).getD [])))]
    · unfold reportHtml
      rw [← reportHead_html, hl]
      unfold sectionsFor
      rw [List.flatMap_map, List.flatMap_def]
      rfl
    · intro p hp
      obtain ⟨u, hu⟩ := hk p hp
      rw [hl]
      rw [blockReport_html P (r.valid.length > 10) hu (he p hp), hu]
      rfl

/-- C111: if a failing check has no explanation, or a block has no list of unknown names, there is no report: `KeyError` is
raised. -/
theorem C111_raises (P : Printer) (r : FileResult) (html : Bool)
    (he : ∃ p ∈ r.valid, ¬ Explained p.2.2 ∨ dget r.noMatches p.1 = none) : validateReport P r html = .error .key := by
  have hnone : ∀ {p : Str × Bool × Dict Str Results} (sup : Bool), dget r.noMatches p.1 = none →
      blockReport P html sup r.noMatches p = .error .key := fun _ h => by
    unfold blockReport
    rw [h]
  unfold validateReport
  simp only
  rw [mapE_key]
  · rfl
  · intro p hp
    cases hu : dget r.noMatches p.1 with
    | none => exact .inr (hnone _ hu)
    | some u =>
      by_cases hx : Explained p.2.2
      · left
        cases html with
        | false => exact ⟨_, blockReport_text P _ hu hx⟩
        | true => exact ⟨_, blockReport_html P (r.valid.length > 10) hu hx⟩
      · exact .inr (blockReport_raise P html _ hu hx)
  · obtain ⟨p, hp, hx⟩ := he
    cases hu : dget r.noMatches p.1 with
    | none => exact ⟨p, hp, hnone _ hu⟩
    | some u =>
      rcases hx with hx | hx
      · exact ⟨p, hp, blockReport_raise P html _ hu hx⟩
      · rw [hx] at hu
        cases hu

/-! ## What the tables hold -/

theorem filter_other {fs : List Failure} {a c : Str} (h : c ≠ a) :
    failuresOfCheck (fs.filter fun f => !decide (f.check = a)) c = failuresOfCheck fs c := by
  unfold failuresOfCheck
  rw [List.filter_filter]
  apply List.filter_congr
  intro f _
  by_cases hc : f.check = c
  · simp [hc, h]
  · simp [hc]

theorem tables_perm : ∀ (n : Nat) (fs : List Failure), fs.length ≤ n →
    ((failedChecks fs).flatMap (failuresOfCheck fs)).Perm fs
  | _, [], _ => by simp [failedChecks]
  | 0, f :: fs, h => by simp at h
  | n + 1, f :: fs, h => by
    let gs := (f :: fs).filter fun g => !decide (g.check = f.check)
    have hg : gs = fs.filter fun g => !decide (g.check = f.check) := by simp [gs]
    have hlen : gs.length ≤ n := by
      rw [hg]
      have := List.length_filter_le (fun g : Failure => !decide (g.check = f.check)) fs
      simp only [List.length_cons] at h
      omega
    have e1 : failedChecks (f :: fs) = f.check :: failedChecks gs := by
      unfold failedChecks
      rw [List.map_cons, List.eraseDups_cons, hg, List.filter_map]
      congr 3
      apply List.filter_congr
      intro g _
      by_cases hc : g.check = f.check <;> simp [hc]
    rw [e1, List.flatMap_cons]
    have e2 : (failedChecks gs).flatMap (failuresOfCheck (f :: fs)) = (failedChecks gs).flatMap (failuresOfCheck gs) := by
      rw [List.flatMap_def, List.flatMap_def]
      congr 1
      apply List.map_congr_left
      intro c hc
      obtain ⟨g, hgm, rfl⟩ := mem_failedChecks.mp hc
      rw [List.mem_filter] at hgm
      rw [filter_other (fs := f :: fs) (by simpa using hgm.2)]
    rw [e2]
    exact (List.Perm.append_left _ (tables_perm n gs hlen)).trans (List.filter_append_perm ..)

/-- C111: the tables of a section have, all together, each failure of the block once, and each under the check that failed; no check has
two tables, and no table is empty. -/
theorem C111_rows (block : Str) (v : Bool × Dict Str Results) (u : List Str) :
    ((sectionFor block v u).tables.flatMap (·.rows)).Perm (failuresIn v.2) ∧
    ((sectionFor block v u).tables.map (·.check)).Nodup ∧
    ∀ t ∈ (sectionFor block v u).tables, t.rows ≠ [] ∧ ∀ f ∈ t.rows, f.check = t.check := by
  refine ⟨?_, ?_, ?_⟩
  · simp only [sectionFor, List.flatMap_map]
    exact tables_perm _ _ (Nat.le_refl _)
  · simp only [sectionFor, List.map_map, Function.comp_def, List.map_id']
    exact nodup_eraseDups' _ _ (Nat.le_refl _)
  · intro t ht
    simp only [sectionFor, List.mem_map] at ht
    obtain ⟨c, hc, rfl⟩ := ht
    refine ⟨failuresOfCheck_ne hc, fun f hf => ?_⟩
    simp only [failuresOfCheck, List.mem_filter, decide_eq_true_eq] at hf
    exact hf.2

/-! ## Reports on validated files -/

/-- The names of the checks of a dictionary. -/
def Checks.names (C : Checks) : List Str := C.item.map (·.1) ++ C.loop.map (·.1) ++ C.global.map (·.1) ++ C.block.map (·.1)

theorem returned_names {key : Str} {checks : List (Str × Except PyErr Outcome)} {es : List Event} (h : Returned key checks es) :
    ∀ e ∈ es, e.check ∈ checks.map (·.1) := by
  intro e he
  rw [h.1, List.map_map]
  exact List.mem_map.mpr ⟨e, he, rfl⟩

theorem globalRun_names {wb : Block} {key : Str} {v : PyVal} {s s' : Option Done}
    {fs : List (Str × (Str → PyVal → Block → Dict Str PyVal → Option Done → Except PyErr (Outcome × Option Done)))}
    {es : List Event} (h : GlobalRun wb key v s fs es s') : ∀ e ∈ es, e.check ∈ fs.map (·.1) := by
  induction h with
  | nil => nofun
  | cons h hr ih =>
    intro e he
    rcases List.mem_cons.mp he with rfl | he
    · exact List.mem_cons_self
    · exact List.mem_cons_of_mem _ (ih e he)

theorem itemsRun_names {C : Checks} {wb : Block} {s s' : Option Done} {ks : List Str} {es : List Event} (h : ItemsRun C wb s ks es s') :
    ∀ e ∈ es, e.check ∈ C.names := by
  induction h with
  | nil => nofun
  | cons hv h1 h2 hr ih =>
    intro e he
    rw [List.mem_append, List.mem_append] at he
    rcases he with (he | he) | he
    · have := returned_names h1 e he
      rw [List.map_map] at this
      unfold Checks.names
      simp only [List.mem_append]
      exact .inl (.inl (.inl this))
    · have := globalRun_names h2 e he
      unfold Checks.names
      simp only [List.mem_append]
      exact .inl (.inr this)
    · exact ih e he

theorem loopsRun_names {C : Checks} {ls : List (List Str)} {es : List Event} (h : LoopsRun C ls es) : ∀ e ∈ es, e.check ∈ C.names := by
  induction h with
  | nil => nofun
  | cons h1 hr ih =>
    intro e he
    rcases List.mem_append.mp he with he | he
    · have := returned_names h1 e he
      rw [List.map_map] at this
      unfold Checks.names
      simp only [List.mem_append]
      exact .inl (.inl (.inr this))
    · exact ih e he

theorem blockRun_names {C : Checks} {wb : Block} {s : Option Done} {es : List Event} (h : BlockRun C wb s es) : ∀ e ∈ es, e.check ∈ C.names := by
  obtain ⟨es1, es2, es3, s', h1, h2, h3, rfl⟩ := h
  intro e he
  rw [List.mem_append, List.mem_append] at he
  rcases he with (he | he) | he
  · exact itemsRun_names h1 e he
  · exact loopsRun_names h2 e he
  · have := returned_names h3 e he
    rw [List.map_map] at this
    unfold Checks.names
    simp only [List.mem_append]
    exact .inr this

/-- The failures recorded for a block are the failing results of the run of its checks. -/
def Recorded (C : Checks) (b : Block) (v : Bool × Dict Str Results) : Prop :=
  ∃ es, BlockRun C b none es ∧ (v.1 = true ↔ failuresIn v.2 = []) ∧
    ∀ f : Failure, f ∈ failuresIn v.2 ↔ ∃ e ∈ es, e.key = f.item ∧ e.check = f.check ∧ e.outcome = .bad f.detail

theorem recorded_of_judged {C : Checks} {b : Block} {v : Bool × Dict Str Results} (hj : Judged C b v) (hnd : (dkeys v.2).Nodup) :
    Recorded C b v := by
  obtain ⟨valid, report⟩ := v
  obtain ⟨es, he, h2, h3⟩ := hj
  simp only at h2 h3 hnd
  have key : ∀ f : Failure, f ∈ failuresIn report ↔ ∃ e ∈ es, e.key = f.item ∧ e.check = f.check ∧ e.outcome = .bad f.detail := by
    intro f
    constructor
    · intro hf
      simp only [failuresIn, List.mem_flatMap, List.mem_map] at hf
      obtain ⟨⟨k, rs⟩, hp, q, hq, rfl⟩ := hf
      have hd := dget_of_mem hnd hp
      rw [h3] at hd
      split at hd
      · cases hd
      · injection hd with hd
        subst hd
        simp only [failuresOf, List.mem_map, List.mem_filter, decide_eq_true_eq] at hq
        obtain ⟨e, ⟨hm, hk, hfail⟩, rfl⟩ := hq
        refine ⟨e, hm, hk, rfl, ?_⟩
        cases ho : e.outcome with
        | bad d => rfl
        | good => rw [ho] at hfail; exact hfail.elim
        | skip => rw [ho] at hfail; exact hfail.elim
    · rintro ⟨e, hm, hk, hc, ho⟩
      have hin : (e.check, e.outcome) ∈ failuresOf es f.item := by
        simp only [failuresOf, List.mem_map, List.mem_filter, decide_eq_true_eq]
        exact ⟨e, ⟨hm, hk, by rw [ho]; trivial⟩, rfl⟩
      have hd := h3 f.item
      rw [if_neg (List.ne_nil_of_mem hin)] at hd
      simp only [failuresIn, List.mem_flatMap, List.mem_map]
      refine ⟨_, dget_mem hd, _, hin, ?_⟩
      simp only [ho, hc]
  refine ⟨es, he, ?_, key⟩
  rw [h2]
  constructor
  · intro hall
    apply List.eq_nil_iff_forall_not_mem.mpr
    intro f hf
    obtain ⟨e, hm, -, -, ho⟩ := (key f).mp hf
    apply hall e hm
    rw [ho]
    trivial
  · intro h0 e hm hfail
    cases ho : e.outcome with
    | good => rw [ho] at hfail; exact hfail
    | skip => rw [ho] at hfail; exact hfail
    | bad d =>
      have := (key ⟨e.check, e.key, d⟩).mpr ⟨e, hm, rfl, rfl, ho⟩
      simp only at h0
      rw [h0] at this
      cases this

theorem nodup_of_run {C : Checks} {b : Block} {v : Bool × Dict Str Results} (h : runDataChecks C b = .ok v) : (dkeys v.2).Nodup := by
  obtain ⟨valid, report⟩ := v
  obtain ⟨es, he⟩ := C47_complete C b none valid report h
  obtain ⟨v', r', h1, -, -, hnd⟩ := C47_verdict C b none es he
  rw [h] at h1
  injection h1 with h1
  injection h1 with hv hr
  subst hv hr
  exact hnd

theorem failedChecks_nil {fs : List Failure} : failedChecks fs = [] ↔ fs = [] := by
  constructor
  · intro h
    cases fs with
    | nil => rfl
    | cons f r =>
      have := mem_failedChecks.mpr ⟨f, List.mem_cons_self (l := r), rfl⟩
      rw [h] at this
      cases this
  · rintro rfl
    rfl

theorem validateBlocks_all {D : Dic} {C : Checks} {Q : Bool × Dict Str Results → Prop} (hQ : ∀ b v, runDataChecks C b = .ok v → Q v) :
    ∀ (ks : List Str) (c c' : Coll) (r r' : FileResult), (∀ p ∈ r.valid, Q p.2) → validateBlocks D C c r ks = (c', .ok r') →
    ∀ p ∈ r'.valid, Q p.2
  | [], c, c', r, r', hr, h => by
    simp only [validateBlocks, Prod.mk.injEq, Except.ok.injEq] at h
    rw [← h.2]
    exact hr
  | k :: ks, c, c', r, r', hr, h => by
    rw [validateBlocks] at h
    cases hg : c.getItem k with
    | error e => rw [hg] at h; simp at h
    | ok b =>
      rw [hg] at h
      simp only at h
      split at h
      · simp at h
      · split at h
        · simp at h
        · rename_i v hrun
          refine validateBlocks_all hQ ks _ _ _ _ ?_ h
          intro p hp
          rcases mem_of_mem_dset hp with rfl | hp
          · exact hQ _ _ hrun
          · exact hr p hp

theorem validateFile_all {D : Dic} {C : Checks} {Q : Bool × Dict Str Results → Prop} (hQ : ∀ b v, runDataChecks C b = .ok v → Q v)
    {c c' : Coll} {isdic : Bool} {r : FileResult} (h : validateFile D C c isdic = (c', .ok r)) : ∀ p ∈ r.valid, Q p.2 := by
  rcases validateFile_cases h with ⟨-, -, he⟩ | ⟨c2, hv, -⟩
  · cases he
  · exact validateBlocks_all hQ _ _ _ _ _ (fun p hp => absurd hp List.not_mem_nil) hv

theorem file_unmatched {D : Dic} {C : Checks} {c c' : Coll} {isdic : Bool} {r : FileResult} (hc : Coll.Consistent c) (hs : Sound c)
    (h : validateFile D C c isdic = (c', .ok r)) : ∀ p ∈ r.valid, ∃ u, dget r.noMatches p.1 = some u := by
  intro p hp
  obtain ⟨h1, -, h3, -⟩ := C92_file_partial D C c c' isdic r hc hs h
  have hk : p.1 ∈ toCheck c isdic := h1 ▸ List.mem_map.mpr ⟨p, hp, rfl⟩
  obtain ⟨b, -, -, -, -, -, hn, -⟩ := h3 _ hk
  exact ⟨_, hn⟩

/-- C111: with a DDL1 or DDL2 dictionary there is a report on every file that has been validated. Each section belongs to a block of the
file, is headed as valid exactly when it has no table, lists exactly the names of the block that are not in the dictionary, and its rows are
exactly the failures of the checks of this block. -/
theorem C111_file (P : Printer) (D : Dic) (c c' : Coll) (isdic : Bool) (r : FileResult) (hc : Coll.Consistent c) (hs : Sound c)
    (h : validateFile D (checks12 D) c isdic = (c', .ok r)) :
    validateReport P r = .ok (reportText P (sectionsFor r)) ∧ validateReport P r true = .ok (reportHtml P (sectionsFor r)) ∧
    (sectionsFor r).map (·.block) = toCheck c isdic ∧
    ∀ s ∈ sectionsFor r, ∃ b b', c.getItem s.block = .ok b ∧ c'.getItem s.block = .ok b' ∧
      s.unmatched = b.keys.filter (fun a => !D.known a) ∧ (s.valid = true ↔ s.tables = []) ∧
      ∃ es, BlockRun (checks12 D) b' none es ∧ ∀ f : Failure, (∃ t ∈ s.tables, f ∈ t.rows) ↔
        ∃ e ∈ es, e.key = f.item ∧ e.check = f.check ∧ e.outcome = .bad f.detail := by
  have hex : ∀ p ∈ r.valid, Explained p.2.2 := by
    refine validateFile_all (Q := fun v => Explained v.2) (fun b v hv f hf => ?_) h
    obtain ⟨es, hrun, -, hmem⟩ := recorded_of_judged (judged_of_run hv) (nodup_of_run hv)
    obtain ⟨e, he, -, hck, -⟩ := (hmem f).mp hf
    have hn := blockRun_names hrun e he
    rw [hck] at hn
    rw [← explanation_is]
    simp only [Checks.names, checks12, List.map_cons, List.map_nil, List.cons_append, List.nil_append, List.mem_cons, List.not_mem_nil,
      or_false] at hn
    rcases hn with hn | hn | hn | hn | hn | hn | hn | hn | hn | hn | hn | hn | hn | hn <;>
      (rw [hn]; exact Option.isSome_iff_exists.mp (by decide +kernel))
  obtain ⟨g1, g2⟩ := C111_report_partial P r (file_unmatched hc hs h) hex
  obtain ⟨h1, -, h3, -⟩ := C92_file_partial D _ c c' isdic r hc hs h
  obtain ⟨hn, -⟩ := toCheck_props hc isdic
  refine ⟨g1, g2, ?_, ?_⟩
  · rw [← h1]
    simp only [sectionsFor, List.map_map]
    rfl
  · intro s hsec
    simp only [sectionsFor, List.mem_map] at hsec
    obtain ⟨p, hp, rfl⟩ := hsec
    have hk : p.1 ∈ toCheck c isdic := h1 ▸ List.mem_map.mpr ⟨p, hp, rfl⟩
    obtain ⟨b, b', v, e1, e2, -, e4, e5, e6⟩ := h3 _ hk
    have hv : v = p.2 := by
      have := dget_of_mem (k := p.1) (v := p.2) (by rw [h1]; exact hn) hp
      rw [e5] at this
      injection this
    subst hv
    obtain ⟨es, g3, g4, g5⟩ := recorded_of_judged e6 (validateFile_all (Q := fun v => (dkeys v.2).Nodup) (fun _ _ hv => nodup_of_run hv) h p hp)
    refine ⟨b, b', e1, e2, ?_, ?_, es, g3, fun f => ?_⟩
    · simp only [sectionFor, e4, Option.getD_some]
    · simp only [sectionFor, List.map_eq_nil_iff]
      rw [g4, failedChecks_nil]
    · rw [← g5, ← (C111_rows p.1 p.2 ((dget r.noMatches p.1).getD [])).1.mem_iff, List.mem_flatMap]

theorem loopsRun_mem {C : Checks} {ls : List (List Str)} {es : List Event} (h : LoopsRun C ls es) :
    ∀ l ∈ ls, ∃ name names es1, l = name :: names ∧ Returned name (C.loop.map fun f => (f.1, f.2 l)) es1 ∧ ∀ e ∈ es1, e ∈ es := by
  induction h with
  | nil => nofun
  | cons h1 hr ih =>
    intro l hl
    rcases List.mem_cons.mp hl with rfl | hl
    · exact ⟨_, _, _, rfl, h1, fun e he => List.mem_append_left _ he⟩
    · obtain ⟨name, names, es1, g1, g2, g3⟩ := ih l hl
      exact ⟨name, names, es1, g1, g2, fun e he => List.mem_append_right _ (g3 e he)⟩

theorem mapE_inv {α β : Type} {f : α → Except PyErr β} : ∀ {l : List α} {ys : List β}, mapE f l = .ok ys →
    ys.length = l.length ∧ ∀ a ∈ l, ∃ y ∈ ys, f a = .ok y
  | [], ys, h => by
    injection h with h
    subst h
    exact ⟨rfl, nofun⟩
  | x :: r, ys, h => by
    rw [mapE] at h
    cases hx : f x with
    | error e => rw [hx] at h; cases h
    | ok y =>
      rw [hx] at h
      cases hr : mapE f r with
      | error e => rw [hr] at h; cases h
      | ok zs =>
        rw [hr] at h
        injection h with h
        subst h
        obtain ⟨h1, h2⟩ := mapE_inv hr
        refine ⟨by simp [h1], fun a ha => ?_⟩
        rcases List.mem_cons.mp ha with rfl | ha
        · exact ⟨y, List.mem_cons_self, hx⟩
        · obtain ⟨z, hz, he⟩ := h2 a ha
          exact ⟨z, List.mem_cons_of_mem _ hz, he⟩

theorem filterMap_short {α β : Type} {g : α → Option β} : ∀ {l : List α} {a : α}, a ∈ l → g a = none → (l.filterMap g).length < l.length
  | x :: r, a, h, hg => by
    rw [List.filterMap_cons]
    rcases List.mem_cons.mp h with rfl | h
    · rw [hg]
      simp only [List.length_cons]
      exact Nat.lt_succ_of_le (List.length_filterMap_le g r)
    · have := filterMap_short h hg
      split <;> simp only [List.length_cons] <;> omega

theorem looping_bad {D : Dic} {l : List Str} {n cat : Str} {o : Outcome} (hn : n ∈ l) (hcat : CategoryIs D n cat)
    (hno : dget D.parentLookup (lower cat) = none) (h : validateLoopingDdlm D l = .ok o) : ∃ d, o = .bad d := by
  unfold validateLoopingDdlm finalCats at h
  cases hm : mapE (category D) l with
  | error e =>
    rw [hm] at h
    cases h
  | ok cs =>
    obtain ⟨h1, h2⟩ := mapE_inv hm
    obtain ⟨y, hy, hcy⟩ := h2 n hn
    rw [categoryIs_run hcat] at hcy
    injection hcy with hcy
    subst hcy
    have hlt := filterMap_short (g := dget D.parentLookup) hy hno
    rw [h1] at hlt
    rw [hm] at h
    simp only [bind, Except.bind] at h
    rw [if_pos hlt] at h
    injection h with h
    exact ⟨_, h.symm⟩

/-- Where C111 fails: as soon as a block of a file validated with a DDLm dictionary has a loop with a name of a category that cannot be
looped, there is no report on the file: `KeyError` is raised, since this check has no explanation. -/
theorem C111_looped_fails (P : Printer) (html : Bool) (D : Dic) (c c' : Coll) (isdic : Bool) (r : FileResult) (hc : Coll.Consistent c) (hs : Sound c)
    (h : validateFile D (checksM D) c isdic = (c', .ok r)) (k : Str) (hk : k ∈ toCheck c isdic) (b' : Block) (hb : c'.getItem k = .ok b')
    (i : Nat) (l : List Str) (hl : dget b'.loops i = some l) (n cat : Str) (hn : n ∈ l) (hcat : CategoryIs D n cat)
    (hno : dget D.parentLookup (lower cat) = none) : validateReport P r html = .error .key := by
  apply C111_raises P r html
  obtain ⟨-, -, h3, -⟩ := C92_file_partial D _ c c' isdic r hc hs h
  obtain ⟨b, b'', v, -, e2, -, -, e5, es, ⟨es1, es2, es3, s', -, hrun, -, rfl⟩, -, hd⟩ := h3 k hk
  rw [hb] at e2
  injection e2 with e2
  subst e2
  refine ⟨(k, v), dget_mem e5, .inl fun hex => ?_⟩
  obtain ⟨name, names, ev, rfl, ⟨hret, hkey⟩, hsub⟩ := loopsRun_mem hrun l (List.mem_map.mpr ⟨(i, l), dget_mem hl, rfl⟩)
  cases ev with
  | nil => simp [checksM] at hret
  | cons e r' =>
    simp only [checksM, List.map_cons, List.cons.injEq, Prod.mk.injEq] at hret
    obtain ⟨⟨hname, hout⟩, -⟩ := hret
    obtain ⟨d, ho⟩ := looping_bad hn hcat hno hout
    have hek := hkey e List.mem_cons_self
    have hem : e ∈ es1 ++ es2 ++ es3 := List.mem_append_left _ (List.mem_append_right _ (hsub e List.mem_cons_self))
    have hin : (e.check, e.outcome) ∈ failuresOf (es1 ++ es2 ++ es3) name := by
      simp only [failuresOf, List.mem_map, List.mem_filter, decide_eq_true_eq]
      exact ⟨e, ⟨hem, hek, by rw [ho]; trivial⟩, rfl⟩
    have hd := hd name
    rw [if_neg (List.ne_nil_of_mem hin)] at hd
    have hf : (⟨e.check, name, d⟩ : Failure) ∈ failuresIn v.2 := by
      simp only [failuresIn, List.mem_flatMap, List.mem_map]
      refine ⟨_, dget_mem hd, _, hin, ?_⟩
      simp only [ho]
    obtain ⟨x, hx⟩ := hex _ hf
    simp only [← hname] at hx
    have : explanation "validate_looping_ddlm".toList = none := by decide +kernel
    rw [this] at hx
    cases hx

end

/-! ## Cases -/

section
local instance : CaseFold := asciiFold

/-- A simple way of printing. -/
def plainPrinter : Printer where
  values l := l.flatMap fun v => match v with | .str s => s | _ => "?".toList
  items l := l.flatMap fun v => match v with | .str s => s | _ => "?".toList
  link v := match v with | .str s => s | _ => "?".toList

/-- A DDL1 dictionary in which `_a_p` has the parent `_p` and `_b_q` has the parent `_q`. -/
def twoLinks : Dic :=
  let child (n : String) : Block := (({} : Block).addItem "_list_link_parent".toList (.str n.toList)).1
  { names := ddl1Names
    find := fun s =>
      if s = "_p".toList then some {}
      else if s = "_q".toList then some {}
      else if s = "_a_p".toList then some (child "_p")
      else if s = "_b_q".toList then some (child "_q")
      else none
    keys := ["_p".toList, "_q".toList, "_a_p".toList, "_b_q".toList] }

/-- A file in which `_p` is missing, and `_b_q` has a value that `_q` does not have. -/
def linkFile : Coll :=
  let b := ((({} : Block).addItem "_a_p".toList (.str "1".toList)).1.addItem "_b_q".toList (.str "7".toList)).1
  let b := ((b.addItem "_q".toList (.str "2".toList)).1.addItem "_Own".toList (.str "x".toList)).1
  (({} : Coll).newBlock "Main".toList b).1

/-- Where C111 fails: the headings of a table are those for its first row. Here the first failure has a parent, and the second a value and a
parent: the wrong value `7` stands under the heading `Parent`, and the parent under none. -/
theorem C111_headings_fails :
    (validateFile twoLinks (checks12 twoLinks) linkFile).2.toOption.map (fun r => (validateReport plainPrinter r).toOption) = some (some
      ("Validation results\n------------------\n\n Block 'main' is INVALID\n".toList ++
       "\n The following items were not found in the dictionary:\nNote that this does not invalidate the data block\n_own\n".toList ++
       "\n\n A parent dataname is missing or contains different values:\n".toList ++
       "\nItem name                               Parent              \n".toList ++
       "\n_a_p                                    _p                  ".toList ++
       "\n_b_q                                    7                   _q                  \n\n".toList)) := by
  decide +kernel

/-- The same report as a web page. -/
example :
    (validateFile twoLinks (checks12 twoLinks) linkFile).2.toOption.map (fun r => (validateReport plainPrinter r true).toOption) = some (some
      ("<h2>Validation results</h2><h3>Block 'main' is INVALID</h3><p><p>The following items were not found in the dictionary".toList ++
       " (note that this does not invalidate the data block):</p><p><table>\n<tr><td>_own</td></tr></table>\n".toList ++
       "<h4>A parent dataname is missing or contains different values:</h4><table cellpadding=5><tr><th>Item name</th>".toList ++
       "<th>Parent</th></tr>\n<tr><td><tt>_a_p</tt></td><td><tt>_p</tt></td></tr>\n".toList ++
       "<tr><td><tt>_b_q</tt></td><td>7</td><td><tt>_q</tt></td></tr>\n</table>\n".toList)) := by
  decide +kernel

/-- The hypotheses of `C111_file` are met by this file. -/
example : Coll.Consistent linkFile ∧ (∃ r, (validateFile twoLinks (checks12 twoLinks) linkFile).2 = .ok r) := by
  refine ⟨Coll.newBlock_consistent (Coll.empty_consistent ..) _ _ _ _ ⟨nofun, nofun⟩, ?_⟩
  cases h : (validateFile twoLinks (checks12 twoLinks) linkFile).2 with
  | ok r => exact ⟨r, rfl⟩
  | error e =>
    have : ((validateFile twoLinks (checks12 twoLinks) linkFile).2.toOption).isSome = true := by decide +kernel
    rw [h] at this
    cases this

/-- The error, if any. -/
def errorOf {α : Type} : Except PyErr α → Option PyErr
  | .error e => some e
  | .ok _ => none

/-- A DDLm dictionary with an item of the category `cell`, which cannot be looped. -/
def setDic : Dic where
  names := ddlmNames
  find := fun s =>
    if s = "_cell.a".toList then some (({} : Block).addItem "_name.category_id".toList (.str "Cell".toList)).1 else none
  keys := ["_cell.a".toList]

/-- A file in which this item is looped. -/
def loopedFile : Coll :=
  let b := ((({} : Block).addItem "_cell.a".toList (.list [.str "1".toList, .str "2".toList])).1.createLoop ["_cell.a".toList]).1
  (({} : Coll).newBlock "m".toList b).1

/-- The hypotheses of `C111_looped_fails` can be met: the file is validated and found invalid, and there is no report. -/
example : CategoryIs setDic "_cell.a".toList "Cell".toList ∧ dget setDic.parentLookup (lower "Cell".toList) = none ∧
    (∃ b, loopedFile.getItem "m".toList = .ok b ∧ dget b.loops 1 = some ["_cell.a".toList]) ∧
    (validateFile setDic (checksM setDic) loopedFile).2.toOption.map (fun r => r.valid.map fun p => p.2.2.map fun q => q.2.map (·.1)) =
      some [[["validate_looping_ddlm".toList]]] ∧
    (validateFile setDic (checksM setDic) loopedFile).2.toOption.map (fun r => errorOf (validateReport plainPrinter r)) = some (some .key) := by
  refine ⟨⟨_, rfl, by decide +kernel⟩, by decide +kernel, ⟨_, rfl, by decide +kernel⟩, by decide +kernel, by decide +kernel⟩

end
end Verif.Validate
