import Verif.Spec.Report
import Verif.Lemmas.Dict
import Verif.Lemmas.ValidateRun
/-! # Lemmas about reports on validations -/
namespace Verif.Validate
open Spec
set_option linter.unusedSectionVars false

theorem dget_step {β : Type} (a : Str) (b : β) (r : Dict Str β) (c : Str) : dget ((a, b) :: r) c = if c = a then some b else dget r c := by
  rw [dget]
  by_cases h : a = c
  · rw [if_pos h, if_pos h.symm]
  · rw [if_neg h, if_neg (Ne.symm h)]

theorem dget_append_step {β : Type} (a : Str) (b : β) (r e : Dict Str β) (c : Str) :
    dget ((a, b) :: r ++ e) c = if c = a then some b else dget (r ++ e) c := dget_step a b (r ++ e) c

theorem explanation_is (c : Str) : dget infoTable c = explanation c := by
  unfold infoTable infoTable1 infoTable2 explanation
  iterate 9 rw [dget_append_step]
  rw [List.nil_append]
  iterate 8 rw [dget_step]
  rfl

theorem nodup_eraseDups' : ∀ (n : Nat) (l : List Str), l.length ≤ n → l.eraseDups.Nodup
  | _, [], _ => by simp
  | 0, a :: l, h => by simp at h
  | n + 1, a :: l, h => by
    rw [List.eraseDups_cons, List.nodup_cons]
    refine ⟨?_, nodup_eraseDups' n _ ?_⟩
    · rw [List.mem_eraseDups, List.mem_filter]
      simp
    · have := List.length_filter_le (fun b => !b == a) l
      simp only [List.length_cons] at h
      omega

/-! ## The failures by check -/

/-- A failure as it is kept for the table. -/
def failRow (f : Failure) : Str × Detail := (f.item, f.detail)

def addF (d : Dict Str (List (Str × Detail))) (f : Failure) : Dict Str (List (Str × Detail)) :=
  match dget d f.check with
  | some l => dset d f.check (l ++ [failRow f])
  | none => dset d f.check [failRow f]

theorem errorTypes_foldl : ∀ (res : Dict Str Results) (d), errorTypes d res = (failuresIn res).foldl addF d
  | [], d => rfl
  | p :: r, d => by
    rw [errorTypes, errorTypes_foldl r, failuresIn, failuresIn, List.flatMap_cons, List.foldl_append, List.foldl_map]
    rfl

def tablesOf (fs : List Failure) : Dict Str (List (Str × Detail)) :=
  (failedChecks fs).map fun c => (c, (failuresOfCheck fs c).map failRow)

theorem failedChecks_snoc (fs : List Failure) (f : Failure) :
    failedChecks (fs ++ [f]) = if f.check ∈ failedChecks fs then failedChecks fs else failedChecks fs ++ [f.check] := by
  unfold failedChecks
  rw [List.map_append, List.eraseDups_append]
  simp only [List.mem_eraseDups, List.map_cons, List.map_nil, List.removeAll, List.filter_cons, List.filter_nil]
  by_cases h : f.check ∈ fs.map (·.check)
  · simp [h]
  · simp [h, List.eraseDups_cons]

theorem dget_map_pair {β : Type} (g : Str → β) : ∀ (l : List Str) (k : Str), dget (l.map fun c => (c, g c)) k = if k ∈ l then some (g k) else none
  | [], k => rfl
  | a :: l, k => by
    rw [List.map_cons, dget, dget_map_pair g l]
    by_cases h : a = k
    · subst h; simp
    · simp [h, Ne.symm h]

theorem dset_map_pair_mem {β : Type} (g : Str → β) (k : Str) (v : β) : ∀ (l : List Str), l.Nodup → k ∈ l →
    dset (l.map fun c => (c, g c)) k v = l.map fun c => (c, if c = k then v else g c)
  | [], _, h => by simp at h
  | a :: l, hn, h => by
    rw [List.map_cons, dset, List.map_cons]
    rw [List.nodup_cons] at hn
    by_cases hk : a = k
    · subst hk
      rw [if_pos rfl, if_pos rfl]
      congr 1
      apply List.map_congr_left
      intro c hc
      rw [if_neg (fun hh : c = a => hn.1 (hh ▸ hc))]
    · rw [if_neg hk, if_neg hk, dset_map_pair_mem g k v l hn.2 (by simpa [Ne.symm hk] using h)]

theorem dset_map_pair_new {β : Type} (g : Str → β) (k : Str) (v : β) : ∀ (l : List Str), k ∉ l →
    dset (l.map fun c => (c, g c)) k v = (l.map fun c => (c, g c)) ++ [(k, v)]
  | [], _ => rfl
  | a :: l, h => by
    simp only [List.mem_cons, not_or] at h
    rw [List.map_cons, dset, if_neg (Ne.symm h.1), dset_map_pair_new g k v l h.2, List.cons_append]

theorem foldl_addF (fs : List Failure) : fs.foldl addF [] = tablesOf fs := by
  suffices H : ∀ (gs : List Failure), (gs.reverse).foldl addF [] = tablesOf gs.reverse by
    simpa using H fs.reverse
  intro gs
  induction gs with
  | nil => rfl
  | cons f gs ih =>
    rw [List.reverse_cons, List.foldl_append, ih]
    generalize gs.reverse = l
    show addF (tablesOf l) f = _
    unfold addF tablesOf
    rw [dget_map_pair, failedChecks_snoc]
    have hn : (failedChecks l).Nodup := nodup_eraseDups' _ _ (Nat.le_refl _)
    by_cases h : f.check ∈ failedChecks l
    · rw [if_pos h, if_pos h]
      simp only
      rw [dset_map_pair_mem _ _ _ _ hn h]
      apply List.map_congr_left
      intro c hc
      unfold failuresOfCheck
      rw [List.filter_append]
      by_cases hc : c = f.check
      · subst hc; simp
      · simp [hc, Ne.symm hc]
    · rw [if_neg h, if_neg h]
      simp only
      rw [dset_map_pair_new _ _ _ _ h, List.map_append]
      have h0 : failuresOfCheck l f.check = [] := by
        unfold failuresOfCheck
        rw [List.filter_eq_nil_iff]
        intro g hg
        simp only [decide_eq_true_eq]
        intro he
        apply h
        unfold failedChecks
        rw [List.mem_eraseDups, List.mem_map]
        exact ⟨g, hg, he⟩
      congr 1
      · apply List.map_congr_left
        intro c hc
        unfold failuresOfCheck
        rw [List.filter_append]
        have hcf : f.check ≠ c := fun hh => h (hh ▸ hc)
        simp [hcf]
      · have h1 : failuresOfCheck (l ++ [f]) f.check = [f] := by
          unfold failuresOfCheck at h0 ⊢
          rw [List.filter_append, h0]
          simp
        simp [h1]

theorem errorTypes_tables (res : Dict Str Results) : errorTypes [] res = tablesOf (failuresIn res) := by
  rw [errorTypes_foldl, foldl_addF]

theorem failuresOfCheck_ne {fs : List Failure} {c : Str} (h : c ∈ failedChecks fs) : failuresOfCheck fs c ≠ [] := by
  unfold failedChecks at h
  rw [List.mem_eraseDups, List.mem_map] at h
  obtain ⟨f, hf, rfl⟩ := h
  intro h0
  have : f ∈ failuresOfCheck fs f.check := by
    unfold failuresOfCheck
    simp [hf]
  rw [h0] at this
  simp at this

theorem mem_failedChecks {fs : List Failure} {c : Str} : c ∈ failedChecks fs ↔ ∃ f ∈ fs, f.check = c := by
  unfold failedChecks
  rw [List.mem_eraseDups, List.mem_map]

/-! ## Tables -/

theorem textHead_is (d : Detail) : textHead d = tableLine "Item name".toList (headings d) ++ "\n".toList := by
  obtain ⟨v, i, p, c⟩ := d
  unfold textHead tableLine headings padTo column
  cases v <;> cases i <;> cases p <;> cases c <;> simp

theorem textRow_is (P : Printer) (f : Failure) : textRow P (failRow f) = "\n".toList ++ tableLine f.item (cells P f.detail) := by
  obtain ⟨c, i, v, it, p, ch⟩ := f
  unfold textRow tableLine cells padTo column failRow
  cases v <;> cases it <;> cases p <;> cases ch <;> simp

theorem htmlHead_is (d : Detail) :
    htmlHead d = ("Item name".toList :: headings d).flatMap (fun s => tagged "<th>".toList s "</th>".toList) ++ "</tr>\n".toList := by
  obtain ⟨v, i, p, c⟩ := d
  unfold htmlHead headings tagged
  cases v <;> cases i <;> cases p <;> cases c <;> simp

theorem htmlRow_is (P : Printer) (f : Failure) : htmlRow P (failRow f) =
    tagged "<tr><td><tt>".toList f.item "</tt></td>".toList ++ (htmlCells P f.detail).flatten ++ "</tr>\n".toList := by
  obtain ⟨c, i, v, it, p, ch⟩ := f
  unfold htmlRow htmlCells tagged failRow
  cases v <;> cases it <;> cases p <;> cases ch <;> simp

theorem checkReport_none (P : Printer) (html : Bool) {t : Str × List (Str × Detail)} (h : explanation t.1 = none) :
    checkReport P html t = .error .key := by
  unfold checkReport
  rw [explanation_is, h]

theorem checkReport_some (P : Printer) (html : Bool) {c x : Str} {rows : List Failure} (h : explanation c = some x) (hr : rows ≠ []) :
    checkReport P html (c, rows.map failRow) = .ok (if html then tableHtml P x rows else tableText P x rows) := by
  unfold checkReport
  simp only
  rw [explanation_is, h]
  cases rows with
  | nil => exact absurd rfl hr
  | cons f r =>
    cases html with
    | true =>
      simp only [if_true, List.map_cons, htmlErrorReport]
      rw [← List.map_cons (f := failRow), List.flatMap_map]
      simp only [htmlRow_is]
      rw [show (failRow f).2 = f.detail from rfl, htmlHead_is, tableHtml]
      simp [tagged]
    | false =>
      simp only [Bool.false_eq_true, if_false, List.map_cons, errorReport]
      rw [← List.map_cons (f := failRow), List.flatMap_map]
      simp only [textRow_is]
      rw [show (failRow f).2 = f.detail from rfl, textHead_is, tableText]
      simp only [bind, Except.bind]
      simp

end Verif.Validate
