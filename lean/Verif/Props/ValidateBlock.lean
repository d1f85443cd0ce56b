import Verif.Lemmas.ValidateRun
import Verif.Lemmas.BlockValue
/-! # C47 and C48: the verdict on a block, and blocks that stay valid -/
namespace Verif.Validate
open Spec
variable [CaseFold]
set_option linter.unusedSectionVars false
set_option synthInstance.maxSize 1000

/-! ## C47 -/

/-- C47: when all checks of a block have been carried out, with the results `es`, it is reported as valid exactly when none of
them is a failure; the report has, for each key, exactly the failures with that key, in the order of the run, no key
twice, and no key without failures. -/
theorem C47_verdict (C : Checks) (wb : Block) (s : Option Done) (es : List Event) (h : BlockRun C wb s es) :
    ∃ valid report, runDataChecks C wb s = .ok (valid, report) ∧ (valid = true ↔ ∀ e ∈ es, ¬ Fails e.outcome) ∧
      (∀ k, dget report k = if failuresOf es k = [] then none else some (failuresOf es k)) ∧ (dkeys report).Nodup := by
  obtain ⟨d, h1, h2, h3⟩ := runDataChecks_run h
  have hf : ∀ k, failing (under d k) = failuresOf es k := by
    intro k
    rw [h3, failuresOf_results]
  refine ⟨_, _, h1, ?_, ?_, nodup_contract h2⟩
  · rw [decide_eq_true_eq, contract_nil h2, ← failuresOf_nil]
    simp only [hf]
  · intro k
    rw [dget_contract h2, hf]

/-- C47: whenever a verdict is given, all checks have been carried out. -/
theorem C47_complete (C : Checks) (wb : Block) (s : Option Done) (valid : Bool) (report : Dict Str Results)
    (h : runDataChecks C wb s = .ok (valid, report)) : ∃ es, BlockRun C wb s es := runDataChecks_ok h

/-- C47 in short: a verdict of validity means that every check that was carried out succeeded or did not apply. -/
theorem C47_valid (C : Checks) (wb : Block) (s : Option Done) (valid : Bool) (report : Dict Str Results)
    (h : runDataChecks C wb s = .ok (valid, report)) :
    ∃ es, BlockRun C wb s es ∧ (valid = true ↔ ∀ e ∈ es, ¬ Fails e.outcome) ∧ (valid = true ↔ report = []) := by
  obtain ⟨es, he⟩ := C47_complete C wb s valid report h
  obtain ⟨v, r, h1, h2, h3, -⟩ := C47_verdict C wb s es he
  rw [h] at h1
  injection h1 with h1
  injection h1 with hv hr
  subst hv hr
  refine ⟨es, he, h2, ?_⟩
  rw [h2, ← failuresOf_nil]
  constructor
  · intro hn
    cases hc : report with
    | nil => rfl
    | cons p r =>
      have := h3 p.1
      rw [hc, if_pos (hn _)] at this
      simp [dget] at this
  · intro hn k
    have := h3 k
    rw [hn] at this
    apply Classical.byContradiction
    intro hne
    rw [if_neg hne] at this
    cases this

/-- A DDL1 dictionary: `_c_p` and `_d_p` have the parent `_p_id`; `_p_id` is restricted to two values. -/
def runDic : Dic :=
  letI := asciiFold
  let child : Block := (({} : Block).addItem "_list_link_parent".toList (.str "_p_id".toList)).1
  { names := ddl1Names
    find := fun s =>
      if s = "_p_id".toList then some (({} : Block).addItem "_enumeration".toList (.list [.str "1".toList, .str "2".toList])).1
      else if s = "_c_p".toList then some child
      else if s = "_d_p".toList then some child
      else none
    keys := ["_p_id".toList, "_c_p".toList, "_d_p".toList] }

/-- A block in which `_p_id` and `_d_p` have wrong values. -/
def runBlockSample : Block :=
  letI := asciiFold
  (((({} : Block).addItem "_p_id".toList (.list [.str "1".toList, .str "3".toList])).1.addItem "_c_p".toList (.str "1".toList)).1.addItem
    "_d_p".toList (.str "7".toList)).1

/-- The theorems on C47 in use: both failures are reported, each under its item. -/
example : letI := asciiFold
    runDataChecks (checks12 runDic) runBlockSample =
      .ok (false, [("_p_id".toList, [("validate_item_enum".toList, .bad { values := some [.str "3".toList] })]),
        ("_d_p".toList, [("validate_parent".toList, .bad { values := some [.str "7".toList], parent := some (.str "_p_id".toList) })])]) := by
  decide +kernel

/-- The hypothesis of `C47_verdict` is met by this block. -/
example : letI := asciiFold
    ∃ es, BlockRun (checks12 runDic) runBlockSample none es :=
  letI := asciiFold
  C47_complete (checks12 runDic) runBlockSample none false
    [("_p_id".toList, [("validate_item_enum".toList, .bad { values := some [.str "3".toList] })]),
      ("_d_p".toList, [("validate_parent".toList, .bad { values := some [.str "7".toList], parent := some (.str "_p_id".toList) })])]
    (by decide +kernel)

/-- The same block without the wrong value of `_p_id`. -/
def runBlockOne : Block :=
  letI := asciiFold
  (((({} : Block).addItem "_p_id".toList (.list [.str "1".toList, .str "2".toList])).1.addItem "_c_p".toList (.str "1".toList)).1.addItem
    "_d_p".toList (.str "7".toList)).1

/-- Validating blocks switch optimisation on, which changes the verdict: the wrong value of `_d_p` is found without
optimisation and overlooked with it. -/
theorem C42_verdict_fails :
    letI := asciiFold
    runDataChecks (checks12 runDic) runBlockOne none =
      .ok (false, [("_d_p".toList, [("validate_parent".toList, .bad { values := some [.str "7".toList], parent := some (.str "_p_id".toList) })])]) ∧
    runDataChecks (checks12 runDic) runBlockOne (some {}) = .ok (true, []) := by
  decide +kernel

/-! ## C48 -/

/-- Every check of the list returns a result, and none is a failure. -/
def AllPass (rs : List (Except PyErr Outcome)) : Prop := ∀ r ∈ rs, ∃ o, r = .ok o ∧ ¬ Fails o

/-- C48: `AddItem` either raises an error and leaves the block as it was, or succeeds; then the value is stored under the name,
everything else is unchanged, and if the dictionary knows the name, all checks of the item passed. -/
theorem C48_add (D : Dic) (C : Checks) (wb : Block) (key : Str) (v : PyVal) :
    (∃ e, addItem D C wb key v = (wb, .error e)) ∨
    (∃ wb', addItem D C wb key v = (wb', .ok ()) ∧
      (∀ k, k ≠ Block.saves → wb'.lookup k = if lower k = lower key then some v else wb.lookup k) ∧
      (D.known key = true → AllPass (C.item.map fun f => f.2 key v) ∧
        ∃ es s, GlobalRun wb key v none C.global es s ∧ ∀ e ∈ es, ¬ Fails e.outcome)) := by
  unfold addItem
  cases hc : addItemChecks D C wb key v with
  | error e => exact .inl ⟨e, rfl⟩
  | ok u =>
    cases u
    simp only
    generalize ha : wb.addItem key v = p
    obtain ⟨wb', r⟩ := p
    cases r with
    | error e =>
      left
      rw [Block.addItem_err ha]
      exact ⟨e, rfl⟩
    | ok u =>
      right
      cases u
      refine ⟨wb', rfl, ?_, ?_⟩
      · intro k hk
        rw [Block.lookup_val _ _ hk, Block.lookup_val _ _ hk, Block.val_addItem ha (by simp)]
      · intro hkn
        exact addItemChecks_pass hc hkn

/-- The block after `AddItem` with each name and value in turn, errors being ignored. -/
def addAll (D : Dic) (C : Checks) (wb : Block) (ops : List (Str × PyVal)) : Block :=
  ops.foldl (fun b op => (addItem D C b op.1 op.2).1) wb

/-- C48, histories: after any number of calls of `AddItem` each value in the block was there at the start, or was given in one of
the calls and, if the dictionary knows its name, passed all checks of the item. -/
theorem C48_history (D : Dic) (C : Checks) (wb : Block) (ops : List (Str × PyVal)) (k : Str) (w : PyVal) (hk : k ≠ Block.saves)
    (h : (addAll D C wb ops).lookup k = some w) :
    wb.lookup k = some w ∨
    ∃ key, (key, w) ∈ ops ∧ lower key = lower k ∧ (D.known key = true → AllPass (C.item.map fun f => f.2 key w)) := by
  induction ops generalizing wb with
  | nil => exact .inl h
  | cons op r ih =>
    obtain ⟨key, v⟩ := op
    have h' : (addAll D C (addItem D C wb key v).1 r).lookup k = some w := h
    rcases ih _ h' with h1 | ⟨key', h1, h2, h3⟩
    · rcases C48_add D C wb key v with ⟨e, he⟩ | ⟨wb', he, hl, hp⟩
      · rw [he] at h1
        exact .inl h1
      · rw [he, hl k hk] at h1
        by_cases hkk : lower k = lower key
        · rw [if_pos hkk] at h1
          injection h1 with h1
          subst h1
          exact .inr ⟨key, List.mem_cons_self, hkk.symm, fun hkn => (hp hkn).1⟩
        · rw [if_neg hkk] at h1
          exact .inl h1
    · exact .inr ⟨key', List.mem_cons_of_mem _ h1, h2, h3⟩

/-- The hypotheses of the theorems on C48: a wrong value is refused, a right one is stored. -/
example : letI := asciiFold
    (addItem runDic (checks12 runDic) {} "_p_id".toList (.str "3".toList)).2 = .error .valid ∧
    (addItem runDic (checks12 runDic) {} "_P_id".toList (.str "3".toList)).2 = .error .key ∧
    (addItem runDic (checks12 runDic) {} "_p_id".toList (.str "2".toList)).2 = .ok () ∧
    (addItem runDic (checks12 runDic) {} "_c_p".toList (.str "2".toList)).2 = .error .valid ∧
    (addItem runDic (checks12 runDic) {} "_unknown".toList (.str "2".toList)).2 = .ok () := by decide +kernel

/-- A dictionary in which `_a` excludes `_b`, but nothing is said in the definition of `_b`. -/
def excludeDic : Dic :=
  letI := asciiFold
  { names := ddl1Names
    find := fun s =>
      if s = "_a".toList then
        some ((({} : Block).addItem "_related_item".toList (.str "_b".toList)).1.addItem "_related_function".toList
          (.str "alternate_exclusive".toList)).1
      else if s = "_b".toList then some {}
      else none
    keys := ["_a".toList, "_b".toList] }

/-- What C48 does not say: a block filled by `AddItem` need not be valid, since the items already present are not checked
again. -/
theorem C48_later_invalid :
    letI := asciiFold
    let b := addAll excludeDic (checks12 excludeDic) {} [("_a".toList, .str "1".toList), ("_b".toList, .str "2".toList)]
    b.keys = ["_a".toList, "_b".toList] ∧
    runDataChecks (checks12 excludeDic) b =
      .ok (false, [("_a".toList, [("validate_exclusion".toList, .bad { items := some [.str "_b".toList] })])]) := by
  decide +kernel

end Verif.Validate
