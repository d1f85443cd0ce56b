import Verif.Lemmas.RemoveDic
import Verif.Props.CifDicTree
import Verif.Props.EditDic
/-! # C68: removing definitions -/
namespace Verif.CifDic
open Validate
set_option linter.unusedSectionVars false
variable [CaseFold]

theorem Minus.sound {d0 d : CifDic} {R : Str → Prop} (h0 : Sound d0) (h : Minus d0 R d) : Sound d where
  toKept := h.kept
  ids i hi := by
    rw [h.getItem h0.toKept hi]
    exact h0.ids i (h.mem.1 hi).1

theorem Minus.nested {d0 d : CifDic} {R : Str → Prop} (h0 : Kept d0) (hn : Nested d0) (h : Minus d0 R d) : Nested d := by
  intro i k j l hi hj hp
  have hi' : i ∈ d.keys := dget_isSome.1 ⟨k, hi⟩
  have hj' : j ∈ d.keys := dget_isSome.1 ⟨l, hj⟩
  unfold IsCategory InCategory
  rw [h.getItem h0 hi', h.getItem h0 hj']
  rw [h.stays i (h.mem.1 hi').2] at hi
  rw [h.parent _ (h.kept.blocks _ _ hj).1] at hp
  rw [h.stays j (h.mem.1 hj').2] at hj
  exact hn i k j l hi hj hp

/-- C68: removing a definition removes it and, if it is a category, everything below it, and nothing else. The dictionary stays in good
order, so that the theorem applies again. -/
theorem C68_remove {d : CifDic} (hd : Sound d) (hr : Readable d) (ha : Acyclic d) (hn : Nested d) {name : Str} (hc : d.contains name = true) :
    ∃ d', removeDefinition d name = (d', .ok ()) ∧ Sound d' ∧ Readable d' ∧ Acyclic d' ∧ Nested d' ∧
      (∀ x, x ∈ d'.keys ↔ x ∈ d.keys ∧ ¬ Goes d name x) ∧ ∀ x ∈ d'.keys, d'.getItem x = d.getItem x := by
  have hk : lower name ∈ d.keys := of_decide_eq_true hc
  obtain ⟨d', e, m⟩ := removeFuel_eq hd hr ha hn (d.table.length + 1) name _ d hk (fun _ => by
    have := Forest.size_le (kids := kids d) (open_ := isCat d) (K := d.keys) (lower name)
    unfold keys dkeys at this
    rw [List.length_map] at this
    exact Nat.lt_succ_of_le this) (Nat.succ_pos _) (Minus.refl hd.toKept) (fun _ _ h => h.elim)
  refine ⟨d', e, m.sound hd, m.readable hr hd.toKept, fun x hx => ha x (m.below hd.toKept hx), m.nested hd.toKept hn, fun x => ?_,
    fun x hx => m.getItem hd.toKept hx⟩
  rw [m.mem, goes_iff hr hk hd.toKept]
  simp only [false_or]

/-- C68: a name that is not defined is passed over. -/
theorem C68_missing {d : CifDic} {name : Str} (hc : d.contains name = false) : removeDefinition d name = (d, .ok ()) := by
  simp [removeDefinition, removeFuel, hc]

/-- C68 for `del`: a definition whose block encloses no other is removed, and nothing else. Missing: definitions whose blocks enclose others,
see `C68_stale_fails`. -/
theorem C68_delete_partial {d : CifDic} (hd : Sound d) {name : Str} (hc : d.contains name = true)
    (hleaf : ∀ j l k, dget d.table (lower name) = some k → dget d.table j = some l → Coll.parentOf d.coll (lower l) ≠ some (lower k)) :
    ∃ d', delItem d name = (d', .ok ()) ∧ Sound d' ∧ (∀ x, x ∈ d'.keys ↔ x ∈ d.keys ∧ x ≠ lower name) ∧
      ∀ x ∈ d'.keys, d'.getItem x = d.getItem x := by
  obtain ⟨k, hk⟩ := contains_iff.1 hc
  obtain ⟨d', e, m⟩ := (Minus.refl hd.toKept).del hk (fun x hx => by
    have hxm : x ∈ d.coll.lowerKeys := by
      rw [← hd.cons.mem_table]
      unfold Coll.parentOf at hx
      cases ht : dget d.coll.childTable x with
      | none => rw [ht] at hx; cases hx
      | some y => exact dget_isSome.1 ⟨y, ht⟩
    obtain ⟨j, l, hj, el⟩ := hd.ident x hxm (by rw [hx]; simp)
    exact hleaf j l k hk hj (by rw [el]; exact hx))
  refine ⟨d', e, m.sound hd, fun x => ?_, fun x hx => m.getItem hd.toKept hx⟩
  rw [m.mem]
  simp only [false_or]

/-! ## Examples and counterexamples -/

/-- A test of `Nested`. -/
def nestedCheck (d : CifDic) : Bool :=
  d.table.all fun p => d.table.all fun q => decide (Coll.parentOf d.coll (lower q.2) = some (lower p.2) →
    isCat d p.1 = true ∧ q.1 ∈ kids d p.1)

theorem nested_of_check {d : CifDic} (hr : Readable d) (h : nestedCheck d = true) : Nested d := by
  intro i k j l hi hj hp
  unfold nestedCheck at h
  simp only [List.all_eq_true, decide_eq_true_eq] at h
  obtain ⟨h1, h2⟩ := h _ (dget_mem hi) _ (dget_mem hj) hp
  have him : i ∈ d.keys := dget_isSome.1 ⟨k, hi⟩
  obtain ⟨b, hb, hpl⟩ := hr.found i him
  exact ⟨(isCategory_iff hb hpl).2 h1, ((mem_kids hr (hr.low i him) (hr.named i him)).1 h2).2⟩

theorem editDic_readable : letI := asciiFold; Readable (editDic 0) := by
  letI := asciiFold
  exact readable_of_check (by decide +kernel)

theorem editDic_acyclic : letI := asciiFold; Acyclic (editDic 0) := by
  letI := asciiFold
  refine acyclic_of_rank editDic_readable (fun x => ["demo".toList, "head".toList, "cell".toList, "angle".toList].idxOf x) ?_
  decide +kernel

theorem editDic_nested : letI := asciiFold; Nested (editDic 0) := by
  letI := asciiFold
  exact nested_of_check editDic_readable (by decide +kernel)

/-- The conditions are met; removing a category with a category below it. -/
example : letI := asciiFold
    Sound (editDic 0) ∧ Readable (editDic 0) ∧ Acyclic (editDic 0) ∧ Nested (editDic 0) ∧ (editDic 0).contains "Cell".toList = true ∧
    (removeDefinition (editDic 0) "Cell".toList).1.keys = ["head".toList] ∧
    (removeDefinition (editDic 0) "ANGLE".toList).1.keys =
      ["head".toList, "cell".toList, "_cell.length_a".toList, "_cell.length_b".toList] := by
  letI := asciiFold
  exact ⟨editDic_sound, editDic_readable, editDic_acyclic, editDic_nested, by decide +kernel, by decide +kernel, by decide +kernel⟩

/-- A name without definition; a definition without enclosed blocks. -/
example : letI := asciiFold
    (editDic 0).contains "atom".toList = false ∧ (editDic 0).contains "Cell".toList = true ∧
    ∀ j l k, dget (editDic 0).table (lower "Cell".toList) = some k → dget (editDic 0).table j = some l →
      Coll.parentOf (editDic 0).coll (lower l) ≠ some (lower k) := by
  letI := asciiFold
  refine ⟨by decide +kernel, by decide +kernel, fun j l k hk hj => ?_⟩
  have h : ((editDic 0).table.all fun p => (editDic 0).table.all fun q =>
    decide (Coll.parentOf (editDic 0).coll (lower q.2) ≠ some (lower p.2))) = true := by decide +kernel
  simp only [List.all_eq_true, decide_eq_true_eq] at h
  exact h _ (dget_mem hk) _ (dget_mem hj)

section Samples
attribute [local instance] asciiFold

/-- An item kept inside the block of its category, under another name than its identifier. -/
def insideColl : Coll := Coll.run { scoping := .dictionary, standard := some "Dic".toList }
  [.new "Demo".toList (itemsBlock [("_dictionary.title", "DEMO")]) true none,
   .new "CELL".toList (itemsBlock [("_definition.id", "CELL"), ("_definition.scope", "Category"), ("_name.category_id", "DEMO"),
     ("_name.object_id", "CELL")]) true (some "Demo".toList),
   .new "cell.length_a".toList (itemsBlock [("_definition.id", "_cell.length_a"), ("_name.category_id", "cell"), ("_name.object_id", "length_a")])
     true (some "CELL".toList)]

/-- The dictionary with these blocks. -/
def insideDic : CifDic :=
  { coll := insideColl, table := match defTable insideColl .ddlm with | .ok t => t | .error _ => [] }

end Samples

theorem insideDic_sound : letI := asciiFold
    Sound insideDic := by
  letI := asciiFold
  refine sound_of_check (Coll.reachable_consistent ?_) (by decide +kernel)
  unfold insideDic insideColl
  simp only [Coll.run]
  refine .step _ (.step _ (.step _ (.start _ _ _) ?_) ?_) ?_ <;>
    refine ⟨?_, fun h => ?_⟩
  all_goals first
    | (exact absurd h (by decide +kernel))
    | (intro q hq; cases hq; done)
    | (intro q hq; injection hq with hq; subst hq; decide +kernel)

/-- C68 fails for `del` of a definition whose block encloses others: their names stay in the dictionary, but they are gone.
(`remove_definition` removes both, by `C68_remove`.) -/
theorem C68_stale_fails : letI := asciiFold
    Sound insideDic ∧ Nested insideDic ∧ insideDic.keys = ["cell".toList, "_cell.length_a".toList] ∧
    outcome (delItem insideDic "cell".toList) = .ok () ∧ (delItem insideDic "cell".toList).1.keys = ["_cell.length_a".toList] ∧
    attrAfter (delItem insideDic "cell".toList) "_cell.length_a" idAttr = .error .key ∧
    (removeDefinition insideDic "cell".toList).1.keys = [] := by
  letI := asciiFold
  exact ⟨insideDic_sound, nested_of_check (readable_of_check (by decide +kernel)) (by decide +kernel), by decide +kernel, by decide +kernel,
    by decide +kernel, by decide +kernel, by decide +kernel⟩

/-- Without `Acyclic` the removal never ends. -/
theorem C68_cycle_fails : letI := asciiFold
    outcome (removeDefinition (framesDic [("A", [("_definition.id", "A"), ("_definition.scope", "Category"), ("_name.category_id", "B")]),
      ("B", [("_definition.id", "B"), ("_definition.scope", "Category"), ("_name.category_id", "A")])]) "A".toList) = .error .depth := by
  letI := asciiFold
  decide +kernel

end Verif.CifDic
