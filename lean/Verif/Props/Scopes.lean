import Verif.Lemmas.Scopes
import Verif.Props.ValidateLoop
/-! # C113: the attributes a DDLm dictionary demands and forbids -/
namespace Verif.CifDic
open Block Validate Spec
set_option linter.unusedSectionVars false

section Laws
variable [CaseFold]

theorem lastRow_of_mem {rows : List ValidRow} (hu : (rows.map fun r => (r.scope, r.option)).Nodup) {r : ValidRow}
    (hr : r ∈ rows) : lastRow rows r.scope r.option = some r := by
  induction rows with
  | nil => simp at hr
  | cons q rest ih =>
    rw [List.map_cons, List.nodup_cons] at hu
    rw [lastRow_cons]
    rcases List.mem_cons.1 hr with h | h
    · rw [← h] at hu
      have : lastRow rest r.scope r.option = none := by
        unfold lastRow
        rw [List.getLast?_eq_none_iff, List.filter_eq_nil_iff]
        intro x hx hh
        refine hu.1 (List.mem_map.2 ⟨x, hx, ?_⟩)
        have := of_decide_eq_true hh
        rw [this.1, this.2]
      rw [this, ← h]
      simp
    · rw [ih hu.2 h]

theorem lastRow_none {rows : List ValidRow} {s o : Str} (h : ¬ ∃ r ∈ rows, r.scope = s ∧ r.option = o) : lastRow rows s o = none := by
  unfold lastRow
  rw [List.getLast?_eq_none_iff, List.filter_eq_nil_iff]
  intro x hx hh
  exact h ⟨x, hx, of_decide_eq_true hh⟩

/-- C113: reading the loop of validity information, in which no scope and option occur twice, never fails. Afterwards the
attributes demanded of a scope are those meant by the names in its row marked `Mandatory`, the forbidden ones those meant by
the names in its row marked `Prohibited`, and no others: a scope without such a row has no entry.
Missing: repeated rows (`C113_repeated_fails`), information that is not looped (`C113_unlooped_fails`) and single names given as
texts (`C113_text_fails`). -/
theorem C113_tables_partial {d : CifDic} (h : Readable d) (ha : Acyclic d) (hc : AnyCase d) {b : Block} {rows : List ValidRow}
    (hb : LoopOf b rows) (hu : (rows.map fun r => (r.scope, r.option)).Nodup) :
    ∃ t, parseValid d b = .ok t ∧
      (∀ r ∈ rows, r.option = "Mandatory".toList →
        ∃ l, dget t.mandatory r.scope = some l ∧ ∀ x, x ∈ l ↔ ∃ a ∈ r.attrs, Means d a x) ∧
      (∀ r ∈ rows, r.option = "Prohibited".toList →
        ∃ l, dget t.naughty r.scope = some l ∧ ∀ x, x ∈ l ↔ ∃ a ∈ r.attrs, Means d a x) ∧
      (∀ s, (dget t.mandatory s).isSome = true → ∃ r ∈ rows, r.scope = s ∧ r.option = "Mandatory".toList) ∧
      (∀ s, (dget t.naughty s).isSome = true → ∃ r ∈ rows, r.scope = s ∧ r.option = "Prohibited".toList) := by
  obtain ⟨ps, h1, h2, h3⟩ := parseValid_loop (d := d) hb
  obtain ⟨t, h4, h5⟩ := parseRows_tables h ha hc rows ps {} h2 h3
  refine ⟨t, h1.trans h4, ?_, ?_, ?_, ?_⟩
  · intro r hr ho
    have := (h5 r.scope).1
    rw [← ho, lastRow_of_mem hu hr] at this
    exact this
  · intro r hr ho
    have := (h5 r.scope).2
    rw [← ho, lastRow_of_mem hu hr] at this
    exact this
  · intro s hs
    by_cases hr : ∃ r ∈ rows, r.scope = s ∧ r.option = "Mandatory".toList
    · exact hr
    · have := (h5 s).1
      rw [lastRow_none hr] at this
      rw [show dget t.mandatory s = none from this] at hs
      cases hs
  · intro s hs
    by_cases hr : ∃ r ∈ rows, r.scope = s ∧ r.option = "Prohibited".toList
    · exact hr
    · have := (h5 s).2
      rw [lastRow_none hr] at this
      rw [show dget t.naughty s = none from this] at hs
      cases hs

/-- C113, from the dictionary to the verdict: a block whose scope has a row marked `Mandatory` passes the check for mandatory
attributes exactly when it has every attribute meant by the names in that row; one whose scope has a row marked `Prohibited`
passes the other check exactly when it has none of those meant there. -/
theorem C113_checked {d : CifDic} (h : Readable d) (ha : Acyclic d) (hc : AnyCase d) {b : Block} {rows : List ValidRow}
    (hb : LoopOf b rows) (hu : (rows.map fun r => (r.scope, r.option)).Nodup) (D : Dic) (wb : Block) {r : ValidRow}
    (hr : r ∈ rows) (hs : ScopeIs wb r.scope) :
    ∃ t, parseValid d b = .ok t ∧
      (r.option = "Mandatory".toList → ∃ o, checkMandatoryItems (t.dic D) wb = .ok o ∧
        (o = .good ↔ ∀ a ∈ r.attrs, ∀ x, Means d a x → Present wb x)) ∧
      (r.option = "Prohibited".toList → ∃ o, checkProhibitedItems (t.dic D) wb = .ok o ∧
        (o = .good ↔ ∀ a ∈ r.attrs, ∀ x, Means d a x → ¬ Present wb x)) := by
  obtain ⟨t, h1, h2, h3, -, -⟩ := C113_tables_partial h ha hc hb hu
  refine ⟨t, h1, fun ho => ?_, fun ho => ?_⟩
  · obtain ⟨l, hl, hm⟩ := h2 r hr ho
    obtain ⟨o, ho1, ho2, -⟩ := C45_mandatory (t.dic D) wb r.scope l hs hl
    refine ⟨o, ho1, ho2.trans ?_⟩
    constructor
    · intro hh a ha' x hx; exact hh x ((hm x).2 ⟨a, ha', hx⟩)
    · intro hh n hn
      obtain ⟨a, ha', hx⟩ := (hm n).1 hn
      exact hh a ha' n hx
  · obtain ⟨l, hl, hm⟩ := h3 r hr ho
    obtain ⟨o, ho1, ho2, -⟩ := C45_prohibited (t.dic D) wb r.scope l hs hl
    refine ⟨o, ho1, ho2.trans ?_⟩
    constructor
    · intro hh a ha' x hx; exact hh x ((hm x).2 ⟨a, ha', hx⟩)
    · intro hh n hn
      obtain ⟨a, ha', hx⟩ := (hm n).1 hn
      exact hh a ha' n hx

/-- C113 fails for a scope of which nothing is demanded: as soon as something is demanded of another scope, the check of a
block of this scope ends in a `KeyError` instead of passing. The same goes for what is forbidden. -/
theorem C113_unlisted_fails {d : CifDic} (h : Readable d) (ha : Acyclic d) (hc : AnyCase d) {b : Block} {rows : List ValidRow}
    (hb : LoopOf b rows) (hu : (rows.map fun r => (r.scope, r.option)).Nodup) (D : Dic) (wb : Block) {s : Str}
    (hs : ScopeIs wb s) :
    ∃ t, parseValid d b = .ok t ∧
      ((∃ r ∈ rows, r.option = "Mandatory".toList) → (∀ r ∈ rows, r.scope = s → r.option ≠ "Mandatory".toList) →
        checkMandatoryItems (t.dic D) wb = .error .key) ∧
      ((∃ r ∈ rows, r.option = "Prohibited".toList) → (∀ r ∈ rows, r.scope = s → r.option ≠ "Prohibited".toList) →
        checkProhibitedItems (t.dic D) wb = .error .key) := by
  obtain ⟨t, h1, h2, h3, h4, h5⟩ := C113_tables_partial h ha hc hb hu
  refine ⟨t, h1, ?_, ?_⟩
  · rintro ⟨r, hr, ho⟩ hno
    obtain ⟨l, hl, -⟩ := h2 r hr ho
    have hne : (t.dic D).mandatory ≠ [] := by
      intro e
      have e' : t.mandatory = [] := e
      rw [e'] at hl; cases hl
    have hnone : dget (t.dic D).mandatory s = none := by
      cases hq : dget (t.dic D).mandatory s with
      | none => rfl
      | some v =>
        obtain ⟨q, hq1, hq2, hq3⟩ := h4 s (by rw [show dget t.mandatory s = some v from hq]; rfl)
        exact absurd hq3 (hno q hq1 hq2)
    rw [checkMandatoryItems, if_neg hne]
    simp only [blockScope_is hs, bind, Except.bind, hnone]
  · rintro ⟨r, hr, ho⟩ hno
    obtain ⟨l, hl, -⟩ := h3 r hr ho
    have hne : (t.dic D).naughty ≠ [] := by
      intro e
      have e' : t.naughty = [] := e
      rw [e'] at hl; cases hl
    have hnone : dget (t.dic D).naughty s = none := by
      cases hq : dget (t.dic D).naughty s with
      | none => rfl
      | some v =>
        obtain ⟨q, hq1, hq2, hq3⟩ := h5 s (by rw [show dget t.naughty s = some v from hq]; rfl)
        exact absurd hq3 (hno q hq1 hq2)
    rw [checkProhibitedItems, if_neg hne]
    simp only [blockScope_is hs, bind, Except.bind, hnone]

/-- C113 fails when the information is not in a loop: opening the dictionary ends in a `KeyError`, whatever the value. -/
theorem C113_unlooped_fails (d : CifDic) (b : Block) (h : b.contains appAttr = true) (hl : b.findLoop appAttr = none) :
    parseValid d b = .error .key := by
  unfold parseValid getLoop
  simp only [h, hl, if_true, bind, Except.bind]

/-- C113: a dictionary without validity information demands and forbids nothing. -/
theorem C113_none (d : CifDic) (b : Block) (D : Dic) (wb : Block) (h : b.contains appAttr = false) :
    ∃ t, parseValid d b = .ok t ∧ checkMandatoryItems (t.dic D) wb = .ok .good ∧ checkProhibitedItems (t.dic D) wb = .ok .good := by
  refine ⟨{}, ?_, rfl, rfl⟩
  unfold parseValid
  simp only [h, Bool.false_eq_true, if_false]

end Laws

section Samples
local instance scopesFold : CaseFold := asciiFold

/-- The value of a row, as it is read. -/
def validCol (rows : List ValidRow) : PyVal × PyVal :=
  (.list (rows.map fun r => .slist [.str r.scope, .str r.option]), .list (rows.map fun r => .slist (r.attrs.map .str)))

/-- A block with the loop. -/
def validBlock (rows : List ValidRow) : Block :=
  (((({} : Block).addItem appAttr (validCol rows).1).1.addItem validAttr (validCol rows).2).1.createLoop [appAttr, validAttr]).1

/-- Two scopes, with a category in other capitals, and a row that says nothing. -/
def validRows : List ValidRow :=
  [⟨"Item".toList, "Mandatory".toList, ["Cell".toList, "_name.object_id".toList]⟩,
   ⟨"Item".toList, "Prohibited".toList, ["_dictionary.title".toList]⟩,
   ⟨"Item".toList, "Recommended".toList, ["_description.text".toList]⟩,
   ⟨"Dictionary".toList, "Mandatory".toList, ["_dictionary.title".toList]⟩]

theorem validBlock_loop : LoopOf (validBlock validRows) validRows := by
  refine ⟨⟨1, [appAttr, validAttr], by decide +kernel, by decide +kernel, by decide +kernel, by decide +kernel, by decide +kernel,
    by decide +kernel, by decide +kernel, ?_⟩, by decide +kernel, by decide +kernel⟩
  intro s hs
  rcases List.mem_cons.1 hs with h | h
  · exact ⟨_, by rw [h]; exact (by decide +kernel : (validBlock validRows).getItem appAttr = .ok (validCol validRows).1), by decide +kernel⟩
  · rw [List.mem_singleton] at h
    exact ⟨_, by rw [h]; exact (by decide +kernel : (validBlock validRows).getItem validAttr = .ok (validCol validRows).2), by decide +kernel⟩

theorem cellDic_anyCase : AnyCase cellDic := by
  intro a ha
  have h1 : ∃ b, byId cellDic (lower a) = .ok b := by
    have : ∀ k ∈ cellDic.keys, (match byId cellDic k with | .ok _ => true | .error _ => false) = true := by decide +kernel
    have := this _ ha
    cases hb : byId cellDic (lower a) with
    | ok b => exact ⟨b, rfl⟩
    | error e => rw [hb] at this; cases this
  obtain ⟨b, hb⟩ := h1
  have hb' : byId cellDic a = .ok b := by
    unfold byId at hb ⊢
    rw [CaseFold.lower_lower] at hb
    exact hb
  unfold getItem
  rw [hb, hb']

/-- The hypotheses of C113 are met, and both verdicts occur. -/
example : Readable cellDic ∧ Acyclic cellDic ∧ AnyCase cellDic ∧ LoopOf (validBlock validRows) validRows ∧
    (validRows.map fun r => (r.scope, r.option)).Nodup ∧ ScopeIs {} "Item".toList ∧
    parseValid cellDic (validBlock validRows) = .ok
      { mandatory := [("Item".toList, ["_cell.length_a".toList, "_cell.length_b".toList, "_name.object_id".toList]),
          ("Dictionary".toList, ["_dictionary.title".toList])]
        naughty := [("Item".toList, ["_dictionary.title".toList])] } :=
  ⟨cellDic_readable, cellDic_acyclic, cellDic_anyCase, validBlock_loop, by decide +kernel,
    .inr (.inr ⟨by decide +kernel, by decide +kernel, rfl⟩), by decide +kernel⟩

/-- C113 fails when a scope and an option occur twice: only the last row counts, the names in the others are not demanded. -/
theorem C113_repeated_fails : parseValid cellDic (validBlock
      [⟨"Item".toList, "Mandatory".toList, ["_definition.id".toList]⟩, ⟨"Item".toList, "Mandatory".toList, ["_name.object_id".toList]⟩]) =
    .ok { mandatory := [("Item".toList, ["_name.object_id".toList])] } := by
  decide +kernel

/-- C113 fails for names of attributes given as one text instead of a list: each character is demanded. -/
theorem C113_text_fails : parseValid cellDic
    (((({} : Block).addItem appAttr (.list [.slist [.str "Item".toList, .str "Mandatory".toList]])).1.addItem validAttr
      (.list [.str "_a.b".toList])).1.createLoop [appAttr, validAttr]).1 =
    .ok { mandatory := [("Item".toList, ["_".toList, "a".toList, ".".toList, "b".toList])] } := by
  decide +kernel

/-- The hypotheses of `C113_unlooped_fails`. -/
example : let b := (({} : Block).addItem appAttr (.slist [.str "Item".toList, .str "Mandatory".toList])).1
    b.contains appAttr = true ∧ b.findLoop appAttr = none := by decide +kernel

end Samples
end Verif.CifDic
