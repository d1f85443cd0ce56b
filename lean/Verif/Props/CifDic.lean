import Verif.Lemmas.CifDic
/-! # C54: finding definitions -/
set_option linter.unusedSectionVars false
namespace Verif.CifDic
open Validate

section Samples
attribute [local instance] asciiFold

/-- A block with the given text items. -/
def itemsBlock : List (String × String) → Block
  | [] => {}
  | (k, v) :: r => ((itemsBlock r).addItem k.toList (.str v.toList)).1

/-- A dictionary `demo` with frames of the given names and contents. -/
def frames (l : List (String × List (String × String))) : Coll :=
  Coll.run { scoping := .dictionary, standard := some "Dic".toList }
    (.new "Demo".toList (itemsBlock [("_dictionary.title", "DEMO")]) true none ::
      l.map fun a => .new a.1.toList (itemsBlock a.2) true (some "Demo".toList))

/-- A category, two items in it and a further category. -/
def cellFrames : List (String × List (String × String)) :=
  [("HEAD", [("_definition.id", "HEAD"), ("_definition.scope", "Category"), ("_definition.class", "Head"),
     ("_name.category_id", "DEMO")]),
   ("CELL", [("_definition.id", "CELL"), ("_definition.scope", "Category"), ("_name.category_id", "HEAD")]),
   ("cell.length_a", [("_definition.id", "_cell.length_a"), ("_name.category_id", "cell")]),
   ("cell.length_b", [("_definition.id", "_Cell.Length_B"), ("_name.category_id", "cell"), ("_definition.scope", "Item")]),
   ("ANGLE", [("_definition.id", "ANGLE"), ("_definition.scope", "Category"), ("_name.category_id", "Cell")])]

/-- The collection of `cellFrames`. -/
def cellColl : Coll := frames cellFrames

end Samples

/-- Every collection of frames is consistent. -/
theorem frames_reachable : letI := asciiFold
    cellColl.Reachable := by
  letI := asciiFold
  unfold cellColl frames cellFrames
  simp only [List.map_cons, List.map_nil, Coll.run]
  refine .step _ (.step _ (.step _ (.step _ (.step _ (.step _ (.start _ _ _) ?_) ?_) ?_) ?_) ?_) ?_ <;>
    refine ⟨?_, fun h => ?_⟩
  all_goals first
    | (exact absurd h (by decide +kernel))
    | (intro q hq; cases hq; done)
    | (intro q hq; injection hq with hq; subst hq; decide +kernel)

variable [CaseFold]

/-- C54: building the table of definitions fails exactly when two blocks have the same identifier, and then with a
`CifError`. -/
theorem C54_duplicates {c : Coll} {L : Lang} (hc : c.Consistent) (ht : Texts c L) :
    ((∃ k k' s, k ≠ k' ∧ Names c L k s ∧ Names c L k' s) ∧ defTable c L = .error .cif) ∨
    ((¬ ∃ k k' s, k ≠ k' ∧ Names c L k s ∧ Names c L k' s) ∧ ∃ t, defTable c L = .ok t) := by
  rw [defTable_eq ht]
  have key : (c.keys.map (idOf c L)).Nodup ↔ ¬ ∃ k k' s, k ≠ k' ∧ Names c L k s ∧ Names c L k' s := by
    rw [nodup_map_iff hc.nd_visible]
    constructor
    · rintro h ⟨k, k', s, hne, h1, h2⟩
      obtain ⟨b, _, _, e1⟩ := idOf_spec ht h1.1
      obtain ⟨b', _, _, e2⟩ := idOf_spec ht h2.1
      exact hne (h k h1.1 k' h2.1 (((e1 s).1 h1).symm.trans ((e2 s).1 h2)))
    · intro h k hk k' hk' e
      apply Classical.byContradiction
      intro hne
      obtain ⟨b, _, _, e1⟩ := idOf_spec ht hk
      obtain ⟨b', _, _, e2⟩ := idOf_spec ht hk'
      exact h ⟨k, k', _, hne, (e1 _).2 rfl, (e2 _).2 e⟩
  by_cases h : (c.keys.map (idOf c L)).Nodup
  · rw [if_pos h]
    exact .inr ⟨key.1 h, _, rfl⟩
  · rw [if_neg h]
    exact .inl ⟨Classical.not_not.1 (fun hn => h (key.2 hn)), rfl⟩

theorem table_get {c : Coll} {L : Lang} {t : Dict Str Str} (hc : c.Consistent) (ht : Texts c L) (h : defTable c L = .ok t)
    {k s : Str} (hk : Names c L k s) (ho : ¬ Outer c L k)
    (hu : ∀ k' s', Names c L k' s' → ¬ Outer c L k' → lower s' = lower s → k' = k) : dget t (lower s) = some k := by
  rw [defTable_eq ht] at h
  split at h
  · injection h with h
    subst h
    have hid : ∀ j, j ∈ c.keys → Names c L j (idOf c L j) := fun j hj => by
      obtain ⟨_, _, _, e⟩ := idOf_spec ht hj
      exact (e _).2 rfl
    obtain ⟨_, _, _, ek⟩ := idOf_spec ht hk.1
    have es : s = idOf c L k := (ek s).1 hk
    rw [dget_dupdate_last (v := k)]
    · rw [if_pos]
      unfold dkeys entries
      simp only [List.map_map, List.mem_map, List.mem_filter, decide_eq_true_eq, Function.comp]
      exact ⟨k, ⟨hk.1, fun hh => ho ((outer_iff hc hk.1).1 hh)⟩, by rw [es]⟩
    · intro p hp
      unfold entries at hp
      simp only [List.mem_map, List.mem_filter, decide_eq_true_eq] at hp
      obtain ⟨j, ⟨hj, hjt⟩, rfl⟩ := hp
      intro e
      simp only at e ⊢
      rw [(keys_low hc hj).2]
      exact hu j _ (hid j hj) (fun hh => hjt ((outer_iff hc hj).2 hh)) e
  · cases h

/-- C54: after the table has been built, a definition is found by its identifier in any capitalisation, provided no other
definition has an identifier that differs from it in case only.
Missing: identifiers that differ in case only, of which one hides the other (`C54_case_fails`), and DDL2 definitions with several
names (`C54_list_fails`). -/
theorem C54_found_partial {c : Coll} {L : Lang} {t : Dict Str Str} {i : List Imported} (hc : c.Consistent) (ht : Texts c L)
    (h : defTable c L = .ok t) {k s : Str} (hk : Names c L k s) (ho : ¬ Outer c L k)
    (hu : ∀ k' s', Names c L k' s' → ¬ Outer c L k' → lower s' = lower s → k' = k) (name : Str) (hn : lower name = lower s) :
    (CifDic.getItem ⟨c, t, L, i⟩ name = c.getItem k) ∧ (∃ b, c.getItem k = .ok b) ∧ CifDic.contains ⟨c, t, L, i⟩ name = true := by
  have hg := table_get hc ht h hk ho hu
  obtain ⟨_, b, hb, _⟩ := hk
  refine ⟨?_, ⟨b, hb⟩, ?_⟩
  · simp only [getItem, byId, hn, hg, hb]
  · have := dget_isSome.1 ⟨k, hg⟩
    simp only [contains, keys, hn, decide_eq_true_eq]
    exact this

/-- C54: the names under which definitions are listed are exactly their identifiers in lower case, each once. -/
theorem C54_keys {c : Coll} {L : Lang} {t : Dict Str Str} {i : List Imported} (hc : c.Consistent) (ht : Texts c L)
    (h : defTable c L = .ok t) :
    (CifDic.keys ⟨c, t, L, i⟩).Nodup ∧
    ∀ x, x ∈ CifDic.keys ⟨c, t, L, i⟩ ↔ ∃ k s, Names c L k s ∧ ¬ Outer c L k ∧ lower s = x := by
  rw [defTable_eq ht] at h
  split at h
  · injection h with h
    subst h
    refine ⟨nodup_dkeys_dupdate _ _ (by simp [dkeys]), fun x => ?_⟩
    unfold keys
    rw [mem_dkeys_dupdate]
    unfold dkeys entries
    simp only [List.map_nil, List.not_mem_nil, false_or, List.map_map, List.mem_map, List.mem_filter, decide_eq_true_eq, Function.comp]
    constructor
    · rintro ⟨k, ⟨hk, hkt⟩, rfl⟩
      obtain ⟨_, _, _, e⟩ := idOf_spec ht hk
      exact ⟨k, _, (e _).2 rfl, fun hh => hkt ((outer_iff hc hk).2 hh), rfl⟩
    · rintro ⟨k, s, hk, ho, rfl⟩
      obtain ⟨_, _, _, e⟩ := idOf_spec ht hk.1
      exact ⟨k, ⟨hk.1, fun hh => ho ((outer_iff hc hk.1).1 hh)⟩, by rw [(e s).1 hk]⟩
  · cases h

/-- C54: a name that is no identifier stands for the block of that name; if there is none, and no imported dictionary to
look in, the lookup raises `KeyError`. -/
theorem C54_others {c : Coll} {L : Lang} {t : Dict Str Str} (hc : c.Consistent) (ht : Texts c L)
    (h : defTable c L = .ok t) (name : Str) (hn : ¬ ∃ k s, Names c L k s ∧ ¬ Outer c L k ∧ lower s = lower name) :
    CifDic.getItem ⟨c, t, L, []⟩ name = c.getItem name ∧
    (lower name ∉ c.lowerKeys → CifDic.getItem ⟨c, t, L, []⟩ name = .error .key) ∧
    CifDic.contains ⟨c, t, L, []⟩ name = false := by
  have hk := (C54_keys (i := []) hc ht h).2 (lower name)
  have hm : lower name ∉ CifDic.keys ⟨c, t, L, []⟩ := fun hx => hn (hk.1 hx)
  have hg : dget t (lower name) = none := dget_eq_none.2 hm
  have e : CifDic.getItem ⟨c, t, L, []⟩ name = c.getItem name := by
    simp only [getItem, byId, hg, lookupImports]
    rw [Coll.getItem_entry hc]
    cases Coll.entry c (lower name) <;> rfl
  refine ⟨e, fun hl => ?_, ?_⟩
  · rw [e, Coll.getItem, if_neg hl]
  · simp [contains, hm]

/-- C54: imported dictionaries are searched, in order, for names that are not found in the dictionary itself. -/
theorem C54_imported {d : CifDic} {name : Str} (hb : lower name ∉ d.coll.lowerKeys) (ht : dget d.table (lower name) = none)
    {before after : List Imported} {i : Imported} (hi : d.imports = before ++ i :: after)
    (h1 : ∀ j ∈ before, ∃ l, j.reach = .ok l ∧ name ∉ l) {l : List Str} (h2 : i.reach = .ok l) (h3 : name ∈ l) :
    d.getItem name = i.find name := by
  simp only [getItem, byId, ht, Coll.getItem, if_neg hb, hi]
  clear hi
  induction before with
  | nil => simp only [List.nil_append, lookupImports, h2, if_pos h3]
  | cons j r ih =>
    obtain ⟨l', hl, hn⟩ := h1 j (by simp)
    simp only [List.cons_append, lookupImports, hl, if_neg hn]
    exact ih (fun x hx => h1 x (by simp [hx]))

/-- A test of `Texts`. -/
def textsCheck (c : Coll) (L : Lang) : Bool :=
  c.keys.all fun k => match c.getItem k with
    | .error _ => false
    | .ok b => [catIdSpec L, defIdSpec L].all fun a => !b.contains a || match b.getItem a with
      | .ok (.str _) => true
      | _ => false

theorem texts_of_check {c : Coll} {L : Lang} (h : textsCheck c L = true) : Texts c L := by
  intro k hk
  have h1 := List.all_eq_true.1 h k hk
  cases hb : c.getItem k with
  | error e => rw [hb] at h1; cases h1
  | ok b =>
    rw [hb] at h1
    refine ⟨b, rfl, fun a ha hc => ?_⟩
    have h2 := List.all_eq_true.1 h1 a (by simpa using ha)
    rw [hc] at h2
    simp only [Bool.not_true, Bool.false_or] at h2
    cases hv : b.getItem a with
    | error e => rw [hv] at h2; cases h2
    | ok v =>
      rw [hv] at h2
      cases v with
      | str s => exact ⟨s, rfl⟩
      | _ => cases h2

/-- A dictionary with the hypotheses above. -/
example : letI := asciiFold
    cellColl.Consistent ∧ Texts cellColl .ddlm ∧ (∃ t, defTable cellColl .ddlm = .ok t ∧
      t = [("head".toList, "head".toList), ("cell".toList, "cell".toList), ("_cell.length_a".toList, "cell.length_a".toList),
        ("_cell.length_b".toList, "cell.length_b".toList), ("angle".toList, "angle".toList)]) :=
  letI := asciiFold
  ⟨Coll.reachable_consistent frames_reachable, texts_of_check (by decide +kernel), _, by decide +kernel, rfl⟩

/-- Duplicates are refused. -/
example : letI := asciiFold
    defTable (frames [("a", [("_definition.id", "_x.y")]), ("b", [("_definition.id", "_x.y")])]) .ddlm = .error .cif := by
  decide +kernel

/-- C54 fails for identifiers that differ in case only: they are not refused, and the first definition is not found by its
own identifier. -/
theorem C54_case_fails : letI := asciiFold
    let c := frames [("a", [("_definition.id", "_x.y"), ("_units.code", "one")]), ("b", [("_definition.id", "_X.Y"), ("_units.code", "two")])]
    ∃ t b, defTable c .ddlm = .ok t ∧ CifDic.getItem ⟨c, t, .ddlm, []⟩ "_x.y".toList = .ok b ∧
      b.getItem "_definition.id".toList = .ok (.str "_X.Y".toList) := by
  letI := asciiFold
  exact ⟨[("_x.y".toList, "b".toList)], itemsBlock [("_definition.id", "_X.Y"), ("_units.code", "two")], by decide +kernel, by decide +kernel, by decide +kernel⟩

/-- C54 fails for a DDL2 definition that lists several names: the table cannot be built. -/
theorem C54_list_fails : letI := asciiFold
    let b : Block := (({} : Block).addItem "_item.name".toList (.list [.str "_a.x".toList, .str "_b.x".toList])).1
    defTable (Coll.run { scoping := .dictionary, standard := some "Dic".toList }
      [.new "Demo".toList {} true none, .new "x".toList b true (some "Demo".toList)]) .ddl2 = .error .type := by
  decide +kernel

end Verif.CifDic
