import Verif.Lemmas.ValidateLoop
import Verif.Props.ValidateItem
/-! # C45, C46 and C65: checks of whole blocks and of loops -/
namespace Verif.Validate
open Spec
variable [CaseFold]
set_option linter.unusedSectionVars false

/-! ## C45 -/

/-- C45, mandatory items: the check succeeds exactly when every item that is mandatory for the scope of the block is there;
a failure lists exactly the missing ones. -/
theorem C45_mandatory (D : Dic) (wb : Block) (s : Str) (l : List Str) (hs : ScopeIs wb s) (hl : dget D.mandatory s = some l) :
    ∃ o, checkMandatoryItems D wb = .ok o ∧ (o = .good ↔ ∀ n ∈ l, Present wb n) ∧
      (o ≠ .good → ∃ m : List Str, o = .bad { items := some (m.map .str) } ∧ ∀ n, n ∈ m ↔ n ∈ l ∧ ¬ Present wb n) := by
  have hne : D.mandatory ≠ [] := by
    intro h
    rw [h] at hl
    cases hl
  have hrun : checkMandatoryItems D wb = .ok (if (l.filter fun a => !wb.contains a) = [] then .good
      else .bad { items := some ((l.filter fun a => !wb.contains a).map .str) }) := by
    rw [checkMandatoryItems, if_neg hne]
    simp only [blockScope_is hs, bind, Except.bind, hl]
  refine ⟨_, hrun, ?_, ?_⟩
  · split
    · rename_i h
      refine iff_of_true rfl ?_
      intro n hn
      have := List.filter_eq_nil_iff.1 h n hn
      exact present_iff.1 (by simpa using this)
    · rename_i h
      refine iff_of_false (by simp) ?_
      intro hall
      apply h
      rw [List.filter_eq_nil_iff]
      intro n hn
      simpa using present_iff.2 (hall n hn)
  · intro ho
    split at ho
    · exact absurd rfl ho
    · rename_i h
      refine ⟨_, if_neg h, ?_⟩
      intro n
      rw [List.mem_filter, Bool.not_eq_true', ← present_iff, Bool.not_eq_true]

/-- C45, prohibited items: the check succeeds exactly when no item that is prohibited for the scope of the block is there; a
failure lists exactly those that are. -/
theorem C45_prohibited (D : Dic) (wb : Block) (s : Str) (l : List Str) (hs : ScopeIs wb s) (hl : dget D.naughty s = some l) :
    ∃ o, checkProhibitedItems D wb = .ok o ∧ (o = .good ↔ ∀ n ∈ l, ¬ Present wb n) ∧
      (o ≠ .good → ∃ m : List Str, o = .bad { items := some (m.map .str) } ∧ ∀ n, n ∈ m ↔ n ∈ l ∧ Present wb n) := by
  have hne : D.naughty ≠ [] := by
    intro h
    rw [h] at hl
    cases hl
  have hrun : checkProhibitedItems D wb = .ok (if (l.filter fun a => wb.contains a) = [] then .good
      else .bad { items := some ((l.filter fun a => wb.contains a).map .str) }) := by
    rw [checkProhibitedItems, if_neg hne]
    simp only [blockScope_is hs, bind, Except.bind, hl]
  refine ⟨_, hrun, ?_, ?_⟩
  · split
    · rename_i h
      refine iff_of_true rfl ?_
      intro n hn hp
      exact List.filter_eq_nil_iff.1 h n hn (present_iff.2 hp)
    · rename_i h
      refine iff_of_false (by simp) ?_
      intro hall
      apply h
      rw [List.filter_eq_nil_iff]
      intro n hn hp
      exact hall n hn (present_iff.1 hp)
  · intro ho
    split at ho
    · exact absurd rfl ho
    · rename_i h
      refine ⟨_, if_neg h, ?_⟩
      intro n
      rw [List.mem_filter, present_iff]

/-- C45, mandatory categories: the check succeeds exactly when each mandatory category has an item in the block; a failure
lists exactly the categories without one. -/
theorem C45_category (D : Dic) (wb : Block)
    (hk : ∀ k ∈ D.keys, ∃ b, D.find k = some b ∧ (b.getItem "_category.mandatory_code".toList = .error .key ∨
      ∃ v, b.getItem "_category.mandatory_code".toList = .ok v ∧
        (v = .str "yes".toList → ∃ c, b.getItem "_category.id".toList = .ok c)))
    (hw : ∀ n ∈ wb.keys, ∃ b, D.find n = some b ∧ (b.getItem D.names.cat = .error .key ∨ ∃ c, b.getItem D.names.cat = .ok c)) :
    ∃ o, validateMandatoryCategory D wb = .ok o ∧
      (o = .good ↔ ∀ k ∈ D.keys, ∀ c, MandatoryIs D k c → ∃ n ∈ wb.keys, ∃ b, D.find n = some b ∧ b.getItem D.names.cat = .ok c) ∧
      (o ≠ .good → ∃ m : List PyVal, o = .bad { items := some m } ∧
        ∀ c, c ∈ m ↔ (∃ k ∈ D.keys, MandatoryIs D k c) ∧ ¬ ∃ n ∈ wb.keys, ∃ b, D.find n = some b ∧ b.getItem D.names.cat = .ok c) := by
  obtain ⟨mand, hm1, hm2⟩ := mandatory_run (D := D) hk
  obtain ⟨cats, hc1, hc2⟩ := itemCat_run (D := D) hw
  have hrun : ∃ m : List PyVal, validateMandatoryCategory D wb = .ok (if m = [] then .good else .bad { items := some m }) ∧
      ∀ c, c ∈ m ↔ (∃ k ∈ D.keys, MandatoryIs D k c) ∧ ¬ ∃ n ∈ wb.keys, ∃ b, D.find n = some b ∧ b.getItem D.names.cat = .ok c := by
    by_cases hmn : mand.flatten = []
    · refine ⟨[], ?_, ?_⟩
      · simp only [validateMandatoryCategory, hm1, bind, Except.bind, hmn, if_true]
      · intro c
        refine iff_of_false (by simp) ?_
        rintro ⟨h, -⟩
        rw [← hm2, hmn] at h
        cases h
    · refine ⟨mand.flatten.filter fun c => decide (some c ∉ cats), ?_, ?_⟩
      · simp only [validateMandatoryCategory, hm1, bind, Except.bind, hmn, if_false, hc1]
      · intro c
        rw [List.mem_filter, hm2, decide_eq_true_eq, hc2]
  obtain ⟨m, h1, h2⟩ := hrun
  refine ⟨_, h1, ?_, ?_⟩
  · by_cases hn : m = []
    · rw [if_pos hn]
      refine iff_of_true rfl ?_
      intro k hk c hc
      apply Classical.byContradiction
      intro hno
      have := (h2 c).2 ⟨⟨k, hk, hc⟩, hno⟩
      rw [hn] at this
      cases this
    · rw [if_neg hn]
      refine iff_of_false (by simp) ?_
      intro hall
      obtain ⟨c, hc⟩ := List.exists_mem_of_ne_nil _ hn
      obtain ⟨⟨k, hk, hmk⟩, hno⟩ := (h2 c).1 hc
      exact hno (hall k hk c hmk)
  · intro ho
    by_cases hn : m = []
    · rw [if_pos hn] at ho
      exact absurd rfl ho
    · exact ⟨m, if_neg hn, h2⟩

/-- A dictionary that demands two items in a definition and forbids one. -/
def scopeDic : Dic where
  names := ddlmNames
  find := fun _ => none
  keys := []
  mandatory := [("Item".toList, ["_definition.id".toList, "_Name.category_id".toList]), ("Dictionary".toList, [])]
  naughty := [("Item".toList, ["_dictionary.uri".toList]), ("Dictionary".toList, [])]

/-- The hypotheses of `C45_mandatory` and `C45_prohibited`, with failures. -/
example : letI := asciiFold
    ScopeIs {} "Item".toList ∧
    checkMandatoryItems scopeDic (({} : Block).addItem "_definition.id".toList (.str "x".toList)).1 =
      .ok (.bad { items := some [.str "_Name.category_id".toList] }) ∧
    checkMandatoryItems scopeDic ((({} : Block).addItem "_definition.id".toList (.str "x".toList)).1.addItem
      "_name.category_id".toList (.str "x".toList)).1 = .ok .good ∧
    checkProhibitedItems scopeDic (({} : Block).addItem "_Dictionary.uri".toList (.str "x".toList)).1 =
      .ok (.bad { items := some [.str "_dictionary.uri".toList] }) := by
  letI := asciiFold
  refine ⟨.inr (.inr ⟨by decide +kernel, by decide +kernel, rfl⟩), by decide +kernel, by decide +kernel, by decide +kernel⟩

/-- A dictionary with the mandatory category `m`, and an item of it. -/
def catDic : Dic :=
  letI := asciiFold
  { names := ddl2Names
    find := fun s =>
      if s = "m".toList then
        some ((({} : Block).addItem "_category.id".toList (.str "m".toList)).1.addItem "_category.mandatory_code".toList
          (.str "yes".toList)).1
      else if s = "_m.a".toList then some (({} : Block).addItem "_item.category_id".toList (.str "m".toList)).1
      else if s = "_x.a".toList then some (({} : Block).addItem "_item.category_id".toList (.str "x".toList)).1
      else none
    keys := ["m".toList, "_m.a".toList, "_x.a".toList] }

/-- The hypotheses of `C45_category`, and both results. -/
example : letI := asciiFold
    (∃ b, catDic.find "m".toList = some b ∧ ∃ v, b.getItem "_category.mandatory_code".toList = .ok v ∧
      ∃ c, b.getItem "_category.id".toList = .ok c) ∧
    validateMandatoryCategory catDic (({} : Block).addItem "_x.a".toList (.str "1".toList)).1 =
      .ok (.bad { items := some [.str "m".toList] }) ∧
    validateMandatoryCategory catDic (({} : Block).addItem "_m.a".toList (.str "1".toList)).1 = .ok .good := by
  letI := asciiFold
  refine ⟨⟨_, rfl, .str "yes".toList, by decide +kernel, .str "m".toList, by decide +kernel⟩, by decide +kernel, by decide +kernel⟩

/-! ## C46 -/

/-- C46, membership: the check succeeds exactly when all items of the loop belong to one final category. -/
theorem C46_membership (D : Dic) (names : List Str) (fin : Str → Str) (hf : ∀ n ∈ names, FinalIs D n (fin n)) :
    ∃ o, validateLoopMembership D names = .ok o ∧ (o = .good ↔ ∃ f, ∀ n ∈ names, FinalIs D n f) ∧
      (o ≠ .good → ∃ m : List Str, o = .bad { items := some (m.map .str) } ∧ m ≠ [] ∧ ∀ f ∈ m, ∃ n ∈ names, FinalIs D n f) := by
  have hu : ∀ n f, n ∈ names → FinalIs D n f → f = fin n := fun n f hn h => finalIs_unique h (hf n hn)
  have hrun : validateLoopMembership D names = .ok (membership (names.map fin)) := by
    simp only [validateLoopMembership, finalCats_run hf, bind, Except.bind]
    cases names <;> rfl
  refine ⟨_, hrun, ?_, ?_⟩
  · cases names with
    | nil => exact iff_of_true rfl ⟨[], by simp⟩
    | cons n r =>
      rw [List.map_cons, membership_good]
      constructor
      · intro h
        refine ⟨fin n, ?_⟩
        intro m hm
        have : fin m = fin n := by
          rcases List.mem_cons.1 hm with rfl | hm
          · rfl
          · exact h _ (List.mem_map_of_mem hm)
        rw [← this]
        exact hf m hm
      · rintro ⟨f, h⟩ g hg
        obtain ⟨m, hm, rfl⟩ := List.mem_map.1 hg
        rw [← hu m f (List.mem_cons_of_mem _ hm) (h m (List.mem_cons_of_mem _ hm)),
          ← hu n f List.mem_cons_self (h n List.mem_cons_self)]
  · intro ho
    obtain ⟨m, h1, h2, h3⟩ := membership_bad ho
    refine ⟨m, h1, h2, ?_⟩
    intro f hfm
    obtain ⟨n, hn, rfl⟩ := List.mem_map.1 (h3 f hfm)
    exact ⟨n, hn, hf n hn⟩

/-- C46, key of a loop in DDL1 and DDL2, when the dictionary keeps the keys where the check looks for them and no other
names can stand for them: the check succeeds exactly when every key is in the loop or implicit, and otherwise names the
first one that is not. Missing: see `C46_ddl1_fails` and `C46_alternate_fails`. -/
theorem C46_key_partial (D : Dic) (n : Str) (r : List Str) (b cb : Block) (c : Str) (kv : PyVal) (entries : List KeyEntry) (keys : List Str)
    (hb : D.find n = some b) (hc : b.getItem D.names.cat = .ok (.str c)) (hcb : D.find c = some cb)
    (hk : cb.getItem D.names.key = .ok kv) (hkv : kv = .list (entries.map KeyEntry.written)) (hks : keys = entries.flatMap KeyEntry.names)
    (hd : ∀ k ∈ keys, ∃ bk, D.find k = some bk ∧ ((∃ v, bk.getItem D.names.mustExist = .ok v) ∨ bk.getItem D.names.mustExist = .error .key))
    (ha : ∀ k ∈ keys, Alternates D k replacing []) :
    (validateLoopKey D (n :: r) = .ok .good ∧ ∀ k ∈ keys, k ∈ n :: r ∨ Implicit D k) ∨
    (∃ k1 k k2, keys = k1 ++ k :: k2 ∧ validateLoopKey D (n :: r) = .ok (.bad { items := some [.str k] }) ∧
      (∀ x ∈ k1, x ∈ n :: r ∨ Implicit D x) ∧ ¬ (k ∈ n :: r ∨ Implicit D k)) := by
  subst hkv hks
  have hrun : ∀ o, firstMissingGroup D (n :: r) (entries.map KeyEntry.written) = .ok o →
      validateLoopKey D (n :: r) = .ok (missingOutcome o) := by
    intro o ho
    simp only [validateLoopKey, getDef, hb, bind, Except.bind, need, attr_some hc, getDefV, hcb, attr_some hk, Option.getD_some,
      Block.pyIter, ho]
    cases o <;> rfl
  rcases firstMissingGroup_spec (D := D) (names := n :: r) (gs := entries) hd ha with ⟨h1, h2⟩ | ⟨k1, k, k2, e, h1, h2, h3⟩
  · exact .inl ⟨hrun _ h1, h2⟩
  · exact .inr ⟨k1, k, k2, e, hrun _ h1, h2, h3⟩

/-- C46: when the definition of the category says nothing under the name at which the check looks, every loop passes. -/
theorem C46_key_vacuous (D : Dic) (n : Str) (r : List Str) (b cb : Block) (c : Str)
    (hb : D.find n = some b) (hc : b.getItem D.names.cat = .ok (.str c)) (hcb : D.find c = some cb)
    (hk : cb.getItem D.names.key = .error .key) : validateLoopKey D (n :: r) = .ok .good := by
  simp only [validateLoopKey, getDef, hb, bind, Except.bind, need, attr_some hc, getDefV, hcb, attr_none hk, Option.getD_none,
    Block.pyIter, firstMissingGroup]

/-- A DDL1 dictionary as loaded: the category `x` has the mandatory item `_x_id`, which `ddl1_cat_load` (CifFile_module.nw
1026-1028) notes under the names `_category_mandatory.name` and `_category_key.name`. -/
def ddl1Key : Dic :=
  letI := asciiFold
  let item : Block := (({} : Block).addItem "_category".toList (.str "x".toList)).1
  { names := ddl1Names
    find := fun s =>
      if s = "x".toList then
        some ((({} : Block).addItem "_category_mandatory.name".toList (.list [.str "_x_id".toList])).1.addItem
          "_category_key.name".toList (.list [.str "_x_id".toList])).1
      else if s = "_x_id".toList then some item
      else if s = "_x_a".toList then some item
      else none
    keys := ["x".toList, "_x_id".toList, "_x_a".toList] }

/-- C46 fails for DDL1: the check looks under `_list_mandatory`, and a loop without its key passes. -/
theorem C46_ddl1_fails :
    letI := asciiFold
    validateLoopKey ddl1Key ["_x_a".toList] = .ok .good := by decide +kernel

/-- A DDL2 dictionary as written: the key of a category is given by `_category_key.name`. -/
def ddl2Key : Dic :=
  letI := asciiFold
  let item : Block := (({} : Block).addItem "_item.category_id".toList (.str "x".toList)).1
  { names := ddl2Names
    find := fun s =>
      if s = "x".toList then some (({} : Block).addItem "_category_key.name".toList (.list [.str "_x.id".toList])).1
      else if s = "_x.id".toList then some item
      else if s = "_x.a".toList then some item
      else none
    keys := ["x".toList, "_x.id".toList, "_x.a".toList] }

/-- C46 fails for DDL2: the check looks under `_category_mandatory.name`, and a loop without its key passes. -/
theorem C46_ddl2_fails :
    letI := asciiFold
    validateLoopKey ddl2Key ["_x.a".toList] = .ok .good := by decide +kernel

/-- A dictionary whose category has the key `_x.id` where the check looks for it; `_x.no` can stand for it. -/
def altKey : Dic :=
  letI := asciiFold
  let item : Block := (({} : Block).addItem "_item.category_id".toList (.str "x".toList)).1
  { names := ddl2Names
    find := fun s =>
      if s = "x".toList then some (({} : Block).addItem "_category_mandatory.name".toList (.list [.str "_x.id".toList])).1
      else if s = "_x.id".toList then some (item.addItem "_item_aliases.alias_name".toList (.str "_x.no".toList)).1
      else if s = "_x.no".toList then some item
      else none
    keys := ["x".toList, "_x.id".toList, "_x.no".toList] }

/-- C46 fails when another name stands for the key: its letters are looked up instead of the name, and the loop, which has it,
is refused. -/
theorem C46_alternate_fails :
    letI := asciiFold
    Alternates altKey "_x.id".toList replacing [.str "_x.no".toList] ∧
    validateLoopKey altKey ["_x.no".toList] = .ok (.bad { items := some [.str "_x.id".toList] }) := by
  letI := asciiFold
  exact ⟨⟨_, [], [.str "_x.no".toList], rfl, .inl ⟨by decide +kernel, rfl⟩, .inr ⟨.str "_x.no".toList, by decide +kernel, rfl⟩, rfl⟩,
    by decide +kernel⟩

/-- The hypotheses of `C46_key_partial` with a key that is there, one that is implicit and one that is missing. -/
example : letI := asciiFold
    let item : Block := (({} : Block).addItem "_item.category_id".toList (.str "x".toList)).1
    let D : Dic :=
      { names := ddl2Names
        find := fun s =>
          if s = "x".toList then
            some (({} : Block).addItem "_category_mandatory.name".toList
              (.list [.str "_x.id".toList, .list [.str "_x.e".toList, .str "_x.no".toList]])).1
          else if s = "_x.e".toList then some (item.addItem "_item.mandatory_code".toList (.str "implicit".toList)).1
          else some item
        keys := [] }
    validateLoopKey D ["_x.id".toList] = .ok (.bad { items := some [.str "_x.no".toList] }) ∧
    validateLoopKey D ["_x.id".toList, "_x.no".toList] = .ok .good ∧ getAlternates D (.str "_x.no".toList) = .ok [] := by
  decide +kernel

/-- C46, key of a loop in DDLm, for categories with one key item: the check succeeds exactly when it is in the loop. Missing:
categories with several key items, of which one is enough for the check (`C46_compound_fails`). -/
theorem C46_ddlm_partial (D : Dic) (n k : Str) (r : List Str) (fin : Str → Str) (rest : List (List Str))
    (hf : ∀ m ∈ n :: r, FinalIs D m (fin m)) (hk : dget D.catKeyTable (fin n) = some ([k] :: rest)) :
    validateLoopKeyDdlm D (n :: r) = .ok (if k ∈ n :: r then .good else .bad { items := some [.str k] }) := by
  simp only [validateLoopKeyDdlm, finalCats_run hf, bind, Except.bind, List.map_cons, hk]
  by_cases h : k ∈ n :: r
  · rw [if_pos h, List.filter_cons, if_pos (decide_eq_true h), if_pos (by simp)]
  · rw [if_neg h, List.filter_cons, if_neg (by simpa using h)]
    rfl

/-- A DDLm dictionary whose category `x` has two key items. -/
def compoundKey : Dic :=
  letI := asciiFold
  let item : Block := (({} : Block).addItem "_name.category_id".toList (.str "X".toList)).1
  { names := ddlmNames
    find := fun s => if s = "_x.a".toList ∨ s = "_x.b".toList ∨ s = "_x.v".toList then some item else none
    keys := ["_x.a".toList, "_x.b".toList, "_x.v".toList]
    parentLookup := [("x".toList, "x".toList)]
    catKeyTable := [("x".toList, [["_x.a".toList, "_x.b".toList]])] }

/-- C46 fails for compound keys: a loop with one of the two key items passes. -/
theorem C46_compound_fails :
    letI := asciiFold
    FinalIs compoundKey "_x.a".toList "x".toList ∧ FinalIs compoundKey "_x.v".toList "x".toList ∧
    validateLoopKeyDdlm compoundKey ["_x.a".toList, "_x.v".toList] = .ok .good ∧
    validateLoopKeyDdlm compoundKey ["_x.v".toList] = .ok (.bad { items := some [.str "_x.a".toList, .str "_x.b".toList] }) := by
  letI := asciiFold
  exact ⟨⟨"X".toList, ⟨_, rfl, by decide +kernel⟩, by decide +kernel⟩, ⟨"X".toList, ⟨_, rfl, by decide +kernel⟩, by decide +kernel⟩,
    by decide +kernel, by decide +kernel⟩

/-- `C46_membership` in use: items of different categories are refused. -/
example : letI := asciiFold
    let D : Dic :=
      { names := ddlmNames
        find := fun s =>
          if s = "_x.a".toList then some (({} : Block).addItem "_name.category_id".toList (.str "X".toList)).1
          else some (({} : Block).addItem "_name.category_id".toList (.str "y".toList)).1
        keys := []
        parentLookup := [("x".toList, "x".toList), ("y".toList, "z".toList)] }
    validateLoopMembership D ["_x.a".toList, "_y.a".toList] = .ok (.bad { items := some [.str "z".toList] }) ∧
    validateLoopMembership D ["_y.b".toList, "_y.a".toList] = .ok .good := by decide +kernel

/-! ## C65 -/

/-- C65, list references to single names: the check succeeds exactly when each name referred to by an item of the loop, or
one that can stand for it, is in the loop. Missing: references to groups of names (`C65_group_fails`). -/
theorem C65_references_partial (D : Dic) (names : List Str) (refs : Str → List Str)
    (hr : ∀ n ∈ names, References D n (refs n))
    (hs : ∀ n ∈ names, ∀ a ∈ refs n, ∃ c, a.getLast? = some c ∧ c ≠ '_')
    (ha : ∀ n ∈ names, ∀ a ∈ refs n, ∃ alts, Alternates D a replacing alts) :
    ∃ o, validateLoopReferences D names = .ok o ∧ (o = .good ↔ ∀ n ∈ names, ∀ a ∈ refs n, Covered D names a) ∧
      (o ≠ .good → ∃ m : List Str, o = .bad { items := some (m.map .str) } ∧ m ≠ [] ∧
        ∀ a ∈ m, (∃ n ∈ names, a ∈ refs n) ∧ ¬ Covered D names a) := by
  have hflat : mapE (references D) names = .ok (names.map refs) := mapE_ok fun n hn => references_run (hr n hn)
  have hsingle : ∀ a ∈ (names.map refs).flatten, ∃ c, a.getLast? = some c ∧ c ≠ '_' := by
    intro a hm
    rw [← List.flatMap_def, List.mem_flatMap] at hm
    obtain ⟨n, hn, hm⟩ := hm
    exact hs n hn a hm
  have halt : ∀ a ∈ (names.map refs).flatten, ∃ alts, Alternates D a replacing alts := by
    intro a hm
    rw [← List.flatMap_def, List.mem_flatMap] at hm
    obtain ⟨n, hn, hm⟩ := hm
    exact ha n hn a hm
  obtain ⟨o, h1, h2, h3⟩ := references_outcome (D := D) (names := names) hflat hsingle halt
  have hmem : ∀ a, a ∈ (names.map refs).flatten ↔ ∃ n ∈ names, a ∈ refs n := by
    intro a
    rw [← List.flatMap_def, List.mem_flatMap]
  refine ⟨o, h1, ?_, ?_⟩
  · rw [h2]
    constructor
    · intro h n hn a hm
      exact h a ((hmem a).2 ⟨n, hn, hm⟩)
    · intro h a hm
      obtain ⟨n, hn, hm⟩ := (hmem a).1 hm
      exact h n hn a hm
  · intro ho
    obtain ⟨m, e1, e2, e3⟩ := h3 ho
    exact ⟨m, e1, e2, fun a hm => ⟨(hmem a).1 (e3 a hm).1, (e3 a hm).2⟩⟩

/-- A DDL1 dictionary in which `_x_a` refers to the given name. -/
def refDic (ref : Str) : Dic :=
  letI := asciiFold
  { names := ddl1Names
    find := fun s =>
      if s = "_x_a".toList then some (({} : Block).addItem "_list_reference".toList (.str ref)).1
      else if s = "_x_id".toList then some {}
      else none
    keys := ["_x_a".toList, "_x_id".toList] }

/-- C65 fails for references to groups of names, written with an underscore at the end: no name of the group is in the loop,
and the check succeeds. -/
theorem C65_group_fails :
    letI := asciiFold
    validateLoopReferences (refDic "_y_label_".toList) ["_x_a".toList] = .ok .good := by decide +kernel

/-- The hypotheses of `C65_references_partial`, and both results. -/
example : letI := asciiFold
    References (refDic "_x_ID".toList) "_x_a".toList ["_x_id".toList] ∧
    Alternates (refDic "_x_ID".toList) "_x_id".toList replacing [] ∧
    validateLoopReferences (refDic "_x_ID".toList) ["_x_a".toList] = .ok (.bad { items := some [.str "_x_id".toList] }) ∧
    validateLoopReferences (refDic "_x_ID".toList) ["_x_a".toList, "_x_id".toList] = .ok .good := by
  letI := asciiFold
  refine ⟨⟨_, rfl, .inr ⟨.str "_x_ID".toList, ["_x_ID".toList], by decide +kernel, rfl, by decide +kernel⟩⟩,
    ⟨_, [], [], rfl, .inl ⟨by decide +kernel, rfl⟩, .inl ⟨by decide +kernel, rfl⟩, rfl⟩, by decide +kernel, by decide +kernel⟩

end Verif.Validate
