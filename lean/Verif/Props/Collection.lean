import Verif.Lemmas.CollectionOps
import Verif.Spec.Block
/-! # Properties of block collections: C29 - C33 -/
set_option linter.unusedSectionVars false
namespace Verif.Coll
open List

/-! ## Sample collections -/

section Samples
attribute [local instance] asciiFold

/-- A block with one item. -/
def itemBlock (n v : String) : Block := ({} : Block).run [.add n.toList (.str v.toList) true]

/-- `Main` encloses `inner`, which encloses `Deep`; `other` stands alone. All are visible. -/
def demo : Coll := run { scoping := .dictionary, standard := some "Dic".toList }
  [.new "Main".toList (itemBlock "_a" "1") true none, .new "inner".toList (itemBlock "_b" "2") true (some "MAIN".toList),
   .new "Deep".toList (itemBlock "_c" "3") true (some "Inner".toList), .new "other".toList (itemBlock "_d" "4") true none]

theorem demo_reachable : Reachable demo := by
  unfold demo
  simp only [run]
  refine .step _ (.step _ (.step _ (.step _ (.start _ _ _) ?_) ?_) ?_) ?_ <;>
    refine ⟨?_, fun h => ?_⟩
  all_goals first
    | (exact absurd h (by decide +kernel))
    | skip
  · intro q hq; cases hq
  · intro q hq; injection hq with hq; subst hq; decide +kernel
  · intro q hq; injection hq with hq; subst hq; decide +kernel
  · intro q hq; cases hq

/-- The same with instance scoping, as after reading a data file. -/
def demoInstance : Coll := demo.setScoping .instance

theorem demoInstance_reachable : Reachable demoInstance := .step (.scoping .instance) demo_reachable trivial

/-- `Main` encloses `inner` in a collection without a standard. -/
def demoFree : Coll := run { scoping := .dictionary, standard := none }
  [.new "Main".toList (itemBlock "_a" "1") true none, .new "inner".toList (itemBlock "_b" "2") true (some "MAIN".toList)]

end Samples

variable [CaseFold]

/-! ## C31: bookkeeping -/

/-- C31: after any history of fair calls the tables agree, enclosing blocks exist, and the visible keys are those the
scoping asks for. -/
theorem C31_bookkeeping {c : Coll} (h : Reachable c) : Consistent c := reachable_consistent h

example : letI := asciiFold
    Reachable demo ∧ demo.keys = ["main".toList, "inner".toList, "deep".toList, "other".toList] ∧
      demoInstance.keys = ["main".toList, "other".toList] :=
  ⟨demo_reachable, by decide +kernel, by decide +kernel⟩

/-- C31 fails when the enclosing block does not exist: the block gets no entry in the parent table, and is neither a
top-level block nor nested. -/
theorem C31_missing_parent_fails : letI := asciiFold
    ∃ k, (demo.newBlock "x".toList {} true (some "nowhere".toList)).2 = .ok k ∧
      ¬ Consistent (demo.newBlock "x".toList {} true (some "nowhere".toList)).1 := by
  letI := asciiFold
  refine ⟨"x".toList, by decide +kernel, fun h => ?_⟩
  have h1 := (h.mem_table "x".toList).mpr (by decide +kernel)
  exact absurd h1 (by decide +kernel)

/-- C31 fails when blocks are made to enclose each other: `set_parent` does not check. -/
theorem C31_cycle_fails : letI := asciiFold
    (demo.setParent "inner".toList "main".toList).2 = .ok () ∧ ¬ Consistent (demo.setParent "inner".toList "main".toList).1 := by
  letI := asciiFold
  refine ⟨by decide +kernel, fun h => h.acyclic "main".toList ?_⟩
  exact .deeper (.child (x := "inner".toList) (by decide +kernel)) (by decide +kernel)

/-! ## C32: deletion -/

/-- C32: deleting a block removes it and everything nested in it, and nothing else; what is left keeps its contents,
its enclosing block, its visibility and its place in the order. Missing because of `C32_hidden_fails`: blocks of which
a part is hidden by instance scoping. -/
theorem C32_subtree_partial {c : Coll} (h : Reachable c) {key : Str} (hk : lower key ∈ c.lowerKeys)
    (hv : ∀ x, Within c (lower key) x → x ∈ c.keys) :
    ∃ c', c.delItem key = (c', .ok ()) ∧
      (∀ x, Within c (lower key) x → entry c' x = none ∧ x ∉ c'.keys ∧ x ∉ c'.inputOrder) ∧
      (∀ x, ¬ Within c (lower key) x → entry c' x = entry c x ∧ (x ∈ c'.keys ↔ x ∈ c.keys)) ∧
      c'.inputOrder.Sublist c.inputOrder ∧ c'.keys.Sublist c.keys ∧
      (∀ x, ¬ Within c (lower key) x → (x ∈ c'.inputOrder ↔ x ∈ c.inputOrder)) := by
  classical
  have hc := reachable_consistent h
  refine ⟨_, delItem_eq hc.keyed hk hv, ?_, ?_, List.filter_sublist, List.filter_sublist, ?_⟩
  · intro x hx
    rw [entry_restrict]
    simp [restrict, keys, List.mem_filter, hx]
  · intro x hx
    rw [entry_restrict]
    simp [restrict, keys, List.mem_filter, hx]
  · intro x hx
    simp [restrict, List.mem_filter, hx]

example : letI := asciiFold
    Reachable demo ∧ lower "INNER".toList ∈ demo.lowerKeys ∧ (∀ x, Within demo (lower "INNER".toList) x → x ∈ demo.keys) ∧
      (demo.delItem "INNER".toList).1.keys = ["main".toList, "other".toList] := by
  letI := asciiFold
  refine ⟨demo_reachable, by decide +kernel, ?_, by decide +kernel⟩
  rintro x (rfl | hx)
  · decide +kernel
  · have h := reachable_consistent demo_reachable
    exact (h.visible_all (by decide +kernel) x).mpr ((h.mem_table x).mp (under_mem hx))

/-- C32: with dictionary scoping every block can be deleted. -/
theorem C32_dictionary {c : Coll} (h : Reachable c) (hs : c.scoping = .dictionary) {key : Str} (hk : lower key ∈ c.lowerKeys) :
    ∃ c', c.delItem key = (c', .ok ()) ∧
      (∀ x, Within c (lower key) x → entry c' x = none) ∧
      (∀ x, ¬ Within c (lower key) x → entry c' x = entry c x) := by
  have hc := reachable_consistent h
  obtain ⟨c', e, h1, h2, _⟩ := C32_subtree_partial h hk (by
    rintro x (rfl | hx)
    · exact (hc.visible_all hs _).mpr hk
    · exact (hc.visible_all hs _).mpr ((hc.mem_table x).mp (under_mem hx)))
  exact ⟨c', e, fun x hx => (h1 x hx).1, fun x hx => (h2 x hx).1⟩

example : letI := asciiFold
    Reachable demo ∧ demo.scoping = .dictionary ∧ lower "MAIN".toList ∈ demo.lowerKeys :=
  ⟨demo_reachable, by decide +kernel, by decide +kernel⟩

/-- C32: deleting what is not there raises `KeyError` and changes nothing. -/
theorem C32_missing {c : Coll} {key : Str} (hk : lower key ∉ c.lowerKeys) : c.delItem key = (c, .error .key) := by
  simp only [delItem, delFuel, getItem, hk, if_false]

/-- C32 fails for blocks hidden by instance scoping: deleting a nested block raises `ValueError` half-way and leaves a
key without a block. -/
theorem C32_hidden_fails : letI := asciiFold
    Reachable demoInstance ∧ (∃ b, demoInstance.getItem "inner".toList = .ok b) ∧
      ∃ c', demoInstance.delItem "inner".toList = (c', .error .value) ∧
        "deep".toList ∈ c'.lowerKeys ∧ entry c' "deep".toList = none ∧ "deep".toList ∈ c'.inputOrder := by
  letI := asciiFold
  refine ⟨demoInstance_reachable, ⟨{ itemBlock "_b" "2" with maxName := none }, by decide +kernel⟩, (demoInstance.delItem "inner".toList).1, ?_, ?_, ?_, ?_⟩ <;>
    decide +kernel

/-! ## C33: renaming -/

/-- C33: renaming changes the key and the printed name of one block, and the parent links of the blocks it encloses;
contents, order and everything else stay. Missing because of `C33_hidden_fails`: blocks hidden by instance scoping. -/
theorem C33_rename_partial {c : Coll} (h : Reachable c) {old new : Str} (hv : lower old ∈ c.keys) (hn : lower new ∉ c.lowerKeys)
    (hne : new ≠ []) {e : Entry} (he : entry c (lower old) = some e) :
    ∃ c', c.rename old new = (c', .ok ()) ∧
      entry c' (lower new) = some { e with blockId := new } ∧ entry c' (lower old) = none ∧
      (∀ x, x ≠ lower old → x ≠ lower new → entry c' x = (entry c x).map fun e =>
        { e with parent := if e.parent = some (lower old) then some (lower new) else e.parent }) ∧
      c'.inputOrder = c.inputOrder.map (fun x => if x = lower old then lower new else x) ∧
      (∀ x, x ∈ c'.keys ↔ x = lower new ∨ (x ∈ c.keys ∧ x ≠ lower old)) ∧ Consistent c' := by
  have hc := reachable_consistent h
  have ho : lower old ∈ c.lowerKeys := (entry_isSome hc).mp ⟨e, he⟩
  rcases rename_result (new := new) hc (fun _ => hv) with ⟨h1, _⟩ | ⟨_, h1, _⟩ | ⟨h1, h2, b, info, hb, hi, e'⟩
  · exact absurd h1 hn
  · exact absurd ho h1
  · have hnk : lower new ≠ lower old := fun e => hn (e ▸ ho)
    have he' : e = ⟨b, info.blockId, info.parent⟩ := by
      simp only [entry, hb, hi] at he
      injection he with he; exact he.symm
    refine ⟨_, e', ?_, ?_, ?_, rfl, ?_, ?_⟩
    · rw [entry_rekeyed hc h1]; simp [hne, he']
    · rw [entry_rekeyed hc h1]; simp [Ne.symm hnk]
    · intro x hx1 hx2
      rw [entry_rekeyed hc h1]
      simp only [hx1, hx2, if_false]
      cases hx : entry c x with
      | none => rfl
      | some e =>
        obtain ⟨eb, ei, ep⟩ := e
        cases ep with
        | none => simp [relink]
        | some p =>
          simp only [relink, Option.map_some, Option.some.injEq, Entry.mk.injEq, true_and]
          split <;> rfl
    · intro x
      simp only [keys, rekeyed, List.mem_append, List.mem_filter, List.mem_singleton, decide_eq_true_eq]
      exact Or.comm
    · have := rename_consistent (new := new) hc (fun _ => hv)
      rw [e'] at this; exact this

example : letI := asciiFold
    Reachable demo ∧ lower "Inner".toList ∈ demo.keys ∧ lower "Fresh".toList ∉ demo.lowerKeys ∧
      (entry demo (lower "Inner".toList)).isSome = true ∧
      parentOf (demo.rename "Inner".toList "Fresh".toList).1 "deep".toList = some "fresh".toList :=
  ⟨demo_reachable, by decide +kernel, by decide +kernel, by decide +kernel, by decide +kernel⟩

/-- C33: renaming to a name that is taken, or of a block that is not there, is refused and changes nothing. -/
theorem C33_refused {c : Coll} {old new : Str} (hn : lower new ∈ c.lowerKeys ∨ lower old ∉ c.lowerKeys) :
    ∃ e, c.rename old new = (c, .error e) := by
  unfold rename
  by_cases h1 : lower new ∈ c.lowerKeys
  · exact ⟨_, by rw [if_pos h1]⟩
  · rcases hn with h2 | h2
    · exact absurd h2 h1
    · exact ⟨_, by rw [if_neg h1, if_pos h2]⟩

/-- C33 fails for blocks hidden by instance scoping: `ValueError` is raised after the nested blocks have been
given a parent that does not exist. -/
theorem C33_hidden_fails : letI := asciiFold
    Reachable demoInstance ∧
      ∃ c', demoInstance.rename "inner".toList "fresh".toList = (c', .error .value) ∧
        parentOf c' "deep".toList = some "fresh".toList ∧ "fresh".toList ∉ c'.lowerKeys := by
  letI := asciiFold
  refine ⟨demoInstance_reachable, (demoInstance.rename "inner".toList "fresh".toList).1, ?_, ?_, ?_⟩ <;> decide +kernel

/-! ## C30: new blocks -/

/-- What is stored has the contents that were given. -/
theorem stored_same (c : Coll) (b : Block) : SameContents (stored c b) b := ⟨rfl, rfl, rfl, rfl⟩

/-- C30: with a standard set, `NewBlock` either raises and changes nothing, or adds the block under the key it
returns and keeps every other block, with its contents, printed name and enclosing block. `f` says where a block is found
afterwards: at its own key, except that a top-level block may make way for a nested one of the same name, and then gets
plus signs appended to its key. -/
theorem C30_no_loss {c : Coll} (h : Reachable c) (hs : c.standard ≠ none) (name : Str) (b : Block) (fix : Bool)
    (parent : Option Str) (hp : ∀ p, parent = some p → lower p ∈ c.lowerKeys) :
    (∃ e, c.newBlock name b fix parent = (c, .error e)) ∨
    ∃ c' k, ∃ f : Str → Str, c.newBlock name b fix parent = (c', .ok k) ∧
      entry c' k = some ⟨stored c b, if fix then fixName name else name, parent.map fun p => f (lower p)⟩ ∧
      (∀ x ∈ c.lowerKeys, f x ≠ k ∧
        entry c' (f x) = (entry c x).map fun e => { e with parent := e.parent.map f }) ∧
      (∀ x ∈ c.lowerKeys, ∀ y ∈ c.lowerKeys, f x = f y → x = y) ∧
      (∀ y, y ∈ c'.lowerKeys ↔ y = k ∨ ∃ x ∈ c.lowerKeys, y = f x) ∧
      (∀ x ∈ c.lowerKeys, f x = x ∨ (x = k ∧ parent ≠ none ∧ parentOf c x = none ∧ ∃ n, f x = x ++ List.replicate n '+')) ∧
      (k = wantedKey name fix ∨ (parent = none ∧ ∃ n, k = wantedKey name fix ++ List.replicate n '+')) := by
  have hc := reachable_consistent h
  have hr := newBlock_result hc hs name b fix parent hp
  generalize hnm : (if fix then fixName name else name) = nm at hr ⊢
  generalize hres : c.newBlock name b fix parent = res at hr
  have hparents : ∀ x e, entry c x = some e → e.parent.map (fun x => x) = e.parent := by
    intro x e _; cases e.parent <;> rfl
  cases hr with
  | refused e => exact Or.inl ⟨e, rfl⟩
  | plain hn =>
    right
    refine ⟨_, _, fun x => x, rfl, ?_, ?_, ?_, ?_, fun x _ => Or.inl rfl, Or.inl rfl⟩
    · rw [entry_added hc hn]; simp
    · intro x hx
      have hxk : x ≠ wantedKey name fix := fun e => hn (e ▸ hx)
      refine ⟨hxk, ?_⟩
      rw [entry_added hc hn]; simp [hxk]
    · intro x _ y _ e; exact e
    · intro y; simp [added, or_comm]
  | newKey hm ht hpn =>
    right
    have hf := freshKey_fresh c.lowerKeys (wantedKey name fix)
    refine ⟨_, _, fun x => x, rfl, ?_, ?_, ?_, ?_, fun x _ => Or.inl rfl, Or.inr ⟨hpn, freshKey_form _ _ _⟩⟩
    · rw [entry_added hc hf]; simp [hpn]
    · intro x hx
      have hxk : x ≠ freshKey c.lowerKeys (c.lowerKeys.length + 1) (wantedKey name fix) := fun e => hf (e ▸ hx)
      refine ⟨hxk, ?_⟩
      rw [entry_added hc hf]; simp [hxk]
    · intro x _ y _ e; exact e
    · intro y; simp [added, or_comm]
  | moved p ob info hm ht hpar hob hinfo =>
    right
    have hf := freshKey_fresh c.lowerKeys (wantedKey name fix)
    have hform := freshKey_form c.lowerKeys (c.lowerKeys.length + 1) (wantedKey name fix)
    have hlk : lower (wantedKey name fix) = wantedKey name fix := CaseFold.lower_lower _
    have hfl := freshKey_lower c.lowerKeys (c.lowerKeys.length + 1) (wantedKey name fix) hlk
    generalize freshKey c.lowerKeys (c.lowerKeys.length + 1) (wantedKey name fix) = r at *
    generalize wantedKey name fix = k at *
    have hv := top_visible hc hm ht
    have hip : info.parent = parentOf c k := by rw [parentOf, hinfo]
    have hc' := hc.rekeyed (b := ob) (info := info) hm hv hf hfl hip
    have hrk : r ≠ k := fun e => hf (e ▸ hm)
    have hkn : k ∉ (rekeyed c k r ob info).lowerKeys := by
      simp only [rekeyed, List.mem_append, List.mem_filter, List.mem_singleton, not_or]
      exact ⟨by simp, Ne.symm hrk⟩
    refine ⟨_, _, fun x => if x = k then r else x, rfl, ?_, ?_, ?_, ?_, ?_, Or.inl rfl⟩
    · rw [entry_added hc' hkn]; simp [hpar]
    · intro x hx
      by_cases hxk : x = k
      · subst hxk
        simp only [if_true]
        refine ⟨hrk, ?_⟩
        rw [entry_added hc' hkn, if_neg hrk, entry_rekeyed hc hf, if_pos rfl]
        have : entry c x = some ⟨ob, info.blockId, info.parent⟩ := by simp only [entry, hob, hinfo]
        rw [this]
        rw [ht] at hip
        simp [hip]
      · have hxr : x ≠ r := fun e => hf (e ▸ hx)
        simp only [hxk, if_false]
        refine ⟨hxk, ?_⟩
        rw [entry_added hc' hkn, if_neg hxk, entry_rekeyed hc hf, if_neg hxr, if_neg hxk]
        cases entry c x with
        | none => rfl
        | some e =>
          obtain ⟨eb, ei, ep⟩ := e
          cases ep <;> simp [relink]
    · intro x hx y hy e
      have hxr : x ≠ r := fun e => hf (e ▸ hx)
      have hyr : y ≠ r := fun e => hf (e ▸ hy)
      simp only at e
      split at e
      · rename_i h1
        split at e
        · rename_i h2; exact h1.trans h2.symm
        · exact absurd e.symm hyr
      · split at e
        · exact absurd e hxr
        · exact e
    · intro y
      simp only [added, rekeyed, List.mem_append, List.mem_filter, List.mem_singleton, decide_eq_true_eq]
      constructor
      · rintro ((⟨h1, h2⟩ | rfl) | rfl)
        · exact Or.inr ⟨y, h1, by simp [h2]⟩
        · exact Or.inr ⟨k, hm, by simp⟩
        · exact Or.inl rfl
      · rintro (rfl | ⟨x, hx, e⟩)
        · exact Or.inr rfl
        · split at e
          · exact Or.inl (Or.inr e)
          · subst e; exact Or.inl (Or.inl ⟨hx, by assumption⟩)
    · intro x hx
      by_cases hxk : x = k
      · right
        subst hxk
        refine ⟨rfl, by rw [hpar]; simp, ht, ?_⟩
        obtain ⟨n, hn⟩ := hform
        exact ⟨n, by simpa using hn⟩
      · left; simp [hxk]

example : letI := asciiFold
    Reachable demo ∧ demo.standard ≠ none ∧
      (demo.newBlock "OTHER".toList {} true (some "main".toList)).2 = .ok "other".toList ∧
      (demo.newBlock "other".toList {} true (some "Other".toList)).1.lowerKeys =
        ["main".toList, "inner".toList, "deep".toList, "other+".toList, "other".toList] ∧
      parentOf (demo.newBlock "other".toList {} true (some "Other".toList)).1 "other".toList = some "other+".toList ∧
      (demo.newBlock "inner".toList {}).2 = .ok "inner+".toList :=
  ⟨demo_reachable, by decide +kernel, by decide +kernel, by decide +kernel, by decide +kernel, by decide +kernel⟩

/-- C30: when `NewBlock` is refused: the name is too long, or contents with over-long data names are put in a CIF, or a block
of that name is already there at the same level. -/
theorem C30_refused_iff {c : Coll} (h : Reachable c) (hs : c.standard ≠ none) (name : Str) (b : Block) (fix : Bool)
    (parent : Option Str) (hp : ∀ p, parent = some p → lower p ∈ c.lowerKeys) :
    (∃ e, (c.newBlock name b fix parent).2 = .error e) ↔
      75 < name.length ∨ (c.standard = some "CIF".toList ∧ ∃ k ∈ b.keys, 75 < k.length) ∨
      (wantedKey name fix ∈ c.lowerKeys ∧ (parent = none ↔ parentOf c (wantedKey name fix) = none)) := by
  have hc := reachable_consistent h
  have hprep : (∃ e, (c.prepare b).2 = .error e) ↔ (c.standard = some "CIF".toList ∧ ∃ k ∈ b.keys, 75 < k.length) := by
    unfold prepare
    split
    · rename_i hcif
      have hkk : ({ b with maxName := some 75 } : Block).keys = b.keys := rfl
      unfold Block.setMaxNameLength
      simp only [hkk]
      split
      · rename_i hany
        rw [List.any_eq_true] at hany
        obtain ⟨k, hk, hl⟩ := hany
        exact ⟨fun _ => ⟨hcif, k, hk, by simpa using hl⟩, fun _ => ⟨_, rfl⟩⟩
      · rename_i hany
        rw [List.any_eq_true] at hany
        constructor
        · rintro ⟨e, he⟩; cases he
        · rintro ⟨_, k, hk, hl⟩; exact absurd ⟨k, hk, by simpa using hl⟩ hany
    · rename_i hcif
      constructor
      · rintro ⟨e, he⟩; cases he
      · rintro ⟨h1, _⟩; exact absurd h1 hcif
  rw [← hprep]
  unfold newBlock
  rw [show wantedKey name fix = lower (if fix then fixName name else name) from rfl]
  simp only
  generalize (if fix then fixName name else name) = nm
  have htop : lower nm ∈ c.topLevel ↔ lower nm ∈ c.lowerKeys ∧ parentOf c (lower nm) = none := by
    rw [mem_topLevel hc.nd_table, hc.mem_table]
  split
  · rename_i b' e hb
    rw [hb]
    exact ⟨fun _ => Or.inr (Or.inl ⟨e, rfl⟩), fun _ => ⟨e, rfl⟩⟩
  · rename_i b' hb
    have hno : ¬ ∃ e, (c.prepare b).2 = .error e := by rintro ⟨e, he⟩; rw [hb] at he; cases he
    simp only [hno, false_or]
    split
    · rename_i hl
      exact ⟨fun _ => Or.inl hl, fun _ => ⟨_, rfl⟩⟩
    · rename_i hl
      simp only [gt_iff_lt] at hl
      simp only [hl, false_or]
      split
      · rename_i hk
        cases hcs : c.standard with
        | none => exact absurd hcs hs
        | some std =>
          simp only
          cases parent with
          | none =>
            simp only
            split
            · rename_i ht
              rw [htop] at ht
              constructor
              · rintro ⟨e, he⟩; cases he
              · rintro ⟨_, hi⟩; exact absurd ⟨hk, hi.mp trivial⟩ ht
            · rename_i ht
              have ht := (htop.mp (Classical.not_not.mp ht)).2
              exact ⟨fun _ => ⟨hk, by simp [ht]⟩, fun _ => ⟨_, rfl⟩⟩
          | some p =>
            simp only
            split
            · rename_i ht
              have ht := (htop.mp ht).2
              have hf := freshKey_fresh c.lowerKeys (lower nm)
              obtain ⟨ob, info, _, _, e⟩ := rekey_eq (id := []) hc hk (top_visible hc hk ht) hf
              rw [e]
              constructor
              · rintro ⟨e, he⟩; cases he
              · rintro ⟨_, hi⟩; exact absurd (hi.mpr ht) (by simp)
            · rename_i ht
              have ht : ¬ parentOf c (lower nm) = none := fun e => ht (htop.mpr ⟨hk, e⟩)
              exact ⟨fun _ => ⟨hk, by simp [ht]⟩, fun _ => ⟨_, rfl⟩⟩
      · rename_i hk
        constructor
        · rintro ⟨e, he⟩; cases he
        · rintro ⟨hk', _⟩; exact absurd hk' hk

example : letI := asciiFold
    Reachable demo ∧ demo.standard ≠ none ∧ (demo.newBlock "Main".toList {}).2 = .error .star ∧
      (demo.newBlock "Inner".toList {} true (some "other".toList)).2 = .error .star :=
  ⟨demo_reachable, by decide +kernel, by decide +kernel, by decide +kernel⟩

/-- C30 needs a standard: without one, adding a block of the same name deletes the old block and everything nested
in it. -/
theorem C30_no_standard_fails : letI := asciiFold
    (demoFree.newBlock "MAIN".toList {}).2 = .ok "main".toList ∧
      (∃ e, entry demoFree "inner".toList = some e) ∧ (demoFree.newBlock "MAIN".toList {}).1.lowerKeys = ["main".toList] := by
  letI := asciiFold
  refine ⟨by decide +kernel, ?_, by decide +kernel⟩
  have : (entry demoFree "inner".toList).isSome = true := by decide +kernel
  exact Option.isSome_iff_exists.mp this

/-! ## C29: looking blocks up -/

/-- C29: after `NewBlock` the block is found under the returned key in any capitalisation. -/
theorem C29_new {c : Coll} (h : Reachable c) {name : Str} {b : Block} {fix : Bool} {parent : Option Str}
    (hf : (Op.new name b fix parent).Fair c) {c' : Coll} {k : Str} (hn : c.newBlock name b fix parent = (c', .ok k))
    {n : Str} (hk : lower n = k) : ∃ b', c'.getItem n = .ok b' ∧ SameContents b' b := by
  classical
  have hc := reachable_consistent h
  have hc' : Consistent c' := by
    have := newBlock_consistent hc name b fix parent hf
    rw [hn] at this; exact this
  refine ⟨stored c b, ?_, stored_same c b⟩
  rw [getItem_entry hc', hk]
  by_cases hs : c.standard = none
  · rcases newBlock_replace hc hs name b fix parent hf.1 (hf.2 hs).1 (hf.2 hs).2 with ⟨e, he⟩ | hr
    · rw [he] at hn; cases hn
    · have hr := hr (fun x => decide (¬ (wantedKey name fix ∈ c.lowerKeys ∧ Within c (wantedKey name fix) x))) (fun x => decide_eq_true_iff)
      rw [hr] at hn
      injection hn with h1 h2
      injection h2 with h2
      have hcl : Closed c (fun x => decide (¬ (wantedKey name fix ∈ c.lowerKeys ∧ Within c (wantedKey name fix) x))) := by
        intro x y hy hx
        simp only [decide_eq_false_iff_not, Classical.not_not] at hx ⊢
        exact ⟨hx.1, hx.2.step hy⟩
      rw [← h1, ← h2, entry_added (hc.restrict hcl)]
      · simp
      · intro hm
        have hm := List.mem_filter.mp hm
        exact of_decide_eq_true hm.2 ⟨hm.1, Or.inl rfl⟩
  · rcases C30_no_loss h hs name b fix parent hf.1 with ⟨e, he⟩ | ⟨c'', k', f, he, h1, _⟩
    · rw [he] at hn; cases hn
    · rw [he] at hn
      injection hn with e1 e2
      injection e2 with e2
      subst e1; subst e2
      rw [h1]

example : letI := asciiFold
    Reachable demo ∧ (demo.newBlock "New".toList (itemBlock "_e" "5")).2 = .ok "new".toList ∧ lower "NEW".toList = "new".toList :=
  ⟨demo_reachable, by decide +kernel, by decide +kernel⟩

/-- C29: after a deletion, lookups of the deleted subtree fail and all others give what they gave before. -/
theorem C29_del {c : Coll} (h : Reachable c) {key : Str} (hk : lower key ∈ c.lowerKeys)
    (hv : ∀ x, Within c (lower key) x → x ∈ c.keys) (n : Str) :
    (Within c (lower key) (lower n) → (c.delItem key).1.getItem n = .error .key) ∧
    (¬ Within c (lower key) (lower n) → (c.delItem key).1.getItem n = c.getItem n) := by
  have hc := reachable_consistent h
  obtain ⟨c', e, h1, h2, _⟩ := C32_subtree_partial h hk hv
  have hc' := delItem_consistent hc key (fun x hx _ => hv x hx)
  rw [e] at hc' ⊢
  simp only at hc' ⊢
  rw [getItem_entry hc', getItem_entry hc]
  exact ⟨fun hw => by rw [(h1 _ hw).1], fun hw => by rw [(h2 _ hw).1]⟩

/-- C29: after a renaming, the block is found under the new name and no longer under the old, and all others as before. -/
theorem C29_rename {c : Coll} (h : Reachable c) {old new : Str} (hv : lower old ∈ c.keys) (hn : lower new ∉ c.lowerKeys)
    (n : Str) :
    (c.rename old new).1.getItem n =
      if lower n = lower new then c.getItem old else if lower n = lower old then .error .key else c.getItem n := by
  have hc := reachable_consistent h
  have hc' := rename_consistent (new := new) hc (fun _ => hv)
  have ho := visible_mem hc hv
  rcases rename_result (new := new) hc (fun _ => hv) with ⟨h1, _⟩ | ⟨_, h1, _⟩ | ⟨h1, h2, b, info, hb, hi, e'⟩
  · exact absurd h1 hn
  · exact absurd ho h1
  · rw [e'] at hc' ⊢
    simp only at hc' ⊢
    rw [getItem_entry hc', entry_rekeyed hc h1, getItem_entry hc, getItem_entry hc]
    by_cases e1 : lower n = lower new
    · simp only [e1, if_true, entry, hb, hi]
    · by_cases e2 : lower n = lower old
      · rw [if_neg e1, if_pos e2, if_neg e1, if_pos e2]
      · simp only [e1, e2, if_false]
        cases entry c (lower n) <;> rfl

/-- C29: lookups do not depend on capitalisation. -/
theorem C29_case {c : Coll} {m n : Str} (h : lower m = lower n) : c.getItem m = c.getItem n ∧ c.contains m = c.contains n := by
  simp only [getItem, contains, h, and_self]

/-- C29: a block stays findable, with the same contents, through any history of calls that do not concern it. -/
theorem C29_history {c : Coll} (h : Reachable c) {n : Str} (hm : lower n ∈ c.lowerKeys) :
    ∀ {os : List Op}, SparedRun (lower n) c os → (c.run os).getItem n = c.getItem n := by
  classical
  intro os
  induction os generalizing c with
  | nil => intro _; rfl
  | cons o os ih =>
    rintro ⟨hf, hs, hr⟩
    have hc := reachable_consistent h
    have hc' := step_consistent hc o hf
    have key : (c.step o).getItem n = c.getItem n ∧ lower n ∈ (c.step o).lowerKeys := by
      have hfin : (∃ p : Entry → Option Str, entry (c.step o) (lower n) = (entry c (lower n)).map fun e => { e with parent := p e }) →
          (c.step o).getItem n = c.getItem n ∧ lower n ∈ (c.step o).lowerKeys := by
        rintro ⟨p, he⟩
        obtain ⟨e, hee⟩ := (entry_isSome hc).mpr hm
        rw [hee] at he
        refine ⟨?_, (entry_isSome hc').mp ⟨_, he⟩⟩
        rw [getItem_entry hc', getItem_entry hc, he, hee]
        rfl
      have hmapid : (entry c (lower n)).map (fun e => ({ e with parent := e.parent } : Entry)) = entry c (lower n) := by
        cases entry c (lower n) <;> rfl
      cases o with
      | new nm b fx p =>
        simp only [Op.Spares] at hs
        by_cases hst : c.standard = none
        · rw [if_pos hst] at hs
          rcases newBlock_replace hc hst nm b fx p hf.1 (hf.2 hst).1 (hf.2 hst).2 with ⟨e, he⟩ | hr
          · simp only [step, he]; exact ⟨trivial, hm⟩
          · apply hfin
            refine ⟨fun e => e.parent, ?_⟩
            have hr := hr (fun x => decide (¬ (wantedKey nm fx ∈ c.lowerKeys ∧ Within c (wantedKey nm fx) x))) (fun x => decide_eq_true_iff)
            have hcl : Closed c (fun x => decide (¬ (wantedKey nm fx ∈ c.lowerKeys ∧ Within c (wantedKey nm fx) x))) := by
              intro x y hy hx
              simp only [decide_eq_false_iff_not, Classical.not_not] at hx ⊢
              exact ⟨hx.1, hx.2.step hy⟩
            simp only [step, hr]
            rw [entry_added (hc.restrict hcl), entry_restrict, hmapid]
            · have h1 : lower n ≠ wantedKey nm fx := fun e => hs (Or.inl e)
              have h2 : ¬ (wantedKey nm fx ∈ c.lowerKeys ∧ Within c (wantedKey nm fx) (lower n)) := fun hh => hs hh.2
              rw [if_neg h1, if_pos (decide_eq_true h2)]
            · intro hm
              have hm := List.mem_filter.mp hm
              exact of_decide_eq_true hm.2 ⟨hm.1, Or.inl rfl⟩
        · rw [if_neg hst] at hs
          rcases C30_no_loss h hst nm b fx p hf.1 with ⟨e, he⟩ | ⟨c'', k', f, he, _, h2, _, _, h5, _⟩
          · simp only [step, he]; exact ⟨trivial, hm⟩
          · apply hfin
            refine ⟨fun e => e.parent.map f, ?_⟩
            have hfx : f (lower n) = lower n := by
              rcases h5 _ hm with e | ⟨e1, e2, _, _⟩
              · exact e
              · exfalso
                have hres := newBlock_result hc hst nm b fx p hf.1
                rw [he] at hres
                cases hres with
                | plain hn => exact hn (e1 ▸ hm)
                | newKey _ _ hp => exact e2 hp
                | moved q _ _ _ _ hp _ _ => exact e2 (hs e1.symm)
            have := (h2 _ hm).2
            rw [hfx] at this
            simp only [step, he]
            exact this
      | del key =>
        by_cases hk : lower key ∈ c.lowerKeys
        · apply hfin
          refine ⟨fun e => e.parent, ?_⟩
          have hv : ∀ x, Within c (lower key) x → x ∈ c.visible := by
            intro x hw
            refine hf x hw ?_
            rcases hw with rfl | hw
            · exact hk
            · exact (hc.mem_table x).mp (under_mem hw)
          simp only [step, delItem_eq hc.keyed hk hv]
          have hs' : ¬ Within c (lower key) (lower n) := hs
          rw [entry_restrict, if_pos (decide_eq_true hs'), hmapid]
        · simp only [step, C32_missing hk]; exact ⟨trivial, hm⟩
      | rename old new =>
        rcases rename_result (new := new) hc hf with ⟨_, e⟩ | ⟨_, _, e⟩ | ⟨h1, h2, b, info, hb, hi, e⟩
        · simp only [step, e]; exact ⟨trivial, hm⟩
        · simp only [step, e]; exact ⟨trivial, hm⟩
        · apply hfin
          refine ⟨fun e => relink (lower old) (lower new) e.parent, ?_⟩
          simp only [step, e]
          have hs' : lower old ≠ lower n := hs
          have h3 : lower n ≠ lower new := fun e => h1 (e ▸ hm)
          rw [entry_rekeyed hc h1, if_neg h3, if_neg (Ne.symm hs')]
      | scoping s => exact ⟨rfl, hm⟩
      | setParent p k =>
        have hk : (c.setParent p k).1.lowerKeys = c.lowerKeys ∧ (c.setParent p k).1.dict = c.dict := by
          unfold setParent
          split
          · exact ⟨rfl, rfl⟩
          · split
            · exact ⟨rfl, rfl⟩
            · split <;> exact ⟨rfl, rfl⟩
        simp only [step]
        refine ⟨?_, by rw [hk.1]; exact hm⟩
        simp only [getItem, hk.1, hk.2]
      | clear => exact absurd hs id
    show (run (c.step o) os).getItem n = _
    rw [ih (Reachable.step o h hf) key.2 hr, key.1]

example : letI := asciiFold
    Reachable demo ∧ lower "MAIN".toList ∈ demo.lowerKeys ∧
      SparedRun (lower "MAIN".toList) demo [.rename "Other".toList "x".toList, .scoping .instance] ∧
      ∃ b, (demo.run [.rename "Other".toList "x".toList, .scoping .instance]).getItem "mAIN".toList = .ok b := by
  letI := asciiFold
  refine ⟨demo_reachable, by decide +kernel, ⟨fun _ => by decide +kernel, by show _ ≠ _; decide +kernel, trivial, trivial, trivial⟩, ?_⟩
  exact ⟨{ itemBlock "_a" "1" with maxName := none }, by decide +kernel⟩

end Verif.Coll
