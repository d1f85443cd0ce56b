import Verif.Lemmas.ValidFile
import Verif.Props.Collection
/-! # C92, C93 and C94: validation of files, its results, and blocks that are valid from the start -/
namespace Verif.Validate
open Spec
set_option linter.unusedSectionVars false
set_option synthInstance.maxSize 1000

section
variable [CaseFold]

/-! ## C92 -/

/-- The keys of the blocks that are to be validated: the visible ones, or all for a dictionary. -/
def toCheck (c : Coll) (isdic : Bool) : List Str := if isdic then c.lowerKeys else c.keys

theorem toCheck_props {c : Coll} (hc : Coll.Consistent c) (isdic : Bool) :
    (toCheck c isdic).Nodup ∧ ∀ k ∈ toCheck c isdic, k ∈ c.lowerKeys := by
  unfold toCheck
  cases isdic with
  | true => exact ⟨hc.nd_keys, fun k hk => hk⟩
  | false =>
    refine ⟨hc.nd_visible, fun k hk => ?_⟩
    cases hsc : c.scoping with
    | dictionary => exact (hc.visible_all hsc k).mp hk
    | «instance» => exact ((hc.visible_top hsc k).mp hk).1

theorem getItem_dict {c : Coll} {k : Str} {b : Block} (hl : lower k = k) (hm : k ∈ c.lowerKeys) (h : dget c.dict k = some b) :
    c.getItem k = .ok b := by
  unfold Coll.getItem
  rw [hl, if_pos hm, h]

theorem found {c : Coll} (hc : Coll.Consistent c) {k : Str} (hm : k ∈ c.lowerKeys) : ∃ b, c.getItem k = .ok b := by
  obtain ⟨b, hb⟩ := dget_isSome.mpr ((hc.mem_dict k).mpr hm)
  exact ⟨b, getItem_dict (hc.lower_keys k hm) hm hb⟩

/-- The run of `Validate` in terms of the loop over the blocks. -/
theorem validateFile_cases {D : Dic} {C : Checks} {c c' : Coll} {isdic : Bool} {res : Except PyErr FileResult}
    (h : validateFile D C c isdic = (c', res)) :
    (isdic = true ∧ c.topLevel = [] ∧ res = .error .index) ∨
    ∃ c2 : Coll, validateBlocks D C c2 {} (toCheck c isdic) = (c', res) ∧ c2.dict = c.dict ∧ c2.lowerKeys = c.lowerKeys ∧
      c2.scoping = (if isdic then .dictionary else c.scoping) := by
  unfold validateFile at h
  cases isdic with
  | false => exact .inr ⟨c, h, rfl, rfl, rfl⟩
  | true =>
    simp only [if_true] at h
    split at h
    · rename_i hk
      injection h with h1 h2
      exact .inl ⟨rfl, hk, h2.symm⟩
    · exact .inr ⟨_, h, rfl, rfl, rfl⟩

/-- C92: a file that has been validated has a result for each of its blocks, and no other results. The names that are listed as
unmatched are exactly those that are not in the dictionary; the verdict is that of all checks on the remaining items. Missing: that
the file is left as it was; what is left is the file without the unmatched items. -/
theorem C92_file_partial (D : Dic) (C : Checks) (c c' : Coll) (isdic : Bool) (r : FileResult) (hc : Coll.Consistent c) (hs : Sound c)
    (h : validateFile D C c isdic = (c', .ok r)) :
    dkeys r.valid = toCheck c isdic ∧ dkeys r.noMatches = toCheck c isdic ∧
    (∀ k ∈ toCheck c isdic, ∃ b b' v, c.getItem k = .ok b ∧ c'.getItem k = .ok b' ∧ OnlyKnown D b b' ∧
      dget r.noMatches k = some (b.keys.filter fun a => !D.known a) ∧ dget r.valid k = some v ∧ Judged C b' v) ∧
    (∀ k, lower k ∉ toCheck c isdic → c'.getItem k = c.getItem k) := by
  obtain ⟨hn, hm⟩ := toCheck_props hc isdic
  rcases validateFile_cases h with ⟨-, -, he⟩ | ⟨c2, hv, hd, hlk, -⟩
  · cases he
  · have hs2 : Sound c2 := fun k b hb => hs k b (hd ▸ hb)
    have p := validateBlocks_ok (toCheck c isdic) c2 c' {} r hs2 hn (fun k hk => hc.lower_keys k (hm k hk)) (by simp [dkeys]) hv
    have hlk' : c'.lowerKeys = c.lowerKeys := by rw [p.same, ← hlk]
    refine ⟨by rw [p.keysV]; rfl, by rw [p.keysN]; rfl, ?_, ?_⟩
    · intro k hk
      obtain ⟨b, b', v, h1, h2, h3, -, h4, h5, h6⟩ := p.block k hk
      have hl := hc.lower_keys k (hm k hk)
      exact ⟨b, b', v, getItem_dict hl (hm k hk) (hd ▸ h1), getItem_dict hl (hlk' ▸ hm k hk) h2, h3, h4, h5, h6⟩
    · intro k hk
      unfold Coll.getItem
      rw [hlk', p.other _ hk, hd]

/-- C92: the only errors are those of a check on a block without its unmatched items, and `IndexError` for a dictionary without
any data block. -/
theorem C92_raises (D : Dic) (C : Checks) (c c' : Coll) (isdic : Bool) (e : PyErr) (hc : Coll.Consistent c) (hs : Sound c)
    (h : validateFile D C c isdic = (c', .error e)) :
    (isdic = true ∧ c.topLevel = [] ∧ e = .index) ∨
    ∃ k ∈ toCheck c isdic, ∃ b b', c.getItem k = .ok b ∧ OnlyKnown D b b' ∧ runDataChecks C b' = .error e := by
  obtain ⟨hn, hm⟩ := toCheck_props hc isdic
  rcases validateFile_cases h with ⟨h1, h2, h3⟩ | ⟨c2, hv, hd, hlk, -⟩
  · injection h3 with h3
    exact .inl ⟨h1, h2, h3⟩
  · right
    have hs2 : Sound c2 := fun k b hb => hs k b (hd ▸ hb)
    obtain ⟨k, hk, b, b', g1, g2, g3⟩ := validateBlocks_error (toCheck c isdic) c2 c' {} e hs2 hn
      (fun k hk => hc.lower_keys k (hm k hk))
      (fun k hk => by
        obtain ⟨b, hb⟩ := found hc (hm k hk)
        refine ⟨b, ?_⟩
        unfold Coll.getItem at hb ⊢
        rw [hd, hlk]
        exact hb) hv
    exact ⟨k, hk, b, b', getItem_dict (hc.lower_keys k (hm k hk)) (hm k hk) (hd ▸ g1), g2, g3⟩

/-- C92: a file all of whose names are in the dictionary keeps all its blocks as they were. -/
theorem C92_matched (D : Dic) (C : Checks) (c c' : Coll) (isdic : Bool) (r : FileResult) (hc : Coll.Consistent c) (hs : Sound c)
    (hk : ∀ k b, c.getItem k = .ok b → ∀ a ∈ b.keys, D.known a = true) (h : validateFile D C c isdic = (c', .ok r)) (k : Str) :
    c'.getItem k = c.getItem k := by
  obtain ⟨hn, hm⟩ := toCheck_props hc isdic
  rcases validateFile_cases h with ⟨-, -, he⟩ | ⟨c2, hv, hd, hlk, -⟩
  · cases he
  · have hs2 : Sound c2 := fun k b hb => hs k b (hd ▸ hb)
    have p := validateBlocks_ok (toCheck c isdic) c2 c' {} r hs2 hn (fun k hk => hc.lower_keys k (hm k hk)) (by simp [dkeys]) hv
    have hlk' : c'.lowerKeys = c.lowerKeys := by rw [p.same, ← hlk]
    unfold Coll.getItem
    rw [hlk']
    by_cases hmem : lower k ∈ toCheck c isdic
    · obtain ⟨b, b', v, h1, h2, -, h3, -⟩ := p.block _ hmem
      rw [hd] at h1
      rw [h2, h1, h3]
      have hg := getItem_dict (hc.lower_keys _ (hm _ hmem)) (hm _ hmem) h1
      rw [unknownNames, List.filter_eq_nil_iff]
      intro a ha
      simp [hk _ b hg a ha]
    · rw [p.other _ hmem, hd]

/-- Where C92 fails: whenever a block has an item that is not in the dictionary, the file that was given to `Validate` has lost that
item afterwards. -/
theorem C92_unmatched_fails (D : Dic) (C : Checks) (c c' : Coll) (isdic : Bool) (r : FileResult) (hc : Coll.Consistent c) (hs : Sound c)
    (h : validateFile D C c isdic = (c', .ok r)) (k a : Str) (hk : k ∈ toCheck c isdic) (b : Block) (_hb : c.getItem k = .ok b)
    (_ha : b.contains a = true) (hu : D.known a = false) : ∃ b', c'.getItem k = .ok b' ∧ b'.contains a = false := by
  obtain ⟨-, -, h3, -⟩ := C92_file_partial D C c c' isdic r hc hs h
  obtain ⟨b1, b', v, g1, g2, g3, -⟩ := h3 k hk
  refine ⟨b', g2, ?_⟩
  unfold Block.contains
  rw [decide_eq_false_iff_not, g3.keys, List.mem_filter]
  intro hh
  rw [known_lower, hu] at hh
  exact absurd hh.2 (by decide)

/-- Where C92 fails: after the validation of a dictionary all its save frames have become visible as blocks, whatever the scoping was
before. -/
theorem C92_scoping_fails (D : Dic) (C : Checks) (c c' : Coll) (r : FileResult) (hc : Coll.Consistent c) (hs : Sound c)
    (h : validateFile D C c true = (c', .ok r)) : c'.scoping = .dictionary := by
  obtain ⟨hn, hm⟩ := toCheck_props hc true
  rcases validateFile_cases h with ⟨-, -, he⟩ | ⟨c2, hv, hd, hlk, hsc⟩
  · cases he
  · have hs2 : Sound c2 := fun k b hb => hs k b (hd ▸ hb)
    have p := validateBlocks_ok (toCheck c true) c2 c' {} r hs2 hn (fun k hk => hc.lower_keys k (hm k hk)) (by simp [dkeys]) hv
    rw [p.same]
    exact hsc

/-! ## C93 -/

/-- C93: asked about a block that was validated, the result says it is valid exactly when no check of the block failed, and that it has
unmatched items exactly when one of its names is not in the dictionary. Missing: the question about the whole file. -/
theorem C93_block_partial (D : Dic) (C : Checks) (c c' : Coll) (isdic : Bool) (r : FileResult) (hc : Coll.Consistent c) (hs : Sound c)
    (h : validateFile D C c isdic = (c', .ok r)) (k : Str) (hk : k ∈ toCheck c isdic) :
    ∃ b b' valid some, c.getItem k = .ok b ∧ OnlyKnown D b b' ∧ r.isValid (.some k) = .ok valid ∧ r.hasNoMatchItems (.some k) = .ok some ∧
      (∃ es, BlockRun C b' none es ∧ (valid = true ↔ ∀ e ∈ es, ¬ Fails e.outcome)) ∧
      (some = true ↔ ∃ a ∈ b.keys, D.known a = false) := by
  obtain ⟨-, -, h3, -⟩ := C92_file_partial D C c c' isdic r hc hs h
  obtain ⟨b, b', v, g1, g2, g3, g4, g5, es, g6, g7, g8⟩ := h3 k hk
  refine ⟨b, b', decide (v = (true, [])), decide (b.keys.filter (fun a => !D.known a) ≠ []), g1, g3, ?_, ?_, ⟨es, g6, ?_⟩, ?_⟩
  · simp only [FileResult.isValid, g5]
  · simp only [FileResult.hasNoMatchItems, g4]
  · rw [decide_eq_true_eq, ← g7]
    constructor
    · rintro rfl; rfl
    · intro hv
      obtain ⟨v1, v2⟩ := v
      simp only at hv g7 g8
      subst hv
      cases v2 with
      | nil => rfl
      | cons p q =>
        have := g8 p.1
        rw [if_pos (failuresOf_nil.mpr (g7.mp rfl) p.1)] at this
        simp [dget] at this
  · rw [decide_eq_true_eq, Ne, List.filter_eq_nil_iff]
    constructor
    · intro hh
      apply Classical.byContradiction
      intro hn
      refine hh fun a ha => ?_
      intro hk'
      exact hn ⟨a, ha, by simpa using hk'⟩
    · rintro ⟨a, ha, hka⟩ hh
      exact hh a ha (by simp [hka])

/-- Where C93 fails: asked about the whole file, the result of any validation raises `AttributeError`. -/
theorem C93_whole_fails (r : FileResult) : r.isValid none = .error .attribute ∧ r.hasNoMatchItems none = .error .attribute := ⟨rfl, rfl⟩

/-- Where C93 fails: a block is found under its name in any case, but the result raises `KeyError` for any name with capitals. -/
theorem C93_spelling_fails (D : Dic) (C : Checks) (c c' : Coll) (isdic : Bool) (r : FileResult) (hc : Coll.Consistent c) (hs : Sound c)
    (h : validateFile D C c isdic = (c', .ok r)) (k : Str) (hk : lower k ≠ k) (_hm : lower k ∈ toCheck c isdic) :
    (∃ b, c.getItem k = .ok b) ∧ r.isValid (some k) = .error .key ∧ r.hasNoMatchItems (some k) = .error .key := by
  obtain ⟨h1, h2, -, -⟩ := C92_file_partial D C c c' isdic r hc hs h
  obtain ⟨-, hm⟩ := toCheck_props hc isdic
  have hno : k ∉ toCheck c isdic := fun hh => hk (hc.lower_keys k (hm k hh))
  refine ⟨?_, ?_, ?_⟩
  · obtain ⟨b, hb⟩ := found hc (hm _ _hm)
    refine ⟨b, ?_⟩
    unfold Coll.getItem at hb ⊢
    rw [CaseFold.lower_lower] at hb
    exact hb
  · have : dget r.valid k = none := dget_eq_none.mpr (h1 ▸ hno)
    simp only [FileResult.isValid, this]
  · have : dget r.noMatches k = none := dget_eq_none.mpr (h2 ▸ hno)
    simp only [FileResult.hasNoMatchItems, this]

/-! ## C94 -/

/-- C94: a validating block made from another one has its items, and all checks have passed. Missing: blocks with unmatched
items, and the ways to change a validating block afterwards (see the `_fails` theorems). -/
theorem C94_valid_partial (C : Checks) (data b : Block) (h : validBlock C data = .ok b) :
    b.block = data.block ∧ b.loops = data.loops ∧ b.order = data.order ∧ b.trueCase = data.trueCase ∧
    ∃ es, BlockRun C b (some {}) es ∧ ∀ e ∈ es, ¬ Fails e.outcome := by
  unfold validBlock at h
  cases hr : runDataChecks C (copyOf data) (some {}) with
  | error e => simp only [hr] at h; cases h
  | ok v =>
    obtain ⟨valid, report⟩ := v
    simp only [hr] at h
    cases valid with
    | false => cases h
    | true =>
      have hb : copyOf data = b := by injection h
      subst hb
      obtain ⟨es, h1, h2, -⟩ := C47_valid C _ _ _ _ hr
      exact ⟨rfl, rfl, rfl, rfl, es, h1, h2.mp rfl⟩

/-- C94: a block with a failing check is refused with `ValidCifError`. -/
theorem C94_invalid (C : Checks) (data : Block) (es : List Event) (hr : BlockRun C (copyOf data) (some {}) es)
    (hf : ∃ e ∈ es, Fails e.outcome) : validBlock C data = .error .valid := by
  obtain ⟨v, r, h1, h2, -⟩ := C47_verdict C _ _ es hr
  unfold validBlock
  simp only [h1]
  cases v with
  | true =>
    obtain ⟨e, he, hfe⟩ := hf
    exact absurd hfe (h2.mp rfl e he)
  | false => rfl

theorem itemsRun_mem {C : Checks} {wb : Block} {s s' : Option Done} {ks : List Str} {es : List Event} (h : ItemsRun C wb s ks es s') :
    ∀ k ∈ ks, ∃ v es1, Returned k (C.item.map fun f => (f.1, f.2 k v)) es1 := by
  induction h with
  | nil => nofun
  | cons hv h1 h2 hr ih =>
    intro k hk
    rcases List.mem_cons.mp hk with rfl | hk
    · exact ⟨_, _, h1⟩
    · exact ih k hk

/-- Where C94 fails: data names that are not in the dictionary are no error according to the documentation, but no validating block can be
made from a block that has one. -/
theorem C94_unmatched_fails (D : Dic) (data b : Block) (n : Str) (hn : n ∈ data.keys) (hu : D.find n = none) :
    validBlock (checks12 D) data ≠ .ok b ∧ validBlock (checksM D) data ≠ .ok b := by
  constructor
  · intro h
    obtain ⟨hb, -, -, -, es, ⟨es1, es2, es3, s', h1, -⟩, -⟩ := C94_valid_partial _ data b h
    have hk : n ∈ b.keys := by unfold Block.keys; rw [hb]; exact hn
    obtain ⟨v, ev, he, -⟩ := itemsRun_mem h1 n hk
    simp only [checks12, List.map_cons] at he
    cases ev with
    | nil => cases he
    | cons e r =>
      simp only [List.map_cons, List.cons.injEq, Prod.mk.injEq] at he
      have hx := he.1.2
      have hy : validateItemType D n v = .error .key := by
        unfold validateItemType getDef
        simp only [hu]
        rfl
      rw [hy] at hx
      cases hx
  · intro h
    obtain ⟨hb, -, -, -, es, ⟨es1, es2, es3, s', h1, -⟩, -⟩ := C94_valid_partial _ data b h
    have hk : n ∈ b.keys := by unfold Block.keys; rw [hb]; exact hn
    obtain ⟨v, ev, he, -⟩ := itemsRun_mem h1 n hk
    simp only [checksM, List.map_cons] at he
    cases ev with
    | nil => cases he
    | cons e r =>
      cases r with
      | nil => simp at he
      | cons e' r =>
        simp only [List.map_cons, List.cons.injEq, Prod.mk.injEq] at he
        have hx := he.2.1.2
        have hy : validateItemEsdDdlm D n v = .error .key := by
          unfold validateItemEsdDdlm getDef
          simp only [hu]
          rfl
        rw [hy] at hx
        cases hx

/-- Where C94 fails: an item of a validating block cannot be deleted, whatever the dictionary says: an error is raised, and the block stays
as it was. -/
theorem C94_delete_fails (D : Dic) (C : Checks) (wb : Block) (key : Str) (h : wb.contains key = true) :
    ∃ e, vDelItem D C wb key = (wb, .error e) := by
  unfold vDelItem
  rw [if_pos h]
  split
  · exact ⟨_, rfl⟩
  · split
    · exact ⟨_, rfl⟩
    · split
      · exact ⟨_, rfl⟩
      · split <;> exact ⟨_, rfl⟩

/-- Where C94 fails: columns cannot be added to a loop of a validating block with `AddToLoop`. -/
theorem C94_loop_fails (D : Dic) (C : Checks) (wb : Block) (name : Str) (loopdata : List (Str × PyVal)) :
    ∃ e, vAddToLoop D C wb name loopdata = (wb, .error e) := by
  unfold vAddToLoop
  split
  · exact ⟨_, rfl⟩
  · split <;> exact ⟨_, rfl⟩

end

/-! ## Examples -/
section
attribute [local instance] asciiFold

/-- A file with two blocks: the first has an item that is not in the dictionary, the second a wrong value. -/
def fileSample : Coll :=
  let a := ((({} : Block).addItem "_p_id".toList (.list [.str "1".toList, .str "2".toList])).1.addItem "_own".toList (.str "x".toList)).1
  let b := (({} : Block).addItem "_p_id".toList (.str "3".toList)).1
  (((({} : Coll).newBlock "First".toList a).1.newBlock "second".toList b).1)

/-- `Validate` at work: `_own` is reported as unmatched, and is gone. -/
example :
    (validateFile runDic (checks12 runDic) fileSample).2.toOption.map (fun r => (r.noMatches, r.valid.map fun p => (p.1, p.2.1))) =
      some ([("first".toList, ["_own".toList]), ("second".toList, [])], [("first".toList, true), ("second".toList, false)]) ∧
    ((validateFile runDic (checks12 runDic) fileSample).1.getItem "first".toList).toOption.map (·.keys) = some ["_p_id".toList] ∧
    (fileSample.getItem "first".toList).toOption.map (·.keys) = some ["_p_id".toList, "_own".toList] := by decide +kernel

/-- The methods of the result. -/
example :
    (validateFile runDic (checks12 runDic) fileSample).2.toOption.map (fun r =>
      (r.isValid (some "first".toList), r.isValid (some "second".toList), r.hasNoMatchItems (some "first".toList),
        r.hasNoMatchItems (some "second".toList))) = some (.ok true, .ok false, .ok true, .ok false) := by decide +kernel

/-- Validating blocks: the data of the first block are refused because of `_own`, without it they are accepted, those of the second are
invalid. -/
example :
    (validBlock (checks12 runDic) (({} : Block).addItem "_p_id".toList (.str "1".toList)).1).toOption.map (·.keys) = some ["_p_id".toList] ∧
    (validBlock (checks12 runDic) (({} : Block).addItem "_p_id".toList (.str "3".toList)).1).toOption = none ∧
    (validBlock (checks12 runDic) (({} : Block).addItem "_own".toList (.str "3".toList)).1).toOption = none := by decide +kernel

end
end Verif.Validate
