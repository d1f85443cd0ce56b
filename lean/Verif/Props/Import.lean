import Verif.Spec.Import
import Verif.Props.Derive
import Verif.Props.BlockMerge
/-! # Imports between definitions (C55) -/
set_option linter.unusedSectionVars false
namespace Verif.Import
open Validate
variable [CaseFold]

theorem entry_append {n : String} (o : Option Str) (r : List (Str × PyVal)) :
    dget (entry n o ++ r) n.toList = match o with | none => dget r n.toList | some v => some (.str v) := by
  cases o <;> simp [entry, dget]

theorem entry_other {n m : String} (o : Option Str) (r : List (Str × PyVal)) (h : n.toList ≠ m.toList) :
    dget (entry n o ++ r) m.toList = dget r m.toList := by
  cases o <;> simp [entry, dget, h]

theorem field_file (r : Ref) : field r.val "file" = .ok (.str r.file) := by
  unfold field Ref.val
  simp only [dget, if_true]

theorem field_save (r : Ref) : field r.val "save" = .ok (.str r.save) := by
  unfold field Ref.val
  have h : ¬ "file".toList = "save".toList := by decide
  simp only [dget, if_neg h, if_true]

theorem rest (r : Ref) (n : String) (h1 : "file".toList ≠ n.toList) (h2 : "save".toList ≠ n.toList) :
    dget (("file".toList, PyVal.str r.file) :: ("save".toList, .str r.save) :: (entry "mode" r.mode ++ (entry "miss" r.miss ++ entry "dupl" r.dupl))) n.toList =
      dget (entry "mode" r.mode ++ (entry "miss" r.miss ++ entry "dupl" r.dupl)) n.toList := by
  simp only [dget, if_neg h1, if_neg h2]

theorem mode_eq (r : Ref) : modeOf r.val = .ok (lower (match r.mode with | none => "Contents".toList | some m => m)) := by
  unfold modeOf fieldD Ref.val
  simp only
  rw [rest r "mode" (by decide) (by decide), entry_append]
  have e : dget (entry "miss" r.miss ++ entry "dupl" r.dupl) "mode".toList = none := by
    rw [entry_other _ _ (by decide)]
    rw [← List.append_nil (entry "dupl" _), entry_other _ _ (by decide)]
    rfl
  cases r.mode with
  | none => simp only [e]; rfl
  | some m => rfl

theorem miss_eq (r : Ref) : fieldD r.val "miss" "Exit" = .ok (.str (match r.miss with | none => "Exit".toList | some m => m)) := by
  unfold fieldD Ref.val
  simp only
  rw [rest r "miss" (by decide) (by decide), entry_other _ _ (by decide), entry_append]
  have e : dget (entry "dupl" r.dupl) "miss".toList = none := by
    rw [← List.append_nil (entry "dupl" _), entry_other _ _ (by decide)]
    rfl
  cases r.miss with
  | none => simp only [e]
  | some m => rfl

theorem dupl_eq (r : Ref) : fieldD r.val "dupl" "Exit" = .ok (.str (match r.dupl with | none => "Exit".toList | some m => m)) := by
  unfold fieldD Ref.val
  simp only
  rw [rest r "dupl" (by decide) (by decide), entry_other _ _ (by decide), entry_other _ _ (by decide),
    ← List.append_nil (entry "dupl" _), entry_append]
  cases r.dupl with
  | none => rfl
  | some m => rfl

theorem lower_contents : lower "Contents".toList = contentsMode := by
  rw [CaseFold.lower_ascii _ (by decide)]
  decide

theorem mode_contents {r : Ref} (h : r.Contents) : modeOf r.val = .ok contentsMode := by
  rw [mode_eq]
  rcases h with h | ⟨m, h, hm⟩
  · rw [h]
    simp only [lower_contents]
  · rw [h]
    simp only [hm]
    rfl

theorem mode_other {r : Ref} (h : ¬ r.Contents) : ∃ m, modeOf r.val = .ok m ∧ m ≠ contentsMode := by
  rw [mode_eq]
  refine ⟨_, rfl, fun e => h ?_⟩
  cases hm : r.mode with
  | none => exact .inl hm
  | some m =>
    rw [hm] at e
    exact .inr ⟨m, hm, e⟩

theorem may_miss {r : Ref} (h : r.MayMiss) : ∃ m, fieldD r.val "miss" "Exit" = .ok m ∧ m ≠ exitVal := by
  obtain ⟨m, hm, hne⟩ := h
  rw [miss_eq, hm]
  exact ⟨_, rfl, fun e => hne (by injection e)⟩

theorem must_exit {r : Ref} (h : ¬ r.MayMiss) : fieldD r.val "miss" "Exit" = .ok exitVal := by
  rw [miss_eq]
  cases hm : r.miss with
  | none => rfl
  | some m =>
    have : m = "Exit".toList := Classical.byContradiction fun hne => h ⟨m, hm, hne⟩
    subst this
    rfl

/-- The files in a cache. -/
def files (c : Dict Str Source) : Files := dget c

theorem followRef_gives {c : Dict Str Source} {r : Ref} {name : Str} {v : PyVal} (h : Gives (files c) r name v) (l : PyVal) :
    followRef c name r.val l = .ok v := by
  obtain ⟨hc, t, ⟨src, h1, h2⟩, h3, h4⟩ := h
  have h1 : dget c r.file = some src := h1
  unfold followRef
  simp only [field_file, cached, h1, miss_eq, field_save, targetOf, h2, fromTarget, mode_contents hc, if_true, Target.getD, h3, h4]

theorem followRef_silent {c : Dict Str Source} {r : Ref} {name : Str} (h : Silent (files c) r name) (l : PyVal) :
    followRef c name r.val l = .ok l := by
  rcases h with ⟨⟨src, h1, h2⟩, hm⟩ | ⟨t, ⟨src, h1, h2⟩, h⟩
  · have h1 : dget c r.file = some src := h1
    obtain ⟨m, e, hne⟩ := may_miss hm
    unfold followRef
    simp only [field_file, cached, h1, e, field_save, targetOf, h2, if_neg hne]
  · have h1 : dget c r.file = some src := h1
    unfold followRef
    simp only [field_file, cached, h1, miss_eq, field_save, targetOf, h2, fromTarget]
    rcases h with h | h
    · obtain ⟨m, e, hne⟩ := mode_other h
      simp only [e, if_neg hne]
    · rw [mode_eq]
      simp only [Target.getD, h, Bool.false_eq_true, if_false, ite_self]

/-- Every reference can be followed for an attribute. -/
def Clear (fs : Files) (name : Str) (refs : List Ref) : Prop := ∀ r ∈ refs, (∃ v, Gives fs r name v) ∨ Silent fs r name

theorem follow_clear {c : Dict Str Source} {name : Str} {refs : List Ref} (h : Clear (files c) name refs) (l : PyVal) :
    ∃ v, followImport c name (refs.map Ref.val) l = .ok v := by
  induction refs generalizing l with
  | nil => exact ⟨l, rfl⟩
  | cons r rs ih =>
    rw [List.map_cons, followImport]
    rcases h r (by simp) with ⟨v, hv⟩ | hs
    · rw [followRef_gives hv]
      exact ih (fun x hx => h x (by simp [hx])) v
    · rw [followRef_silent hs]
      exact ih (fun x hx => h x (by simp [hx])) l

theorem follow_silent {c : Dict Str Source} {name : Str} {refs : List Ref} (h : ∀ r ∈ refs, Silent (files c) r name) (l : PyVal) :
    followImport c name (refs.map Ref.val) l = .ok l := by
  induction refs with
  | nil => rfl
  | cons r rs ih =>
    rw [List.map_cons, followImport, followRef_silent (h r (by simp))]
    exact ih fun x hx => h x (by simp [hx])

theorem follow_append {c : Dict Str Source} {name : Str} (a b : List PyVal) (l : PyVal) :
    followImport c name (a ++ b) l = match followImport c name a l with
      | .error e => .error e
      | .ok v => followImport c name b v := by
  induction a generalizing l with
  | nil => rfl
  | cons r rs ih =>
    rw [List.cons_append, followImport, followImport]
    cases followRef c name r l with
    | error e => rfl
    | ok v => exact ih v

theorem imported_refs {b : DicBlock} {refs : List Ref} (h : Refers b.own refs) (hc : b.cache ≠ []) (name : Str) :
    b.imported name = followImport b.cache name (refs.map Ref.val) .none := by
  obtain ⟨h1, h2⟩ := h
  unfold DicBlock.imported
  rw [if_pos (by simp [h1, hc])]
  rcases h2 with h2 | h2 <;> simp only [h2, Block.pyIter]

theorem imported_empty {b : DicBlock} (hc : b.cache = [] ∨ b.own.contains importAttr = false) (name : Str) :
    b.imported name = .ok .none := by
  unfold DicBlock.imported
  rw [if_neg]
  rcases hc with hc | hc <;> simp [hc]

/-- C55: an attribute of the definition itself is read from it, whatever is imported. -/
theorem C55_own {b : DicBlock} {refs : List Ref} {name : Str} {v : PyVal} (hr : Refers b.own refs)
    (hc : Clear (files b.cache) name refs) (hv : b.own.getItem name = .ok v) (hne : v ≠ .none) : b.getItem name = .ok v := by
  have : ∃ w, b.imported name = .ok w := by
    by_cases he : b.cache = []
    · exact ⟨_, imported_empty (.inl he) name⟩
    · rw [imported_refs hr he]
      exact follow_clear hc _
  obtain ⟨w, hw⟩ := this
  unfold DicBlock.getItem
  simp only [hw, hv, DicBlock.orElse, if_neg hne]

/-- C55: without imports, attributes are those of the definition. -/
theorem C55_plain {b : DicBlock} {name : Str} (hc : b.cache = [] ∨ b.own.contains importAttr = false)
    (hne : b.own.getItem name ≠ .ok .none) : b.getItem name = b.own.getItem name := by
  unfold DicBlock.getItem
  simp only [imported_empty hc]
  cases h : b.own.getItem name with
  | ok v =>
    rw [h] at hne
    have : v ≠ .none := fun e => hne (by rw [e])
    simp only [DicBlock.orElse, if_neg this]
  | error e => cases e <;> simp [DicBlock.orElse]

/-- C55: an attribute that the definition lacks is that of the last reference that provides it. Missing from the full
claim: definitions with a reference to whole definitions or to an absent file (C55_mixed_fails, C55_skipped_fails), imports of imports
(C55_chain_fails), and looking up by `in` and `get` (C55_contains_fails). -/
theorem C55_imported_partial {b : DicBlock} {pre post : List Ref} {r : Ref} {name : Str} {v : PyVal} (hr : Refers b.own (pre ++ r :: post))
    (hown : b.own.getItem name = .error .key) (hpre : Clear (files b.cache) name pre) (hv : Gives (files b.cache) r name v)
    (hpost : ∀ x ∈ post, Silent (files b.cache) x name) (hne : v ≠ .none) : b.getItem name = .ok v := by
  have he : b.cache ≠ [] := by
    intro e
    obtain ⟨_, _, ⟨_, h, _⟩, _⟩ := hv
    rw [e] at h
    cases h
  unfold DicBlock.getItem
  rw [imported_refs hr he, List.map_append, follow_append]
  obtain ⟨w, hw⟩ := follow_clear hpre .none
  rw [hw]
  simp only [List.map_cons, followImport, followRef_gives hv, follow_silent hpost, hown, DicBlock.orElse, if_neg hne]

/-- C55: an attribute that neither the definition nor any reference provides is not there. -/
theorem C55_absent {b : DicBlock} {refs : List Ref} {name : Str} (hr : Refers b.own refs) (hown : b.own.getItem name = .error .key)
    (hs : ∀ x ∈ refs, Silent (files b.cache) x name) : b.getItem name = .error .key := by
  unfold DicBlock.getItem
  have : b.imported name = .ok .none := by
    by_cases he : b.cache = []
    · exact imported_empty (.inl he) name
    · rw [imported_refs hr he]
      exact follow_silent hs _
  simp [this, hown, DicBlock.orElse]

/-- C55: a reference to a definition that is missing, and may not be skipped, is an error. -/
theorem C55_missing {b : DicBlock} {pre post : List Ref} {r : Ref} {name : Str} (hr : Refers b.own (pre ++ r :: post))
    (hpre : Clear (files b.cache) name pre) (hm : Missing (files b.cache) r) (he : ¬ r.MayMiss) : b.getItem name = .error .cif := by
  obtain ⟨src, h1, h2⟩ := hm
  have hc : b.cache ≠ [] := by
    intro e
    rw [e] at h1
    cases h1
  have h1 : dget b.cache r.file = some src := h1
  unfold DicBlock.getItem
  rw [imported_refs hr hc, List.map_append, follow_append]
  obtain ⟨w, hw⟩ := follow_clear hpre .none
  rw [hw]
  simp only [List.map_cons, followImport, followRef, field_file, cached, h1, must_exit he, field_save, targetOf, h2, if_true]

/-! ## Registering -/

/-- The files that can be loaded. -/
def loadable (load : Str → Except PyErr Source) : Files := fun f => (load f).toOption

theorem obtain_found {load : Str → Except PyErr Source} {known : Str → Bool} {refs : List Ref} {c : Dict Str Source}
    (h : ∀ r ∈ refs, r.Contents ∧ ∃ t, Found (loadable load) r t) (hc : ∀ f src, dget c f = some src → load f = .ok src) :
    ∃ c', obtain load known (refs.map Ref.val) c = .ok c' ∧ (∀ f src, dget c' f = some src → load f = .ok src) ∧
      (∀ f, (∃ src, dget c f = some src) → ∃ src, dget c' f = some src) ∧ ∀ r ∈ refs, ∃ src, dget c' r.file = some src := by
  induction refs generalizing c with
  | nil => exact ⟨c, rfl, hc, fun _ h => h, by simp⟩
  | cons r rs ih =>
    obtain ⟨h1, t, src, h2, h3⟩ := h r (by simp)
    have h2 : load r.file = .ok src := by
      unfold loadable at h2
      cases hl : load r.file with
      | error e => rw [hl] at h2; cases h2
      | ok s => rw [hl] at h2; injection h2 with h2; rw [h2]
    have e : obtainRef load known r.val c = .ok (dset c r.file src) := by
      unfold obtainRef
      have hf : contentsMode ≠ fullMode := by decide
      simp only [field_file, locate, h2, dupl_eq, miss_eq, field_save, targetOf, h3, mode_contents h1, duplicate, hf, decide_false,
        Bool.and_false, Bool.false_eq_true, if_false, register, if_true]
    obtain ⟨c', g1, g2, g3, g4⟩ := ih (c := dset c r.file src) (fun x hx => h x (by simp [hx])) (fun f s hs => by
      rw [dget_dset] at hs
      split at hs
      · rename_i ef
        injection hs with hs
        rw [← ef, ← hs]
        exact h2
      · exact hc f s hs)
    refine ⟨c', by rw [List.map_cons, obtain, e]; exact g1, g2, fun f hf => g3 f ?_, fun x hx => ?_⟩
    · rw [dget_dset]
      split
      · exact ⟨_, rfl⟩
      · exact hf
    · rcases List.mem_cons.1 hx with rfl | hx
      · exact g3 _ ⟨src, by rw [dget_dset, if_pos rfl]⟩
      · exact g4 x hx

/-- C55: registering the imports of a definition, all of attributes and all present, makes every one of them available, and does not
change the definition itself. -/
theorem C55_registered {load : Str → Except PyErr Source} {known : Str → Bool} {b : DicBlock} {refs : List Ref} (hb : b.cache = [])
    (hr : Refers b.own refs) (h : ∀ r ∈ refs, r.Contents ∧ ∃ t, Found (loadable load) r t) :
    ∃ b', obtainImports load known b = .ok b' ∧ b'.own = b.own ∧ ∀ r ∈ refs, ∀ name,
      (∀ v, Gives (loadable load) r name v → Gives (files b'.cache) r name v) ∧
      (Silent (loadable load) r name → Silent (files b'.cache) r name) := by
  obtain ⟨c', g1, g2, _, g4⟩ := obtain_found (known := known) (c := b.cache) h (by rw [hb]; intro f s hs; cases hs)
  refine ⟨{ b with cache := c' }, ?_, rfl, fun r hr' name => ?_⟩
  · unfold obtainImports
    rw [if_pos hr.1, C55_plain (.inl hb)]
    · rcases hr.2 with e | e <;> simp only [e, Block.pyIter, g1]
    · rcases hr.2 with e | e <;> rw [e] <;> intro e' <;> cases e'
  · have hfile : files c' r.file = loadable load r.file := by
      obtain ⟨src, e⟩ := g4 r hr'
      have e2 := g2 _ _ e
      unfold files loadable
      rw [e, e2]
      rfl
    have hf : ∀ t, Found (loadable load) r t → Found (files c') r t := fun t ⟨src, a, b⟩ => ⟨src, by rw [hfile]; exact a, b⟩
    refine ⟨fun v ⟨hc, t, ht, hv⟩ => ⟨hc, t, hf t ht, hv⟩, ?_⟩
    rintro (⟨⟨src, a, b⟩, hm⟩ | ⟨t, ht, hv⟩)
    · exact .inl ⟨⟨src, by rw [hfile]; exact a, b⟩, hm⟩
    · exact .inr ⟨t, hf t ht, hv⟩

/-- C55: with `heavy` imports an attribute that both definitions have is refused instead. -/
theorem C55_heavy_clash {own target : Block} {name : Str} (ht : Block.Reachable target) (h1 : own.contains name = true)
    (h2 : target.contains name = true) : (heavyContents own target).2 ≠ .ok () := by
  have := Block.C28_strict_clash own target ht [] name h1 h2 (by simp)
  unfold heavyContents
  split
  · simp
  · rename_i e
    rw [e] at this
    exact absurd rfl this

/-- C55: when they share none, the definition then has the attributes of both, and the reference is gone. -/
theorem C55_heavy {own target b' : Block} (ho : Block.Reachable own) (ht : Block.Reachable target) (hrect : target.Rect)
    (h : heavyContents own target = (b', .ok ())) {name : Str} (hn : name ≠ Block.saves) :
    b'.lookup name = if lower name = lower importAttr then none else if own.contains name then own.lookup name else target.lookup name := by
  unfold heavyContents at h
  split at h
  · cases h
  rename_i b1 e
  obtain ⟨g1, g2, g3, _⟩ := Block.C28_strict own target b1 ho ht [] hrect (fun n l _ => by
    cases l with
    | nil => exact .inl rfl
    | cons a r => exact .inr ⟨a, by simp, by simp⟩) e
  have hr1 : Block.Reachable b1 := by
    have := Block.Reachable.merge own target .strict [] ho ht
    rw [e] at this
    exact this
  have hw := (Block.reachable_wf hr1).1
  have hb : b' = (b1.removeItem importAttr).1 := by rw [h]
  subst hb
  rw [Block.lookup_val _ _ hn, Block.val_removeItem hw]
  split
  · rfl
  · rw [← Block.lookup_val _ _ hn]
    split
    · rename_i hc
      exact g2 _ hc
    · rename_i hc
      by_cases ht' : target.contains name = true
      · exact g3 _ ht' (by simp)
      · have h1 : b1.contains name = false := by
          cases hx : b1.contains name with
          | false => rfl
          | true => rcases (g1 name).1 hx with h | ⟨h, _⟩
                    · exact absurd h hc
                    · exact absurd h ht'
        have none_of : ∀ {b : Block}, b.contains name = false → b.lookup name = none := fun {b} hb => by
          rw [Block.lookup_val _ _ hn]
          unfold Block.val
          rw [dget_eq_none.2 (fun hm => by
            have := Block.contains_iff.2 hm
            rw [this] at hb
            cases hb)]
          rfl
        rw [none_of h1, none_of (Bool.eq_false_iff.2 ht')]

section Samples
attribute [local instance] asciiFold
open Derive (valuesBlock txt)

/-- A dictionary of definitions. -/
def source (l : List (String × DicBlock)) : Source := fun k =>
  match dget (l.map fun p => (p.1.toList, p.2)) k with
  | some b => .ok b.target
  | none => .error .key

/-- A template file. -/
def templates : Source := source
  [("general", { own := valuesBlock [("_type.contents", txt "Real"), ("_units.code", txt "angstroms")] }),
   ("special", { own := valuesBlock [("_type.contents", txt "Code")] })]

/-- A second file. -/
def extras : Source := source
  [("extra", { own := valuesBlock [("_description.text", txt "a text"), ("_type.contents", txt "Text")] })]

/-- Loading them. -/
def loadSample (f : Str) : Except PyErr Source :=
  if f = "templ.cif".toList then .ok templates else if f = "extra.cif".toList then .ok extras else .error .star

/-- A definition that imports from both. -/
def sampleRefs : List Ref :=
  [{ file := "templ.cif".toList, save := "general".toList }, { file := "extra.cif".toList, save := "extra".toList, mode := some "CONTENTS".toList },
   { file := "templ.cif".toList, save := "special".toList }]

/-- Its block. -/
def sampleBlock : DicBlock :=
  { own := valuesBlock [("_definition.id", txt "_a.b"), ("_description.text", txt "own text"), ("_import.get", .slist (sampleRefs.map Ref.val))] }

end Samples

/-- The conditions on the sample. -/
theorem sample_refers : letI := asciiFold
    Refers sampleBlock.own sampleRefs := by
  letI := asciiFold
  exact ⟨by decide +kernel, .inl (by decide +kernel)⟩

theorem sample_contents : letI := asciiFold
    ∀ r ∈ sampleRefs, r.Contents ∧ ∃ t, Found (loadable loadSample) r t := by
  letI := asciiFold
  intro r hr
  simp only [sampleRefs, List.mem_cons, List.not_mem_nil, or_false] at hr
  rcases hr with rfl | rfl | rfl
  · exact ⟨.inl rfl, _, templates, rfl, rfl⟩
  · exact ⟨.inr ⟨_, rfl, by decide +kernel⟩, _, extras, rfl, rfl⟩
  · exact ⟨.inl rfl, _, templates, rfl, rfl⟩

/-- After registering, `_type.contents` is that of the last reference, `_units.code` that of the first, and the text of the
definition itself is kept. -/
example : letI := asciiFold
    ∃ b', obtainImports loadSample (fun _ => false) sampleBlock = .ok b' ∧ b'.getItem "_type.contents".toList = .ok (Derive.txt "Code") ∧
      b'.getItem "_units.code".toList = .ok (Derive.txt "angstroms") ∧
      b'.getItem "_description.text".toList = .ok (Derive.txt "own text") ∧ b'.getItem "_x".toList = .error .key := by
  letI := asciiFold
  obtain ⟨b', h1, h2, h3⟩ := C55_registered (load := loadSample) (known := fun _ => false) (b := sampleBlock) rfl sample_refers
    sample_contents
  have hr : Refers b'.own sampleRefs := by rw [h2]; exact sample_refers
  have m0 : sampleRefs[0] ∈ sampleRefs := by simp [sampleRefs]
  have m1 : sampleRefs[1] ∈ sampleRefs := by simp [sampleRefs]
  have m2 : sampleRefs[2] ∈ sampleRefs := by simp [sampleRefs]
  have c0 : sampleRefs[0].Contents := .inl rfl
  have c1 : sampleRefs[1].Contents := .inr ⟨_, rfl, by decide +kernel⟩
  have c2 : sampleRefs[2].Contents := .inl rfl
  refine ⟨b', h1, ?_, ?_, ?_, ?_⟩
  · refine C55_imported_partial (pre := [sampleRefs[0], sampleRefs[1]]) (r := sampleRefs[2]) (post := []) hr (by rw [h2]; decide +kernel) ?_
      ((h3 _ m2 _).1 _ ⟨c2, _, ⟨templates, rfl, rfl⟩, by decide +kernel, by decide +kernel⟩) (by simp) (by decide)
    intro r hr
    rcases List.mem_cons.1 hr with rfl | hr
    · exact .inl ⟨Derive.txt "Real", (h3 _ m0 _).1 _ ⟨c0, _, ⟨templates, rfl, rfl⟩, by decide +kernel, by decide +kernel⟩⟩
    · rw [List.mem_singleton] at hr
      subst hr
      exact .inl ⟨Derive.txt "Text", (h3 _ m1 _).1 _ ⟨c1, _, ⟨extras, rfl, rfl⟩, by decide +kernel, by decide +kernel⟩⟩
  · refine C55_imported_partial (pre := []) (r := sampleRefs[0]) (post := [sampleRefs[1], sampleRefs[2]]) hr (by rw [h2]; decide +kernel)
      (fun r hr => by cases hr) ((h3 _ m0 _).1 _ ⟨c0, _, ⟨templates, rfl, rfl⟩, by decide +kernel, by decide +kernel⟩) ?_ (by decide)
    intro r hr
    rcases List.mem_cons.1 hr with rfl | hr
    · exact (h3 _ m1 _).2 (.inr ⟨_, ⟨extras, rfl, rfl⟩, .inr (by decide +kernel)⟩)
    · rw [List.mem_singleton] at hr
      subst hr
      exact (h3 _ m2 _).2 (.inr ⟨_, ⟨templates, rfl, rfl⟩, .inr (by decide +kernel)⟩)
  · refine C55_own hr ?_ (by rw [h2]; decide +kernel) (by decide)
    intro r hr
    simp only [sampleRefs, List.mem_cons, List.not_mem_nil, or_false] at hr
    rcases hr with rfl | rfl | rfl
    · exact .inr ((h3 _ m0 _).2 (.inr ⟨_, ⟨templates, rfl, rfl⟩, .inr (by decide +kernel)⟩))
    · exact .inl ⟨Derive.txt "a text", (h3 _ m1 _).1 _ ⟨c1, _, ⟨extras, rfl, rfl⟩, by decide +kernel, by decide +kernel⟩⟩
    · exact .inr ((h3 _ m2 _).2 (.inr ⟨_, ⟨templates, rfl, rfl⟩, .inr (by decide +kernel)⟩))
  · refine C55_absent hr (by rw [h2]; decide +kernel) ?_
    intro r hr
    simp only [sampleRefs, List.mem_cons, List.not_mem_nil, or_false] at hr
    rcases hr with rfl | rfl | rfl
    · exact (h3 _ m0 _).2 (.inr ⟨_, ⟨templates, rfl, rfl⟩, .inr (by decide +kernel)⟩)
    · exact (h3 _ m1 _).2 (.inr ⟨_, ⟨extras, rfl, rfl⟩, .inr (by decide +kernel)⟩)
    · exact (h3 _ m2 _).2 (.inr ⟨_, ⟨templates, rfl, rfl⟩, .inr (by decide +kernel)⟩)

section Samples
attribute [local instance] asciiFold
open Derive (valuesBlock txt)

/-- A definition with the given references and a text. -/
def withRefs (refs : List Ref) : DicBlock :=
  { own := valuesBlock [("_description.text", txt "own text"), ("_import.get", .slist (refs.map Ref.val))] }

/-- A reference to attributes and one that adds definitions, from another file. -/
def mixedBlock : DicBlock := withRefs
  [{ file := "templ.cif".toList, save := "general".toList }, { file := "extra.cif".toList, save := "extra".toList, mode := some "Full".toList }]

/-- A definition that may be missing, in another file. -/
def missBlock : DicBlock := withRefs
  [{ file := "templ.cif".toList, save := "general".toList }, { file := "extra.cif".toList, save := "lost".toList, miss := some "Ignore".toList }]

/-- A definition importing from `sampleBlock`, which itself imports. -/
def chainBlock (middle : DicBlock) : DicBlock :=
  { withRefs [{ file := "mid.cif".toList, save := "mid".toList }] with cache := [("mid.cif".toList, source [("mid", middle)])] }

/-- `sampleBlock` with its files. -/
def sampleReady : DicBlock := { sampleBlock with cache := [("templ.cif".toList, templates), ("extra.cif".toList, extras)] }

/-- The attribute read from a definition once its imports are registered. -/
def readAfter (b : DicBlock) (name : String) : Except PyErr PyVal :=
  match obtainImports loadSample (fun _ => false) b with
  | .error e => .error e
  | .ok b' => b'.getItem name.toList

end Samples

/-- `C55_missing`: the second reference is to a definition that is not in its file. -/
example : letI := asciiFold
    ({ withRefs [{ file := "templ.cif".toList, save := "general".toList }, { file := "templ.cif".toList, save := "lost".toList }]
      with cache := [("templ.cif".toList, templates)] } : DicBlock).getItem "_description.text".toList = .error .cif := by
  letI := asciiFold
  refine C55_missing (pre := [{ file := "templ.cif".toList, save := "general".toList }])
    (r := { file := "templ.cif".toList, save := "lost".toList }) (post := [])
    ⟨by decide +kernel, .inl (by decide +kernel)⟩ (fun r hr => ?_) ⟨templates, rfl, rfl⟩ ?_
  · rw [List.mem_singleton] at hr
    subst hr
    exact .inr (.inr ⟨_, ⟨templates, rfl, rfl⟩, .inr (by decide +kernel)⟩)
  · rintro ⟨m, h, _⟩
    cases h

/-- A definition that imports attributes from one file and definitions from another can be registered, but then none of its
attributes can be read, not even its own: `ValueError`. -/
theorem C55_mixed_fails : letI := asciiFold
    (∃ b', obtainImports loadSample (fun _ => false) mixedBlock = .ok b') ∧
    readAfter mixedBlock "_description.text" = .error .value ∧ readAfter mixedBlock "_units.code" = .error .value := by
  letI := asciiFold
  exact ⟨⟨{ mixedBlock with cache := [("templ.cif".toList, templates)] }, rfl⟩, by decide +kernel, by decide +kernel⟩

/-- The same happens when a definition that may be missing is missing. -/
theorem C55_skipped_fails : letI := asciiFold
    (∃ b', obtainImports loadSample (fun _ => false) missBlock = .ok b') ∧ readAfter missBlock "_description.text" = .error .value := by
  letI := asciiFold
  exact ⟨⟨{ missBlock with cache := [("templ.cif".toList, templates)] }, rfl⟩, by decide +kernel⟩

/-- Imports are not followed further: an attribute that the imported definition imports is not found. -/
theorem C55_chain_fails : letI := asciiFold
    sampleReady.getItem "_units.code".toList = .ok (Derive.txt "angstroms") ∧
    (chainBlock sampleReady).getItem "_units.code".toList = .error .key := by
  letI := asciiFold
  decide +kernel

/-- `in` and `get` do not see imported attributes, `has_key` does. -/
theorem C55_contains_fails : letI := asciiFold
    sampleReady.getItem "_units.code".toList = .ok (Derive.txt "angstroms") ∧ sampleReady.contains "_units.code".toList = false ∧
    sampleReady.getD "_units.code".toList (Derive.txt "none") = .ok (Derive.txt "none") ∧
    sampleReady.hasKey "_units.code".toList = .ok true := by
  letI := asciiFold
  decide +kernel

/-- A `heavy` import keeps the attributes of both definitions. -/
example : letI := asciiFold
    let own := Derive.valuesBlock [("_import.get", Derive.txt "x"), ("_a", Derive.txt "1")]
    let target := Derive.valuesBlock [("_b", Derive.txt "2")]
    (heavyContents own target).2 = .ok () ∧ (heavyContents own target).1.lookup "_b".toList = some (Derive.txt "2") ∧
    (heavyContents own target).1.lookup "_a".toList = some (Derive.txt "1") ∧
    (heavyContents own target).1.lookup importAttr = none := by
  letI := asciiFold
  decide +kernel

end Verif.Import
