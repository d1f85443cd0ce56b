import Verif.Lemmas.EditDic
import Verif.Lemmas.Derive
import Verif.Props.CifDic
/-! # C67: adding definitions to a dictionary -/
set_option linter.unusedSectionVars false
namespace Verif.CifDic
open Validate
variable [CaseFold]

theorem takeWhile_split (s : Str) : ∃ pre, s = pre ++ (s.reverse.takeWhile fun c => decide (c ≠ '.')).reverse ∧ (pre = [] ∨ ∃ q, pre = q ++ ['.']) := by
  have h := List.takeWhile_append_dropWhile (p := fun c => decide (c ≠ '.')) (l := s.reverse)
  refine ⟨(s.reverse.dropWhile fun c => decide (c ≠ '.')).reverse, ?_, ?_⟩
  · rw [← List.reverse_append, h, List.reverse_reverse]
  · cases hd : s.reverse.dropWhile fun c => decide (c ≠ '.') with
    | nil => exact .inl rfl
    | cons x r =>
      have := List.head_dropWhile_not (fun c => decide (c ≠ '.')) (l := s.reverse) (by rw [hd]; simp)
      simp only [hd, List.head_cons, decide_eq_false_iff_not, Classical.not_not] at this
      exact .inr ⟨r.reverse, by rw [this]; simp⟩

theorem dropWhile_split (s : Str) : ∃ u, s = u ++ s.dropWhile (fun c => decide (c = '_')) ∧ (∀ c ∈ u, c = '_') ∧
    ∀ r, s.dropWhile (fun c => decide (c = '_')) ≠ '_' :: r := by
  refine ⟨s.takeWhile (fun c => decide (c = '_')), List.takeWhile_append_dropWhile.symm, ?_, ?_⟩
  · intro c hc
    have := takeWhile_all hc
    simpa using this
  · intro r hr
    have := List.head_dropWhile_not (fun c => decide (c = '_')) (l := s) (by rw [hr]; simp)
    simp [hr] at this

/-- The object part of a name is what the specification says. -/
theorem objectName_part (s : Str) : ObjectPart s (objectName s) := by
  obtain ⟨pre, h1, h2⟩ := takeWhile_split s
  unfold objectName
  simp only
  generalize ht : (s.reverse.takeWhile fun c => decide (c ≠ '.')).reverse = tail at h1
  have hdot : '.' ∉ tail := by
    intro hm
    rw [← ht, List.mem_reverse] at hm
    have := takeWhile_all hm
    simp at this
  obtain ⟨u, e1, u1, n1⟩ := dropWhile_split tail
  generalize tail.dropWhile (fun c => decide (c = '_')) = mid at e1 n1
  obtain ⟨v, e2, v1, n2⟩ := dropWhile_split mid.reverse
  generalize mid.reverse.dropWhile (fun c => decide (c = '_')) = obj at e2 n2
  have e3 : mid = obj.reverse ++ v.reverse := by rw [← List.reverse_append, ← e2, List.reverse_reverse]
  refine ⟨pre, u, v.reverse, ?_, h2, ?_, ?_, ?_, ?_⟩
  · conv => lhs; rw [h1, e1, e3]
    simp [List.append_assoc]
  · rw [List.append_assoc, ← e3, ← e1]; exact hdot
  · intro c hc
    rcases List.mem_append.1 hc with hc | hc
    · exact u1 c hc
    · exact v1 c (List.mem_reverse.1 hc)
  · intro r hr
    exact n1 (r ++ v.reverse) (by rw [e3, hr]; rfl)
  · intro r hr
    exact n2 r.reverse (by rw [← List.reverse_reverse obj, hr]; simp)

theorem nodup_item : ([idAttr, objAttr, catAttr, classAttr, textAttr].map lower).Nodup := by
  simp only [List.map_cons, List.map_nil, low_id, low_obj, low_cat, low_class, low_text]
  decide

theorem not_saves_item : ∀ a ∈ [idAttr, objAttr, catAttr, classAttr, textAttr], a ≠ Block.saves := by decide

theorem val_empty (x : Str) : ({} : Block).val x = none := rfl

theorem valAfter_cons (x : Str) (v : Option PyVal) (p : Str × PyVal) (r : List (Str × PyVal)) :
    valAfter x v (p :: r) = valAfter x (if x = lower p.1 then some p.2 else v) r := rfl

theorem stored_empty (c : Coll) (x : Str) : (Coll.stored c {}).val x = none := rfl

theorem isCategory_of_noCategory {d : CifDic} {cat : Str} (h : noCategory d cat = .ok false) : IsCategory d cat := by
  unfold noCategory at h
  split at h
  · cases h
  · unfold attrI at h
    cases hg : d.getItem cat with
    | error e => rw [hg] at h; cases h
    | ok b =>
      rw [hg] at h
      simp only at h
      cases hs : b.getItem scopeAttr with
      | error e => rw [hs] at h; cases h
      | ok v =>
        rw [hs] at h
        simp only [ne_eq, decide_not, Except.ok.injEq, Bool.not_eq_eq_eq_not, Bool.not_false, decide_eq_true_eq] at h
        subst h
        have := Block.val_of_getItem hs
        exact ⟨b, hg, has_of_val (by decide) this⟩

/-- C67: a definition added to a category, with a name in lower case that is not used yet for a definition or a block, is found under
that name in any capitalisation, with exactly the attributes asked for; every other definition stays as it was, no name is
lost, and the dictionary stays in good order. It succeeds only if the category is there, unless that is waived. Missing: names with
capital letters (`C67_capitals_fails`) and names already used (`C67_hidden_fails`). -/
theorem C67_item_partial {d d' : CifDic} (hd : Sound d) {item cat text r : Str} {dangler : Bool} {full : Str}
    (hfull : full = '_' :: (lower cat ++ '.' :: objectName item)) (hlow : lower full = full)
    (hn : d.contains full = false) (hb : full ∉ d.coll.lowerKeys)
    (h : addDefinition d item cat text dangler = (d', .ok r)) :
    Sound d' ∧ (∀ x, x ∈ d'.keys ↔ x ∈ d.keys ∨ x = full) ∧ ObjectPart item (objectName item) ∧
    (∃ b, (∀ name, lower name = full → d'.contains name = true ∧ d'.getItem name = .ok b) ∧
      Edited {} b [(idAttr, .str full), (objAttr, .str (objectName item)), (catAttr, .str cat), (classAttr, .str "Datum".toList),
        (textAttr, .str text)]) ∧
    (∀ i, d.contains i = true → Unchanged d d' i) ∧ (dangler = true ∨ IsCategory d cat) := by
  obtain ⟨d1, e1, l1, v1⟩ := hd.toKept.overwriteAll true
  unfold addDefinition at h
  rw [show unlock d = (d1, .ok ()) from e1, seq_ok] at h
  obtain ⟨bad, hbad, h⟩ := read_inv h
  cases bad with
  | true => cases h
  | false =>
  simp only [Bool.false_eq_true, if_false] at h
  obtain ⟨root, hroot, h⟩ := read_inv h
  obtain ⟨d2, real, h2, h⟩ := seq_inv h
  obtain ⟨d3, u, h3, h⟩ := seq_inv h
  obtain ⟨e3, -⟩ := Prod.mk.inj h
  subst e3
  have k1 := l1.kept hd.toKept
  obtain ⟨top, ht, _, _⟩ := k1.top
  have hrt : root = top := by
    simp only [firstRoot, ht] at hroot
    injection hroot with hroot
    exact hroot.symm
  subst hrt
  rw [← hfull] at h2 h3
  have hcoll := l1.coll
  have hlk : d1.coll.lowerKeys = d.coll.lowerKeys := by rw [hcoll]
  obtain ⟨hr, k2, _, htab, hlook⟩ := k1.newBlock (by simp) ht (by rw [hlow, hlk]; exact hb) (by rw [l1.contains]; exact hn) h2
  rw [hlow] at k2 htab hlook
  have hc2 : CifDic.contains { d2 with table := dset d2.table full real } full = true := by
    rw [contains_iff, hlow]
    exact ⟨real, by rw [htab, if_pos rfl]⟩
  obtain ⟨l3, b', hv3, hx3, _, _⟩ := Kept.setAttrs _ k2 hc2 h3 (b := Coll.stored d1.coll {}) (by rw [hlow, hlook, if_pos rfl])
  rw [hlow] at hv3
  have k3 := l3.kept k2
  have hlook3 : ∀ i, look d3 i = if i = full then some b' else (look d i).map ({ · with overwrite := true }) := by
    intro i
    rw [hv3, hlook, v1]
    split <;> rfl
  have hkeys : ∀ x, x ∈ d3.keys ↔ x ∈ d.keys ∨ x = full := by
    intro x
    rw [← k3.look_some, hlook3, ← hd.toKept.look_some]
    by_cases hx : x = full
    · simp [hx]
    · simp only [hx, if_false, or_false]
      cases look d x <;> simp
  have hed : Edited {} b' [(idAttr, .str full), (objAttr, .str (objectName item)), (catAttr, .str cat), (classAttr, .str "Datum".toList),
        (textAttr, .str text)] :=
    edited_of_val nodup_item (fun p hp => not_saves_item p.1 (List.mem_map.2 ⟨p, hp, rfl⟩)) (fun x => by rw [hx3, stored_empty]; rfl)
  have hnf := (not_contains_look hd.toKept).1 hn
  rw [hlow] at hnf
  refine ⟨sound_if hd k3 ?_, hkeys, objectName_part item, ⟨b', fun name hname => ?_, hed⟩,
    fun i hi => unchanged_if hd.toKept k3 hi fun b hb => ?_, ?_⟩
  · intro i b hb
    rw [hlook3] at hb
    split at hb
    · rename_i e
      injection hb with hb
      subst hb
      have := val_of_has (hed.1 (idAttr, .str full) (by simp))
      rw [low_id] at this
      exact .inr ⟨full, this, by rw [e]; exact hlow⟩
    · cases hl : look d i with
      | none => rw [hl] at hb; cases hb
      | some b0 =>
        rw [hl] at hb
        injection hb with hb
        exact .inl ⟨b0, rfl, hb ▸ rfl⟩
  · have hc : d3.contains name = true := by
      simp only [contains, hname, decide_eq_true_eq]
      exact (hkeys _).2 (.inr rfl)
    exact ⟨hc, (k3.getItem_look hc).2 (by rw [hname, hlook3, if_pos rfl])⟩
  · have hne : lower i ≠ full := fun e => by rw [e, hnf] at hb; cases hb
    exact ⟨_, by rw [hlook3, if_neg hne, hb]; rfl, sameDef_overwrite b true⟩
  · cases dangler with
    | true => exact .inl rfl
    | false =>
      right
      simp only [Bool.false_eq_true, if_false] at hbad
      obtain ⟨b, hg, hs⟩ := isCategory_of_noCategory hbad
      have hc : d1.contains cat = true := by
        unfold noCategory at hbad
        split at hbad
        · cases hbad
        · rename_i hh; simpa using hh
      rw [k1.getItem_look hc, v1] at hg
      cases hl : look d (lower cat) with
      | none => rw [hl] at hg; cases hg
      | some b0 =>
        rw [hl] at hg
        injection hg with hg
        refine ⟨b0, (hd.toKept.getItem_look (by rw [← l1.contains]; exact hc)).2 hl, ?_⟩
        have := sameDef_overwrite b0 true
        rw [show ({ b0 with overwrite := true } : Block) = b from hg] at this
        exact this.has.1 hs

/-- C67: when the category does not exist, a definition is refused and no definition changes. -/
theorem C67_item_refused {d : CifDic} (hd : Sound d) (item : Str) {cat : Str} (text : Str) (hc : ¬ (d.contains cat = true ∧ IsCategory d cat)) :
    ∃ d' e, addDefinition d item cat text false = (d', .error e) ∧ (d.contains cat = false → e = .cif) ∧ Sound d' ∧
      (∀ x, x ∈ d'.keys ↔ x ∈ d.keys) ∧ ∀ i, d.contains i = true → Unchanged d d' i := by
  obtain ⟨d1, e1, l1, v1⟩ := hd.toKept.overwriteAll true
  have k1 := l1.kept hd.toKept
  have hun : ∀ i, d.contains i = true → Unchanged d d1 i := fun i hi =>
    unchanged_if hd.toKept k1 hi fun b hb => ⟨_, by rw [v1, hb]; rfl, sameDef_overwrite b true⟩
  have hs : Sound d1 := sound_if hd k1 fun i b' hb' => by
    rw [v1] at hb'
    cases hl : look d i with
    | none => rw [hl] at hb'; cases hb'
    | some b =>
      rw [hl] at hb'
      injection hb' with hb'
      exact .inl ⟨b, rfl, hb' ▸ rfl⟩
  have hk : ∀ x, x ∈ d1.keys ↔ x ∈ d.keys := fun x => by rw [l1.keys]
  unfold addDefinition
  rw [show unlock d = (d1, .ok ()) from e1, seq_ok]
  simp only [Bool.false_eq_true, if_false]
  cases hn : noCategory d1 cat with
  | error e =>
    refine ⟨d1, e, rfl, fun hf => ?_, hs, hk, hun⟩
    unfold noCategory at hn
    rw [l1.contains, hf] at hn
    cases hn
  | ok bad =>
    cases bad with
    | true => exact ⟨d1, .cif, rfl, fun _ => rfl, hs, hk, hun⟩
    | false =>
      exfalso
      have hcc : d1.contains cat = true := by
        unfold noCategory at hn
        split at hn
        · cases hn
        · rename_i hh; simpa using hh
      have hcd : d.contains cat = true := by rw [← l1.contains]; exact hcc
      obtain ⟨b, hg, hs⟩ := isCategory_of_noCategory hn
      obtain ⟨_, _, b0, b1, g0, g1, hsd⟩ := hun cat hcd
      rw [hg] at g1
      injection g1 with g1
      subst g1
      exact hc ⟨hcd, b0, g0, hsd.has.1 hs⟩

theorem nodup_cat : ([objAttr, catAttr, idAttr, scopeAttr, classAttr, textAttr].map lower).Nodup := by
  simp only [List.map_cons, List.map_nil, low_id, low_obj, low_scope, low_cat, low_class, low_text]
  decide

theorem not_saves_cat : ∀ a ∈ [objAttr, catAttr, idAttr, scopeAttr, classAttr, textAttr], a ≠ Block.saves := by decide

theorem isClass_true {d : CifDic} {h : Str} (hc : isClass d [] "Head".toList h = .ok true) :
    ∃ b, d.getItem h = .ok b ∧ Has b classAttr (.str "Head".toList) := by
  unfold isClass attrD at hc
  cases hg : d.getItem h with
  | error e => rw [hg] at hc; cases hc
  | ok b =>
    rw [hg] at hc
    simp only [getD] at hc
    split at hc
    · cases hc
    · rename_i v hv
      have hv' : v = .str "Head".toList := by simpa using hc
      subst hv'
      split at hv
      · rename_i hct
        exact ⟨b, rfl, hct, hv⟩
      · cases hv

theorem fixName_id {s : Str} (h : ∀ c ∈ s, c ≠ ' ' ∧ c ≠ '\t') : Coll.fixName s = s := by
  unfold Coll.fixName
  induction s with
  | nil => rfl
  | cons c r ih =>
    obtain ⟨h1, h2⟩ := h c (by simp)
    rw [List.map_cons, ih (fun x hx => h x (List.mem_cons_of_mem _ hx))]
    simp [h1, h2]

/-- C67: a category added under a name without blanks that is not used yet is found under that name in any capitalisation, with
exactly the attributes asked for, and refers to its parent by the name the parent's definition gives it; every other definition stays as
it was, no name is lost, the dictionary stays in good order, and its definitions are protected again. Missing: a dictionary without
`Head` (`C67_headless_fails`) and a parent that does not exist (`C67_orphan_fails`), when the failed call leaves a definition behind;
names with blanks, and the name of the enclosing block. -/
theorem C67_category_partial {d d' : CifDic} (hd : Sound d) {name r : Str} {parent : Option Str} {isLoop dangler : Bool}
    (hblank : ∀ c ∈ name, c ≠ ' ' ∧ c ≠ '\t') (hb : lower name ∉ d.coll.lowerKeys)
    (hp : ∀ p, parent = some p → dangler = false → d.contains p = true) (hh : parent = none → ∃ x, IsHead d x)
    (h : addCategory d name parent isLoop dangler = (d', .ok r)) :
    d.contains name = false ∧ Sound d' ∧ Locked d' ∧ (∀ x, x ∈ d'.keys ↔ x ∈ d.keys ∨ x = lower name) ∧
    (∃ b pv, (∀ n, lower n = lower name → d'.contains n = true ∧ d'.getItem n = .ok b) ∧
      Edited {} b [(objAttr, .str name), (catAttr, pv), (idAttr, .str name), (scopeAttr, .str "Category".toList),
        (classAttr, .str (if isLoop then "Loop".toList else "Set".toList)), (textAttr, .str "No definition provided".toList)] ∧
      ((dangler = true ∧ ∃ p, parent = some p ∧ pv = .str p) ∨
        ∃ q bq, (parent = some q ∨ (parent = none ∧ IsHead d q)) ∧ d.getItem q = .ok bq ∧ bq.lookup objAttr = some pv)) ∧
    ∀ i, d.contains i = true → Unchanged d d' i := by
  unfold addCategory at h
  cases hn : d.contains name with
  | true => rw [hn] at h; cases h
  | false =>
  rw [hn] at h
  simp only [Bool.false_eq_true, if_false] at h
  obtain ⟨d1, e1, l1, v1⟩ := hd.toKept.overwriteAll true
  rw [show unlock d = (d1, .ok ()) from e1, seq_ok] at h
  obtain ⟨root, hroot, h⟩ := read_inv h
  obtain ⟨par, hpar, h⟩ := read_inv h
  obtain ⟨d2, real, h2, h⟩ := seq_inv h
  obtain ⟨d3, u3, h3, h⟩ := seq_inv h
  obtain ⟨pv, hpv, h⟩ := read_inv h
  obtain ⟨d4, u4, h4, h⟩ := seq_inv h
  obtain ⟨d5, u5, h5, h⟩ := seq_inv h
  obtain ⟨e5, -⟩ := Prod.mk.inj h
  subst e5
  have k1 := l1.kept hd.toKept
  obtain ⟨top, ht, _, _⟩ := k1.top
  have hrt : root = top := by
    simp only [firstRoot, ht] at hroot
    injection hroot with hroot
    exact hroot.symm
  subst hrt
  have hlk : d1.coll.lowerKeys = d.coll.lowerKeys := by rw [l1.coll]
  obtain ⟨hr, k2, _, htab, hlook⟩ := k1.newBlock (by simp [fixName_id hblank]) ht (by rw [hlk]; exact hb) (by rw [l1.contains]; exact hn) h2
  have hc2 : CifDic.contains { d2 with table := dset d2.table (lower name) real } name = true := by
    rw [contains_iff]
    exact ⟨real, by rw [htab, if_pos rfl]⟩
  obtain ⟨l3, b2, b3, hb2, hset3, hv3⟩ := k2.setAttr hc2 h3
  have k3 := l3.kept k2
  have hc3 : d3.contains name = true := by rw [l3.contains]; exact hc2
  obtain ⟨l4, b4, hv4, hx4, _, _⟩ := Kept.setAttrs _ k3 hc3 h4 (b := b3) (by rw [hv3, if_pos rfl])
  have k4 := l4.kept k3
  obtain ⟨d5', e5', l5, v5⟩ := k4.overwriteAll false
  have : d5 = d5' := by
    have : (d5, Except.ok u5) = (d5', .ok ()) := h5.symm.trans e5'
    exact (Prod.mk.inj this).1
  subst this
  have k5 := l5.kept k4
  have hb2' : b2 = Coll.stored d1.coll {} := by
    rw [hlook, if_pos rfl] at hb2
    injection hb2 with hb2
    exact hb2.symm
  have hlook3 : ∀ i, i ≠ lower name → look d3 i = (look d i).map ({ · with overwrite := true }) := by
    intro i hi
    rw [hv3, if_neg hi, hlook, if_neg hi, v1]
  have hlook5 : ∀ i, look d5 i = if i = lower name then some { b4 with overwrite := false } else (look d i).map ({ · with overwrite := false }) := by
    intro i
    rw [v5, hv4]
    by_cases hi : i = lower name
    · simp [hi]
    · rw [if_neg hi, if_neg hi, hlook3 i hi]
      cases look d i <;> rfl
  have hnf := (not_contains_look hd.toKept).1 hn
  have hkeys : ∀ x, x ∈ d5.keys ↔ x ∈ d.keys ∨ x = lower name := by
    intro x
    rw [← k5.look_some, hlook5, ← hd.toKept.look_some]
    by_cases hx : x = lower name
    · simp [hx]
    · simp only [hx, if_false, or_false]
      cases look d x <;> simp
  have hed : Edited {} { b4 with overwrite := false } [(objAttr, .str name), (catAttr, pv), (idAttr, .str name), (scopeAttr, .str "Category".toList),
        (classAttr, .str (if isLoop then "Loop".toList else "Set".toList)), (textAttr, .str "No definition provided".toList)] := by
    refine edited_of_val nodup_cat (fun p hp => not_saves_cat p.1 (List.mem_map.2 ⟨p, hp, rfl⟩)) (fun x => ?_)
    rw [(sameDef_overwrite b4 false).val, hx4, Block.val_setItem hset3, hb2', stored_empty]
    conv => rhs; rw [valAfter_cons, val_empty]
  have hunch : ∀ i, d.contains i = true → Unchanged d d5 i := fun i hi => unchanged_if hd.toKept k5 hi fun b hb => by
    have hne : lower i ≠ lower name := fun e => by rw [e, hnf] at hb; cases hb
    exact ⟨_, by rw [hlook5, if_neg hne, hb]; rfl, sameDef_overwrite b false⟩
  -- reading an attribute of another definition
  have hread : ∀ q, d.contains q = true → attrI d3 q objAttr = .ok pv → ∃ bq, d.getItem q = .ok bq ∧ bq.lookup objAttr = some pv := by
    intro q hq hatt
    obtain ⟨bq, hbq⟩ := hd.toKept.look_some.2 (show lower q ∈ d.keys from of_decide_eq_true hq)
    have hne : lower q ≠ lower name := fun e => by rw [e, hnf] at hbq; cases hbq
    have h3q := hlook3 _ hne
    rw [hbq] at h3q
    have hc3q : d3.contains q = true := by
      cases hcc : d3.contains q with
      | true => rfl
      | false => rw [(not_contains_look k3).1 hcc] at h3q; cases h3q
    have hg := (k3.getItem_look hc3q).2 h3q
    simp only [attrI, hg] at hatt
    refine ⟨bq, (hd.toKept.getItem_look hq).2 hbq, ?_⟩
    rw [← (sameDef_overwrite bq true).lookup]
    exact Block.lookup_some.2 hatt
  refine ⟨rfl, sound_if hd k5 ?_, ?_, hkeys, ⟨_, pv, fun n hname => ?_, hed, ?_⟩, hunch⟩
  · intro i b hb
    rw [hlook5] at hb
    split at hb
    · rename_i e
      injection hb with hb
      subst hb
      have := val_of_has (hed.1 (idAttr, .str name) (by simp))
      rw [low_id] at this
      exact .inr ⟨name, this, e.symm⟩
    · cases hl : look d i with
      | none => rw [hl] at hb; cases hb
      | some b0 =>
        rw [hl] at hb
        injection hb with hb
        exact .inl ⟨b0, rfl, hb ▸ rfl⟩
  · intro i b hc hg
    rw [k5.getItem_look hc, v5] at hg
    cases hl : look d4 (lower i) with
    | none => rw [hl] at hg; cases hg
    | some b0 =>
      rw [hl] at hg
      injection hg with hg
      rw [← hg]
  · have hc : d5.contains n = true := by
      simp only [contains, hname, decide_eq_true_eq]
      exact (hkeys _).2 (.inr rfl)
    exact ⟨hc, (k5.getItem_look hc).2 (by rw [hname, hlook5, if_pos rfl])⟩
  · cases hpr : parent with
    | some p =>
      rw [hpr] at hpar hpv
      simp only [semanticRoot] at hpar
      injection hpar with hpar
      subst hpar
      cases hdg : dangler with
      | true =>
        rw [hdg] at hpv
        simp only [parentValue] at hpv
        injection hpv with hpv
        exact .inl ⟨rfl, p, rfl, hpv.symm⟩
      | false =>
        rw [hdg] at hpv
        simp only [parentValue] at hpv
        obtain ⟨bq, hb1, hb2⟩ := hread p (hp p hpr hdg) hpv
        exact .inr ⟨p, bq, .inl rfl, hb1, hb2⟩
    | none =>
      rw [hpr] at hpar hpv
      have hpv' : attrI d3 par objAttr = .ok pv := by cases dangler <;> exact hpv
      simp only [semanticRoot] at hpar
      split at hpar
      · cases hpar
      · rename_i hsel
        obtain ⟨x, hx, bx, hgx, hcx⟩ := hh hpr
        have hx1 : x ∈ d1.keys := by rw [l1.keys]; exact hx
        have := select_nil hsel x hx1
        have hcon : d.contains x = true := by
          simp only [contains, hd.low x hx, decide_eq_true_eq]; exact hx
        have hg1 : d1.getItem x = .ok { bx with overwrite := true } := by
          rw [k1.getItem_look (by rw [l1.contains]; exact hcon), v1, (hd.toKept.getItem_look hcon).1 hgx]; rfl
        have hcx' := (sameDef_overwrite bx true).has.2 hcx
        simp only [isClass, attrD, hg1, getD_has hcx'] at this
        cases this
      · rename_i hd' rest hsel
        injection hpar with hpar
        subst hpar
        obtain ⟨hm, hcl⟩ := Derive.select_mem hsel hd' (by simp)
        obtain ⟨bh, hgh, hch⟩ := isClass_true hcl
        have hm0 : hd' ∈ d.keys := by rw [← l1.keys]; exact hm
        have hcon : d.contains hd' = true := by
          simp only [contains, hd.low _ hm0, decide_eq_true_eq]; exact hm0
        obtain ⟨bq, hb1, hb2⟩ := hread hd' hcon hpv'
        have hhead : IsHead d hd' := by
          refine ⟨hm0, bq, hb1, ?_⟩
          rw [k1.getItem_look (by rw [l1.contains]; exact hcon), v1, (hd.toKept.getItem_look hcon).1 hb1] at hgh
          injection hgh with hgh
          have := (sameDef_overwrite bq true).has.1 (by rw [show ({ bq with overwrite := true } : Block) = bh from hgh]; exact hch)
          exact this
        exact .inr ⟨hd', bq, .inr ⟨rfl, hhead⟩, hb1, hb2⟩

end Verif.CifDic

namespace Verif.CifDic
open Validate
variable [CaseFold]

/-- A test for good order of a dictionary whose blocks are consistent. -/
def soundCheck (d : CifDic) : Bool :=
  decide (d.coll.scoping = .dictionary) && decide (d.coll.standard ≠ none) && decide (d.coll.topLevel.length = 1) && decide (d.keys.Nodup) &&
  d.keys.all (fun i => decide (lower i = i)) &&
  d.table.all (fun p => decide (lower p.2 ∈ d.coll.lowerKeys ∧ Coll.parentOf d.coll (lower p.2) ≠ none)) &&
  d.table.all (fun p => d.table.all fun q => decide (lower p.2 = lower q.2 → p.1 = q.1)) &&
  d.coll.lowerKeys.all (fun k => decide (Coll.parentOf d.coll k = none) || d.table.any fun p => decide (lower p.2 = k)) &&
  d.table.all (fun p => decide (p.1 ∈ d.coll.lowerKeys → lower p.2 = p.1)) &&
  d.keys.all fun i => match d.getItem i with
    | .error _ => false
    | .ok b => b.contains idAttr && match b.getItem idAttr with
      | .ok (.str s) => decide (lower s = i)
      | _ => false

theorem sound_of_check {d : CifDic} (hc : d.coll.Consistent) (h : soundCheck d = true) : Sound d := by
  unfold soundCheck at h
  simp only [Bool.and_eq_true, List.all_eq_true, decide_eq_true_eq, Bool.or_eq_true, List.any_eq_true] at h
  obtain ⟨⟨⟨⟨⟨⟨⟨⟨⟨h1, h2⟩, h3⟩, h4⟩, h5⟩, h6⟩, h7⟩, h8⟩, h9⟩, h10⟩ := h
  refine ⟨⟨hc, h1, h2, ?_, h4, h5, fun i k hk => h6 _ (dget_mem hk), fun i i' k k' hk hk' e => h7 _ (dget_mem hk) _ (dget_mem hk') e, ?_,
    fun i k hk => h9 _ (dget_mem hk)⟩, ?_⟩
  · obtain ⟨t, ht⟩ := List.length_eq_one_iff.1 h3
    exact ⟨t, ht⟩
  · intro k hk hp
    rcases h8 k hk with e | ⟨p, hp', e⟩
    · exact absurd e hp
    · exact ⟨p.1, p.2, dget_of_mem h4 hp', e⟩
  · intro i hi
    have := h10 i hi
    split at this
    · cases this
    · rename_i b hb
      obtain ⟨a1, a2⟩ := Bool.and_eq_true _ _ ▸ this
      split at a2
      · rename_i s hs
        exact ⟨b, s, hb, ⟨a1, hs⟩, of_decide_eq_true a2⟩
      · cases a2

section Samples
attribute [local instance] asciiFold

/-- Two categories under the `Head`, the second below the first, and three items. -/
def editFrames : List (String × List (String × String)) :=
  [("HEAD", [("_definition.id", "HEAD"), ("_definition.scope", "Category"), ("_definition.class", "Head"),
     ("_name.category_id", "DEMO"), ("_name.object_id", "HEAD")]),
   ("CELL", [("_definition.id", "CELL"), ("_definition.scope", "Category"), ("_name.category_id", "HEAD"), ("_name.object_id", "CELL")]),
   ("cell.length_a", [("_definition.id", "_cell.length_a"), ("_name.category_id", "cell"), ("_name.object_id", "length_a"),
     ("_description.text", "The first edge.")]),
   ("cell.length_b", [("_definition.id", "_Cell.Length_B"), ("_name.category_id", "cell"), ("_name.object_id", "length_b")]),
   ("ANGLE", [("_definition.id", "ANGLE"), ("_definition.scope", "Category"), ("_name.category_id", "Cell"), ("_name.object_id", "ANGLE")]),
   ("angle.alpha", [("_definition.id", "_angle.alpha"), ("_definition.scope", "Item"), ("_name.category_id", "angle"),
     ("_name.object_id", "alpha")])]

/-- A dictionary with these frames, as it is after reading; `k` frames are left out at the front. -/
def editDic (k : Nat) : CifDic :=
  { coll := frames (editFrames.drop k)
    table := match defTable (frames (editFrames.drop k)) .ddlm with
      | .ok t => t
      | .error _ => [] }

/-- The value of an attribute afterwards. -/
def attrAfter {α : Type} (r : CifDic × Except PyErr α) (name : String) (attr : Str) : Except PyErr PyVal := attrI r.1 name.toList attr

/-- The result without the dictionary. -/
def outcome {α : Type} (r : CifDic × Except PyErr α) : Except PyErr α := r.2

end Samples

theorem editDic_sound : letI := asciiFold
    Sound (editDic 0) := by
  letI := asciiFold
  refine sound_of_check (Coll.reachable_consistent ?_) (by decide +kernel)
  unfold editDic frames editFrames
  simp only [List.drop_zero, List.map_cons, List.map_nil, Coll.run]
  refine .step _ (.step _ (.step _ (.step _ (.step _ (.step _ (.step _ (.start _ _ _) ?_) ?_) ?_) ?_) ?_) ?_) ?_ <;>
    refine ⟨?_, fun h => ?_⟩
  all_goals first
    | (exact absurd h (by decide +kernel))
    | (intro q hq; cases hq; done)
    | (intro q hq; injection hq with hq; subst hq; decide +kernel)

theorem fst_eq {α : Type} {r : CifDic × Except PyErr α} {v : α} (h : r.2 = .ok v) : r = (r.1, .ok v) := by rw [← h]

/-- An item is added. -/
example : letI := asciiFold
    ∃ d', addDefinition (editDic 0) "_x.length_c".toList "Cell".toList "The third edge.".toList = (d', .ok "_cell.length_c".toList) ∧ Sound d' ∧
      (∀ i, (editDic 0).contains i = true → Unchanged (editDic 0) d' i) := by
  letI := asciiFold
  have h := fst_eq (r := addDefinition (editDic 0) "_x.length_c".toList "Cell".toList "The third edge.".toList)
    (v := "_cell.length_c".toList) (by decide +kernel)
  obtain ⟨h1, _, _, _, h5, _⟩ := C67_item_partial editDic_sound (full := "_cell.length_c".toList) (by decide +kernel) (by decide +kernel)
    (by decide +kernel) (by decide +kernel) h
  exact ⟨_, h, h1, h5⟩

/-- A category is added, under the `Head` or under another one. -/
example : letI := asciiFold
    (∃ d', addCategory (editDic 0) "Atom".toList = (d', .ok "Atom".toList) ∧ Sound d' ∧ Locked d') ∧
    (∃ d', addCategory (editDic 0) "Atom".toList (some "cell".toList) = (d', .ok "Atom".toList) ∧ Sound d' ∧ Locked d') := by
  letI := asciiFold
  have hh : ∃ x, IsHead (editDic 0) x := ⟨"head".toList, by decide +kernel, by
    obtain ⟨b, s, h1, _, _⟩ := editDic_sound.ids "head".toList (by decide +kernel)
    refine ⟨b, h1, has_of_val (by decide) ?_⟩
    have : ((editDic 0).getItem "head".toList).toOption.bind (fun b => b.val (lower classAttr)) = some (.str "Head".toList) := by decide +kernel
    rw [h1] at this
    exact this⟩
  have h := fst_eq (r := addCategory (editDic 0) "Atom".toList) (v := "Atom".toList) (by decide +kernel)
  have h' := fst_eq (r := addCategory (editDic 0) "Atom".toList (some "cell".toList)) (v := "Atom".toList) (by decide +kernel)
  obtain ⟨_, h1, h2, _⟩ := C67_category_partial editDic_sound (by decide +kernel) (by decide +kernel) (fun p hp => absurd hp.symm (Option.some_ne_none _))
    (fun _ => hh) h
  obtain ⟨_, h1', h2', _⟩ := C67_category_partial editDic_sound (by decide +kernel) (by decide +kernel)
    (fun p hp _ => by rw [← Option.some.inj hp]; decide +kernel)
    (fun hp => absurd hp (Option.some_ne_none _)) h'
  exact ⟨⟨_, h, h1, h2⟩, ⟨_, h', h1', h2'⟩⟩

/-- No category of that name. -/
example : letI := asciiFold
    ¬ ((editDic 0).contains "atom".toList = true ∧ IsCategory (editDic 0) "atom".toList) := by
  letI := asciiFold
  rintro ⟨h, _⟩
  revert h
  decide +kernel

/-- C67 fails for names with capital letters: the definition is added, but the dictionary does not contain it and it is not removed. -/
theorem C67_capitals_fails : letI := asciiFold
    outcome (addDefinition (editDic 0) "Length_C".toList "cell".toList "x".toList) = .ok "_cell.length_c".toList ∧
    (addDefinition (editDic 0) "Length_C".toList "cell".toList "x".toList).1.contains "_cell.Length_C".toList = false ∧
    attrAfter (removeDefinition (addDefinition (editDic 0) "Length_C".toList "cell".toList "x".toList).1 "_cell.Length_C".toList)
      "_cell.Length_C" textAttr = .ok (.str "x".toList) := by
  letI := asciiFold
  decide +kernel

/-- C67 fails for a name that is in use, when the block of the definition is not called like it: the call succeeds and the earlier
definition can no longer be found by its name. -/
theorem C67_hidden_fails : letI := asciiFold
    (editDic 0).contains "_cell.length_a".toList = true ∧
    attrI (editDic 0) "_cell.length_a".toList textAttr = .ok (.str "The first edge.".toList) ∧
    outcome (addDefinition (editDic 0) "length_a".toList "cell".toList "x".toList) = .ok "_cell.length_a".toList ∧
    attrAfter (addDefinition (editDic 0) "length_a".toList "cell".toList "x".toList) "_cell.length_a" textAttr = .ok (.str "x".toList) := by
  letI := asciiFold
  decide +kernel

/-- C67 fails for a parent that does not exist: the call raises `KeyError`, but the category stays in the dictionary, without identifier. -/
theorem C67_orphan_fails : letI := asciiFold
    outcome (addCategory (editDic 0) "atom".toList (some "nowhere".toList)) = .error .key ∧
    (addCategory (editDic 0) "atom".toList (some "nowhere".toList)).1.contains "atom".toList = true ∧
    attrAfter (addCategory (editDic 0) "atom".toList (some "nowhere".toList)) "atom" idAttr = .error .key := by
  letI := asciiFold
  decide +kernel

/-- C67 fails in a dictionary without `Head`, where the enclosing block should become the parent: the call raises `KeyError`, but the category
stays in the dictionary. -/
theorem C67_headless_fails : letI := asciiFold
    outcome (addCategory (editDic 1) "atom".toList) = .error .key ∧ (addCategory (editDic 1) "atom".toList).1.contains "atom".toList = true := by
  letI := asciiFold
  decide +kernel

/-- C67: a category can be added with itself as parent, which the check for the parent should prevent; removing it never ends. -/
theorem C67_itself_fails : letI := asciiFold
    outcome (addCategory (editDic 0) "atom".toList (some "Atom".toList)) = .ok "atom".toList ∧
    attrAfter (addCategory (editDic 0) "atom".toList (some "Atom".toList)) "atom" catAttr = .ok (.str "atom".toList) ∧
    outcome (removeDefinition (addCategory (editDic 0) "atom".toList (some "Atom".toList)).1 "atom".toList) = .error .depth := by
  letI := asciiFold
  decide +kernel

/-- C67: adding an item leaves the definitions of a locked dictionary open to changes. -/
theorem C67_unlocked_fails : letI := asciiFold
    ∃ d', addDefinition (lock (editDic 0)).1 "length_c".toList "cell".toList "x".toList = (d', .ok "_cell.length_c".toList) ∧ ¬ Locked d' := by
  letI := asciiFold
  refine ⟨_, fst_eq (by decide +kernel), fun h => ?_⟩
  have hk : ((addDefinition (lock (editDic 0)).1 "length_c".toList "cell".toList "x".toList).1.getItem "cell".toList).toOption.map (·.overwrite) =
    some true := by decide +kernel
  cases hg : (addDefinition (lock (editDic 0)).1 "length_c".toList "cell".toList "x".toList).1.getItem "cell".toList with
  | error e => rw [hg] at hk; cases hk
  | ok b =>
    rw [hg] at hk
    have := h "cell".toList b (by decide +kernel) hg
    have hk : b.overwrite = true := Option.some.inj hk
    rw [this] at hk
    cases hk

end Verif.CifDic
