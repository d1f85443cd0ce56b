import Verif.Lemmas.FullImportJoin
import Verif.Props.EditDic
import Verif.Props.Ddl1
/-! # Imports of definitions from other dictionaries (C89, C90, C91) -/
set_option linter.unusedSectionVars false
namespace Verif.CifDic
open Validate Ddl1 Import

section
variable [CaseFold]

/-! ## C89: heavy imports -/

/-- C89: importing the `Head` of another dictionary into the `Head` of this one adds the definitions below it that are not there yet,
and nothing else. Definitions that were directly below the imported `Head`, here or there, are now below the `Head` of this dictionary;
nothing else about them changes. The `Head` loses the attribute that asks for the import, and the dictionary is in good order again. What
is missing: imports of other categories, `Head`s whose frame has another name than the definition, and dictionaries with frames inside
frames, for which the property fails (`C89_category_fails`, `C89_frame_fails`, `C89_nested_fails`), and dictionaries in which a
definition and the frame of another definition have the same name. -/
theorem C89_heads_partial {d imp : CifDic} (hd : Filled d) (hi : Filled imp) (ha : Acyclic imp) (hf : FlatFrames imp) (hap : Apart d imp)
    {h o cat key : Str} {target : Block} (hh : IsHead d h) (hhb : h ∈ d.coll.lowerKeys) (hcat : attrI d h objAttr = .ok (.str cat))
    (hpr : Printable cat) (ht : IsHead imp (lower o)) (htg : imp.getItem (lower o) = .ok target) (hobj : Has target objAttr (.str o))
    (hnew : lower o ∉ d.keys) (hsep : ¬ InCategory d o h) :
    ∃ d', ddlmImport d h imp target key fullMode = (d', .ok ()) ∧ Filled d' ∧
      (∀ x, x ∈ d'.keys ↔ x ∈ d.keys ∨ Below imp o x) ∧
      (∀ x ∈ d.keys, x ≠ h → ∃ b b', d.getItem x = .ok b ∧ d'.getItem x = .ok b' ∧ Joined cat (InCategory d o x) b b') ∧
      (∀ x, x ∉ d.keys → Below imp o x → ∃ b b', imp.getItem x = .ok b ∧ d'.getItem x = .ok b' ∧ Joined cat (InCategory imp o x) b b') ∧
      ∃ b b', d.getItem h = .ok b ∧ d'.getItem h = .ok b' ∧ b'.contains importAttr = false ∧
        ∀ a, lower a ≠ importAttr → b'.lookup a = b.lookup a := by
  have hin : ∀ (e : CifDic) x, InCategory e (lower o) x ↔ InCategory e o x := fun e x => by unfold InCategory; rw [CaseFold.lower_lower]
  obtain ⟨d', h1, h2, h3, h4, h5, h6⟩ := heads_joined (key := key) hd hi ha hf hap hh hhb hcat hpr ht htg hobj hnew (by rw [hin]; exact hsep)
  have hk := hd.sound.toKept
  have hki := hi.sound.toKept
  have hk' := h2.sound.toKept
  refine ⟨d', h1, h2, fun x => ?_, fun x hx hne => ?_, fun x hx hb => ?_, ?_⟩
  · rw [← below_lower]
    constructor
    · intro hx
      obtain ⟨b, hb⟩ := hk'.look_some.2 hx
      by_cases hm : x ∈ d.keys
      · exact .inl hm
      · refine .inr (Classical.byContradiction fun hbl => ?_)
        rw [h6 x hm hbl] at hb
        cases hb
    · intro hx
      by_cases hm : x ∈ d.keys
      · by_cases hh' : x = h
        · obtain ⟨b, b', _, e, _⟩ := h5
          subst hh'
          exact hk'.look_some.1 ⟨b', e⟩
        · obtain ⟨b, b', _, e, _⟩ := h3 x hm hh'
          exact hk'.look_some.1 ⟨b', e⟩
      · obtain ⟨b, b', _, e, _⟩ := h4 x hm (hx.resolve_left hm)
        exact hk'.look_some.1 ⟨b', e⟩
  · obtain ⟨b, b', e1, e2, e3⟩ := h3 x hx hne
    rw [hin] at e3
    exact ⟨b, b', getItem_of_look hk e1, getItem_of_look hk' e2, e3⟩
  · obtain ⟨b, b', e1, e2, e3⟩ := h4 x hx (below_lower.2 hb)
    rw [hin] at e3
    exact ⟨b, b', getItem_of_look hki e1, getItem_of_look hk' e2, e3⟩
  · obtain ⟨b, b', e1, e2, e3⟩ := h5
    exact ⟨b, b', getItem_of_look hk e1, getItem_of_look hk' e2, e3⟩

/-- C89 fails for every category that is not a `Head`: the definitions below it are added, but it is itself not, so that an `IndexError`
is raised when its place is looked for. -/
theorem C89_category_fails {d imp : CifDic} (hd : Filled d) (hi : Filled imp) (ha : Acyclic imp) (hf : FlatFrames imp) (hap : Apart d imp)
    {h o : Str} {cat : PyVal} {target : Block} (hh : h ∈ d.keys) (hhb : h ∈ d.coll.lowerKeys) (hcat : attrI d h objAttr = .ok cat)
    (htm : lower o ∈ imp.keys) (ht : ¬ IsHead imp (lower o)) (htg : imp.getItem (lower o) = .ok target) (hobj : Has target objAttr (.str o))
    (hnew : lower o ∉ d.keys) :
    ∃ d', ddlmImport d h imp target (lower o) fullMode = (d', .error .index) ∧
      ∀ x, x ∈ d'.keys ↔ x ∈ d.keys ∨ Below imp o x := by
  have hkd := hd.sound.toKept
  have hki := hi.sound.toKept
  obtain ⟨p, hp, hgp, hsh⟩ := head_found hd hh hhb
  obtain ⟨l, hall, hmap, hnd, hl⟩ := frames_of_head hi ha htm
  have hll : l.map lower = l := by
    rw [List.map_append] at hmap
    exact List.append_cancel_right hmap
  have hfr : ∀ i ∈ l.map lower, i ∈ imp.keys := by
    rw [hll]
    exact fun i him => below_keys ((hl i).1 him)
  have hnd' : (l.map lower).Nodup := by
    rw [List.map_append, List.nodup_append] at hnd
    exact hnd.1
  obtain ⟨cb, cb', d0, d1, m1, m2, m3, m4, hk1, hlang1, hlook1, hleaf1, htab1, htop1, hdict1⟩ := merged hd hi.sound hf hap hfr hnd' hp
  rw [hll] at hlook1
  have hol : o ∉ l := by
    intro ho
    have := (hl o).1 ho
    have e := hki.low o (below_keys this)
    rw [e] at this
    exact ha o this
  have hrm : pyRemove (l ++ [o]) o = some l := by
    have : ∀ (l : List Str), o ∉ l → pyErase (l ++ [o]) o = l := by
      intro l
      induction l with
      | nil => intro _; simp [pyErase]
      | cons a r ih =>
        intro hn
        rw [List.mem_cons, not_or] at hn
        have hne : ¬ a = o := fun e => hn.1 e.symm
        simp only [List.cons_append, pyErase, if_neg hne, ih hn.2]
    unfold pyRemove
    rw [if_pos (by simp), this l hol]
  have hbt := (hi.good (look_of_getItem hki htm htg))
  have hmode : headToHead d h target = .ok false := by
    obtain ⟨bh, hbh⟩ := hkd.look_some.2 hh
    have hg := getItem_of_look hkd hbh
    have hpl := (hd.good hbh).2.1.2.2
    have e1 : ∃ r, isClass d "Datum".toList "Head".toList h = .ok r := by
      simp only [isClass, attrD, hg, getD]
      split
      · rename_i e hx
        split at hx
        · rename_i hc
          obtain ⟨v, hv⟩ := hpl hc
          rw [hv] at hx; cases hx
        · cases hx
      · exact ⟨_, rfl⟩
    obtain ⟨r, hr⟩ := e1
    cases r with
    | false => simp only [headToHead, hr]
    | true =>
      simp only [headToHead, hr, getD]
      by_cases hc : target.contains classAttr = true
      · obtain ⟨v, hv⟩ := hbt.2.1.2.2 hc
        simp only [hc, if_true, hv]
        rw [decide_eq_false]
        intro e
        exact ht ⟨htm, target, htg, hc, by rw [hv, e]⟩
      · simp only [hc]
        rfl
  have hsm : syntacticMerge d h imp target = (d1, .ok (o, false)) := by
    have e : childFrames (l ++ [o]) o false = .ok l := by unfold childFrames; rw [if_neg (by decide), hrm]
    simp only [syntacticMerge, CifDic.read, hgp, hsh, hobj.2, textOf, hall, hmode, e, m1, m2, m3, seq, m4]
  have hown1 : ∀ i ∈ d.keys, look d1 i = look d i := fun i hx => by rw [hlook1, if_pos hx]
  have hkeys : ∀ x, x ∈ d1.keys ↔ x ∈ d.keys ∨ Below imp o x := by
    intro x
    rw [← hk1.look_some, ← below_lower, ← hl x, hlook1]
    by_cases hx : x ∈ d.keys
    · rw [if_pos hx]
      simp only [hx, true_or, iff_true]
      exact hkd.look_some.2 hx
    · rw [if_neg hx]
      by_cases hy : x ∈ l
      · rw [if_pos hy]
        simp only [hx, hy, or_true, iff_true]
        exact hki.look_some.2 (below_keys ((hl x).1 hy))
      · rw [if_neg hy]
        simp [hx, hy]
  have hids : ∀ i ∈ d1.keys, ∃ s, attrI d1 i idAttr = .ok (.str s) ∧ lower s = i := by
    intro i him
    obtain ⟨b, hb⟩ := hk1.look_some.2 him
    have hg : Good i b := by
      rw [hlook1] at hb
      split at hb
      · exact hd.good hb
      · split at hb
        · exact hi.good hb
        · cases hb
    obtain ⟨s, s1, s2⟩ := hg.2.2.1
    refine ⟨s, ?_, s2⟩
    simp only [attrI, getItem_of_look hk1 hb, s1.2]
  have hcat1 : attrI d1 h objAttr = .ok cat := by
    obtain ⟨bh, hbh⟩ := hkd.look_some.2 hh
    have h1 : d1.getItem h = .ok bh := getItem_of_look hk1 (by rw [hown1 h hh]; exact hbh)
    simp only [attrI, getItem_of_look hkd hbh] at hcat
    simp only [attrI, h1, hcat]
  obtain ⟨s, s1, s2⟩ := hbt.2.2.1
  have hfrom : attrI imp (lower o) idAttr = .ok (.str s) := by simp only [attrI, htg, s1.2]
  have hnone : select (hasId d1 (.str s)) d1.keys = .ok [] := by
    have := select_ok (p := fun _ => false) (f := hasId d1 (.str s)) (l := d1.keys) (fun k hk => by
        obtain ⟨s', e1, e2⟩ := hids k hk
        simp only [hasId, e1]
        rw [decide_eq_false]
        intro e
        injection e with e
        subst e
        rw [s2] at e2
        subst e2
        rcases (hkeys (lower o)).1 hk with hx | hx
        · exact hnew hx
        · exact ha _ (below_lower.2 hx))
    rw [this]
    simp
  have hjc : joinCategory d1 imp (lower o) cat = (d1, .error .index) := by
    unfold joinCategory
    rw [hfrom]
    simp only [CifDic.read]
    rw [hnone]
  refine ⟨d1, ?_, hkeys⟩
  have hne : fullMode ≠ contentsMode := by decide
  simp only [ddlmImport, if_neg hne, if_true, importFull, hsm, CifDic.read, seq, hcat1]
  rw [if_neg (by decide), hjc]

/-- C89 fails if the frame of the importing definition has another name than the definition: the name of the definition is looked up
among the frames. -/
theorem C89_frame_fails {d imp : CifDic} (hd : Filled d) {h key : Str} {target : Block} (hh : h ∈ d.keys) (hhb : h ∉ d.coll.lowerKeys) :
    ddlmImport d h imp target key fullMode = (d, .error .star) := by
  have hk := hd.sound.toKept
  have h1 : d.coll.getParent h = .error .star := by
    unfold Coll.getParent
    rw [hk.low h hh]
    have : dget d.coll.childTable h = none := dget_eq_none.2 (fun hm => hhb ((hk.cons.mem_table h).1 hm))
    rw [this]
  have hne : fullMode ≠ contentsMode := by decide
  simp only [ddlmImport, if_neg hne, if_true, importFull, syntacticMerge, h1, CifDic.read, seq]

/-! ## C90: light imports -/

/-- C90: after the `Head` of another dictionary has been registered for import into the `Head` of this one, names that this dictionary has
itself are looked up as before. Other names are looked up in the imported dictionary if they are those of definitions below its `Head`, in
lower case, or that of the `Head` as it is spelt there; all others are looked up as before. The list of definitions stays the same. What is
missing: names in other spellings, for which the property fails (`C90_case_fails`), and the listing of imported definitions. -/
theorem C90_light_partial {d imp : CifDic} (hd : Filled d) (hi : Filled imp) (ha : Acyclic imp) {h o key : Str} {cat : PyVal} {target : Block}
    (hh : IsHead d h) (hcat : attrI d h objAttr = .ok cat) (ht : IsHead imp (lower o)) (htg : imp.getItem (lower o) = .ok target)
    (hobj : Has target objAttr (.str o)) :
    ∃ d', importLight d h imp target key = (d', .ok imp) ∧ d'.keys = d.keys ∧
      (∀ x, lower x ∈ d.keys ∨ lower x ∈ d.coll.lowerKeys → d'.getItem x = d.getItem x) ∧
      (∀ x, lower x ∉ d.keys → lower x ∉ d.coll.lowerKeys → (Below imp o x ∨ x = o → d'.getItem x = imp.getItem x) ∧
        (¬ (Below imp o x ∨ x = o) → d'.getItem x = d.getItem x)) := by
  have hki := hi.sound.toKept
  obtain ⟨hhm, bh, hbh, hbc⟩ := hh
  obtain ⟨htm, bt, hbt, hbtc⟩ := ht
  rw [htg] at hbt
  injection hbt with hbt
  subst hbt
  obtain ⟨l, hall, _, _, hl⟩ := frames_of_head hi ha htm
  obtain ⟨hid, i1, i2⟩ := (hi.good (look_of_getItem hki htm htg)).2.2.1
  have hg : imp.getItem hid = .ok target := by
    rw [hki.getItem_look (by simp only [CifDic.contains, i2, decide_eq_true_eq]; exact htm), i2]
    exact look_of_getItem hki htm htg
  have hmode : headToHead d h target = .ok true := by
    have e1 : isClass d "Datum".toList "Head".toList h = .ok true := by
      simp only [isClass, attrD, hbh, getD, hbc.1, hbc.2, if_true, decide_true]
    simp only [headToHead, e1, getD, hbtc.1, hbtc.2, if_true, decide_true]
  have hreach : (importedFrom imp hid).reach = .ok (l ++ [o]) := by
    simp only [importedFrom, attrI, hg, hobj.2, textOf, hall]
  have hmem : ∀ x, x ∈ l ++ [o] ↔ Below imp o x ∨ x = o := fun x => by
    rw [List.mem_append, hl, below_lower, List.mem_singleton]
  refine ⟨{ d with imports := importedFrom imp hid :: d.imports }, ?_, rfl, fun x hx => ?_, fun x hx hy => ⟨fun hb => ?_, fun hb => ?_⟩⟩
  · simp only [importLight, CifDic.read, hmode, i1.2, hcat, hobj.2, if_true, textOf]
  · have hk := hd.sound.toKept
    show CifDic.getItem _ x = CifDic.getItem d x
    have e1 : byId { d with imports := importedFrom imp hid :: d.imports } x = byId d x := rfl
    unfold CifDic.getItem
    rw [e1]
    cases hb : byId d x with
    | ok b => rfl
    | error e =>
      have hc : lower x ∈ d.coll.lowerKeys := by
        rcases hx with hx | hx
        · obtain ⟨k, hkk⟩ := dget_isSome.2 hx
          obtain ⟨b, _, q, _, _⟩ := hk.byId hkk
          unfold byId at hb
          rw [hkk] at hb
          simp only at hb
          obtain ⟨b', g1, _⟩ := Coll.getItem_ok hk.cons.keyed (hk.blocks _ _ hkk).1
          unfold Coll.getItem at g1 hb
          rw [CaseFold.lower_lower] at g1
          rw [g1] at hb
          cases hb
        · exact hx
      obtain ⟨b', g1, _⟩ := Coll.getItem_ok hk.cons.keyed hc
      have : d.coll.getItem x = .ok b' := by
        unfold Coll.getItem at g1 ⊢
        rw [CaseFold.lower_lower] at g1
        exact g1
      simp only [this]
  · have e1 : byId d x = .error .key := by
      unfold byId
      rw [dget_eq_none.2 hx]
    have e2 : d.coll.getItem x = .error .key := by simp only [Coll.getItem, if_neg hy]
    have e0 : byId { d with imports := importedFrom imp hid :: d.imports } x = byId d x := rfl
    unfold CifDic.getItem
    rw [e0, e1]
    simp only [e2, lookupImports, hreach, if_pos ((hmem x).2 hb)]
    rfl
  · have e1 : byId d x = .error .key := by
      unfold byId
      rw [dget_eq_none.2 hx]
    have e2 : d.coll.getItem x = .error .key := by simp only [Coll.getItem, if_neg hy]
    have e0 : byId { d with imports := importedFrom imp hid :: d.imports } x = byId d x := rfl
    unfold CifDic.getItem
    rw [e0, e1]
    simp only [e2, lookupImports, hreach, if_neg (fun h => hb ((hmem x).1 h))]

/-- C90 fails for every name that is not in lower case: the same definition is found under its name in lower case only, although names
are otherwise compared ignoring case. -/
theorem C90_case_fails {d imp : CifDic} (hd : Filled d) (hi : Filled imp) (ha : Acyclic imp) {h o key : Str} {cat : PyVal} {target : Block}
    (hh : IsHead d h) (hcat : attrI d h objAttr = .ok cat) (ht : IsHead imp (lower o)) (htg : imp.getItem (lower o) = .ok target)
    (hobj : Has target objAttr (.str o)) (hi0 : d.imports = []) {x : Str} (hx : lower x ∉ d.keys) (hx' : lower x ∉ d.coll.lowerKeys)
    (hb : Below imp o (lower x)) (hl : lower x ≠ x) (ho : x ≠ o) :
    ∃ d' b, importLight d h imp target key = (d', .ok imp) ∧ imp.getItem x = .ok b ∧ d'.getItem (lower x) = .ok b ∧ d'.getItem x = .error .key := by
  obtain ⟨d', e1, _, _, e4⟩ := C90_light_partial (key := key) hd hi ha hh hcat ht htg hobj
  have hki := hi.sound.toKept
  obtain ⟨b, hbk⟩ := hki.look_some.2 (below_keys hb)
  refine ⟨d', b, e1, ?_, ?_, ?_⟩
  · rw [hki.getItem_look (by simp only [CifDic.contains, decide_eq_true_eq]; exact below_keys hb)]
    exact hbk
  · rw [(e4 (lower x) (by rw [CaseFold.lower_lower]; exact hx) (by rw [CaseFold.lower_lower]; exact hx')).1 (.inl hb)]
    exact getItem_of_look hki hbk
  · rw [(e4 x hx hx').2 (fun h' => h'.elim (fun h' => hl (hki.low x (below_keys h'))) ho)]
    unfold CifDic.getItem byId
    rw [dget_eq_none.2 hx]
    simp only [Coll.getItem, if_neg hx', hi0, lookupImports]

/-! ## C91: what a reference asks for -/

/-- C91: if the definition a reference asks for is not there, `CifError` is raised, unless the reference says otherwise with any other
value of `miss`, in which case nothing happens. What is missing: other spellings of `Exit`, for which the property fails
(`C91_spelling_fails`), and light imports. -/
theorem C91_missing_partial {load : Str → Except PyErr CifDic} {d imp : CifDic} {parent f k : Str} {r : Dict Str PyVal}
    (hf : dget r "file".toList = some (.str f)) (hl : load f = .ok imp) (hk : dget r "save".toList = some (.str k)) (hm : imp.getItem k = .error .key) :
    heavyRef load parent d (.sdict r) =
      (d, if dget r "miss".toList = none ∨ dget r "miss".toList = some (.str "Exit".toList) then .error .cif else .ok ()) := by
  have e : ∀ n dflt, fieldD (.sdict r) n dflt = .ok ((dget r n.toList).elim (.str dflt.toList) id) := by
    intro n dflt
    unfold fieldD
    simp only
    cases dget r n.toList <;> rfl
  simp only [heavyRef, CifDic.read, field, hf, openImport, hl, e, hk, importTarget, hm]
  cases hx : dget r "miss".toList with
  | none => simp only [Option.elim_none, exitVal, if_true, true_or]
  | some v =>
    simp only [Option.elim_some, id, exitVal, reduceCtorEq, false_or, Option.some.injEq]
    by_cases h1 : v = .str "Exit".toList
    · simp only [h1, if_true]
    · simp only [h1, if_false]

/-- C91: if a reference asks for a definition in full that this dictionary has under the same name, `CifError` is raised, unless the
reference has another value of `dupl`. If that is `Ignore` nothing happens. -/
theorem C91_duplicate {load : Str → Except PyErr CifDic} {d imp : CifDic} {parent f k mode : Str} {r : Dict Str PyVal} {target : Block}
    (hf : dget r "file".toList = some (.str f)) (hl : load f = .ok imp) (hk : dget r "save".toList = some (.str k)) (ht : imp.getItem k = .ok target)
    (hmode : dget r "mode".toList = some (.str mode)) (hfull : lower mode = "full".toList) (hc : d.contains k = true) :
    heavyRef load parent d (.sdict r) =
      if dget r "dupl".toList = none ∨ dget r "dupl".toList = some (.str "Exit".toList) then (d, .error .cif)
      else if dget r "dupl".toList = some (.str "Ignore".toList) then (d, .ok ()) else ddlmImport d parent imp target k fullMode := by
  have e : ∀ n dflt, fieldD (.sdict r) n dflt = .ok ((dget r n.toList).elim (.str dflt.toList) id) := by
    intro n dflt
    unfold fieldD
    simp only
    cases dget r n.toList <;> rfl
  have hfm : lower mode = fullMode := hfull
  simp only [heavyRef, CifDic.read, field, hf, openImport, hl, e, hk, importTarget, ht, modeOf, hmode, Option.elim_some, id, lowered, hfm,
    duplicate, hc, Bool.true_and, decide_true, if_true]
  cases hx : dget r "dupl".toList with
  | none => simp only [Option.elim_none, exitVal, if_true, true_or]
  | some v =>
    simp only [Option.elim_some, id, exitVal, reduceCtorEq, false_or, Option.some.injEq]
    by_cases h1 : v = .str "Exit".toList
    · simp only [h1, if_true]
    · simp only [h1, if_false]
      by_cases h2 : v = .str "Ignore".toList
      · simp only [h2, decide_true, if_true]
      · simp only [h2, decide_false, if_false]
        rfl

/-- C91: a dictionary in which nothing is imported stays as it is. -/
theorem C91_none {load : Str → Except PyErr CifDic} {d : CifDic} (hd : Readable d)
    (h : ∀ i ∈ d.keys, ∀ b, d.getItem i = .ok b → b.contains importAttr = false) : obtainHeavy load d = (d, .ok ()) := by
  have : importFrames d = .ok [] := by
    unfold importFrames
    rw [select_ok (p := fun _ => false) (fun a ha => by
      obtain ⟨b, hb, _⟩ := hd.found a ha
      simp only [hb, h a ha b hb])]
    have e : d.keys.filter (fun _ => false) = [] := by simp
    rw [e]
    rfl
  simp only [obtainHeavy, this, CifDic.read, heavyFrames]

end

/-! ## Samples -/

section Samples
attribute [local instance] asciiFold

/-- Frames, each with the name of the frame around it, within a block `Demo`. -/
def nestedColl (l : List (String × String × List (String × String))) : Coll :=
  Coll.run { scoping := .dictionary, standard := some "Dic".toList }
    (.new "Demo".toList (itemsBlock [("_dictionary.title", "DEMO")]) true none ::
      l.map fun a => .new a.1.toList (itemsBlock a.2.2) true (some a.2.1.toList))

/-- The dictionary with these frames. -/
def nestedDic (l : List (String × String × List (String × String))) : CifDic :=
  { coll := nestedColl l, table := match defTable (nestedColl l) .ddlm with | .ok t => t | .error _ => [] }

/-- A definition. -/
def defn (id cat obj cls scope : String) : List (String × String) :=
  [("_definition.id", id), ("_name.category_id", cat), ("_name.object_id", obj), ("_definition.class", cls), ("_definition.scope", scope)]

/-- The importing dictionary: it has a definition in a category that it does not define. -/
def hostFrames : List (String × String × List (String × String)) :=
  [("HOST", "Demo", ("_import.get", "x") :: defn "HOST" "DEMO" "HOST" "Head" "Category"),
   ("CELL", "Demo", defn "CELL" "HOST" "CELL" "Set" "Category"),
   ("cell.a", "Demo", defn "_cell.a" "CELL" "a" "Datum" "Item"),
   ("mag.own", "Demo", defn "_mag.own" "Mag" "own" "Datum" "Item")]

/-- The dictionary that is imported. -/
def magFrames (top : String) : List (String × String × List (String × String)) :=
  [("MAG", "Demo", defn "MAG" "DEMO" "MAG" "Head" "Category"),
   ("MOMENT", top, defn "MOMENT" "MAG" "MOMENT" "Set" "Category"),
   ("moment.x", top, defn "_Moment.x" "Moment" "x" "Datum" "Item"),
   ("mag.cell.a", top, defn "_cell.a" "MAG" "a" "Datum" "Item")]

/-- The importing dictionary. -/
def hostDic : CifDic := nestedDic hostFrames

/-- The imported dictionary, with its frames side by side. -/
def magDic : CifDic := nestedDic (magFrames "Demo")

/-- The imported dictionary, with its frames inside that of the `Head`. -/
def nestedMag : CifDic := nestedDic (magFrames "MAG")

/-- A block of `imp`. -/
def blockOf (imp : CifDic) (name : String) : Block := match imp.getItem name.toList with | .ok b => b | .error _ => {}

end Samples

section
attribute [local instance] asciiFold
/-- A test of the conditions on definitions. -/
theorem blocks_of {d : CifDic} {l : List (String × String × List (String × String))}
    (hs : ∀ a ∈ l, ∀ e ∈ a.2.2, lower e.1.toList ≠ Block.saves)
    (h : (d.keys.all fun i => l.any fun a => decide (d.getItem i = .ok (itemsBlock a.2.2) ∧ (itemsBlock a.2.2).maxName = none)) = true) :
    ∀ i ∈ d.keys, ∃ b, d.getItem i = .ok b ∧ b.Reachable ∧ ∀ m, b.maxName = some m → 75 ≤ m := by
  intro i hi
  have := List.all_eq_true.1 h i hi
  obtain ⟨a, ha, h2⟩ := List.any_eq_true.1 this
  obtain ⟨h3, h4⟩ := of_decide_eq_true h2
  exact ⟨_, h3, itemsBlock_reachable _ (hs a ha), fun m hm => by rw [h4] at hm; cases hm⟩

end

theorem hostDic_filled : letI := asciiFold
    Filled hostDic := by
  letI := asciiFold
  refine ⟨sound_of_check (Coll.reachable_consistent ?_) (by decide +kernel), readable_of_check (by decide +kernel), rfl, ?_,
    blocks_of (l := hostFrames) (by decide +kernel) (by decide +kernel)⟩
  · unfold hostDic nestedDic nestedColl hostFrames
    simp only [List.map_cons, List.map_nil, Coll.run]
    refine .step _ (.step _ (.step _ (.step _ (.step _ (.start _ _ _) ?_) ?_) ?_) ?_) ?_ <;>
      refine ⟨?_, fun h => ?_⟩
    all_goals first
      | (exact absurd h (by decide +kernel))
      | (intro q hq; cases hq; done)
      | (intro q hq; injection hq with hq; subst hq; decide +kernel)
  · have : ∀ k ∈ hostDic.coll.topLevel, (match hostDic.coll.getItem k with | .ok b => !b.contains idAttr | .error _ => false) = true := by decide +kernel
    intro k hk
    have := this k hk
    split at this
    · exact ⟨_, ‹_›, by simpa using this⟩
    · cases this

theorem magDic_filled : letI := asciiFold
    Filled magDic := by
  letI := asciiFold
  refine ⟨sound_of_check (Coll.reachable_consistent ?_) (by decide +kernel), readable_of_check (by decide +kernel), rfl, ?_,
    blocks_of (l := magFrames "Demo") (by decide +kernel) (by decide +kernel)⟩
  · unfold magDic nestedDic nestedColl magFrames
    simp only [List.map_cons, List.map_nil, Coll.run]
    refine .step _ (.step _ (.step _ (.step _ (.step _ (.start _ _ _) ?_) ?_) ?_) ?_) ?_ <;>
      refine ⟨?_, fun h => ?_⟩
    all_goals first
      | (exact absurd h (by decide +kernel))
      | (intro q hq; cases hq; done)
      | (intro q hq; injection hq with hq; subst hq; decide +kernel)
  · have : ∀ k ∈ magDic.coll.topLevel, (match magDic.coll.getItem k with | .ok b => !b.contains idAttr | .error _ => false) = true := by decide +kernel
    intro k hk
    have := this k hk
    split at this
    · exact ⟨_, ‹_›, by simpa using this⟩
    · cases this

theorem magDic_acyclic : letI := asciiFold
    Acyclic magDic := by
  letI := asciiFold
  exact acyclic_of_rank magDic_filled.readable
    (fun x => if x = "_moment.x".toList then 3 else if x = "moment".toList ∨ x = "_cell.a".toList then 2 else if x = "mag".toList then 1 else 0)
    (by decide +kernel)

theorem magDic_flat : letI := asciiFold
    FlatFrames magDic := by
  letI := asciiFold
  intro k p hp
  have h : ∀ q ∈ magDic.coll.childTable, ∀ p, q.2.parent = some p → Coll.parentOf magDic.coll p = none := by
    have : ∀ q ∈ magDic.coll.childTable, (match q.2.parent with | some p => decide (Coll.parentOf magDic.coll p = none) | none => true) = true := by
      decide +kernel
    intro q hq p hp
    have := this q hq
    rw [hp] at this
    exact of_decide_eq_true this
  unfold Coll.parentOf at hp
  split at hp
  · exact h _ (dget_mem ‹_›) p hp
  · cases hp

theorem magDic_apart : letI := asciiFold
    Apart hostDic magDic := by
  letI := asciiFold
  have h : ∀ q ∈ magDic.table, q.1 ∉ hostDic.keys →
    q.1 ∉ hostDic.coll.lowerKeys ∧ lower q.2 ∉ hostDic.coll.lowerKeys ∧ lower q.2 ∉ hostDic.keys := by decide +kernel
  exact fun i k hk hn => h _ (dget_mem hk) hn

section Samples
attribute [local instance] asciiFold

theorem head_of {d : CifDic} {x : Str} (hx : x ∈ d.keys) (h : (match d.getItem x with
    | .ok b => decide (b.contains classAttr = true ∧ b.getItem classAttr = .ok (.str "Head".toList)) | .error _ => false) = true) : IsHead d x := by
  split at h
  · exact ⟨hx, _, ‹_›, of_decide_eq_true h⟩
  · cases h

theorem host_head : IsHead hostDic "host".toList := head_of (by decide +kernel) (by decide +kernel)
theorem mag_head : IsHead magDic "mag".toList := head_of (by decide +kernel) (by decide +kernel)

/-- A `Head` is imported into a `Head`: three definitions come, one of which is there already. -/
example : ∃ d', ddlmImport hostDic "host".toList magDic (blockOf magDic "mag") "mag".toList fullMode = (d', .ok ()) ∧ Filled d' ∧
    (∀ x, x ∈ d'.keys ↔ x ∈ hostDic.keys ∨ Below magDic "MAG".toList x) ∧
    (∃ b b', magDic.getItem "_moment.x".toList = .ok b ∧ d'.getItem "_moment.x".toList = .ok b' ∧ SameDef b b') := by
  have hn : ¬ InCategory magDic "MAG".toList "_moment.x".toList := by
    rintro ⟨b, s, h1, h2, h3⟩
    have e : magDic.getItem "_moment.x".toList = .ok (blockOf magDic "_moment.x") := by decide +kernel
    rw [e] at h1
    injection h1 with h1
    subst h1
    have e2 : (blockOf magDic "_moment.x").getItem catAttr = .ok (.str "Moment".toList) := by decide +kernel
    rw [h2.2] at e2
    injection e2 with e2
    injection e2 with e2
    subst e2
    exact absurd h3 (by decide)
  obtain ⟨d', h1, h2, h3, _, h5, _⟩ := C89_heads_partial (key := "mag".toList) hostDic_filled magDic_filled magDic_acyclic magDic_flat magDic_apart
    (h := "host".toList) (o := "MAG".toList) (cat := "HOST".toList) (target := blockOf magDic "mag") host_head (by decide +kernel) (by decide +kernel)
    (by unfold Printable; decide) mag_head (by decide +kernel) ⟨by decide +kernel, by decide +kernel⟩ (by decide +kernel) (by
      rintro ⟨b, s, g1, g2, g3⟩
      have e : hostDic.getItem "host".toList = .ok (blockOf hostDic "host") := by decide +kernel
      rw [e] at g1
      injection g1 with g1
      subst g1
      have e2 : (blockOf hostDic "host").getItem catAttr = .ok (.str "DEMO".toList) := by decide +kernel
      rw [g2.2] at e2
      injection e2 with e2
      injection e2 with e2
      subst e2
      exact absurd g3 (by decide))
  have hb : Below magDic "MAG".toList "_moment.x".toList := by
    have e1 : magDic.getItem "moment".toList = .ok (blockOf magDic "moment") := by decide +kernel
    have e2 : magDic.getItem "_moment.x".toList = .ok (blockOf magDic "_moment.x") := by decide +kernel
    refine .deeper (y := "moment".toList) (.child (by decide +kernel) ⟨_, "MAG".toList, e1, ⟨?_, ?_⟩, rfl⟩) ⟨_, e1, ?_, ?_⟩ (by decide +kernel)
      ⟨_, "Moment".toList, e2, ⟨?_, ?_⟩, by decide⟩ <;> decide +kernel
  obtain ⟨b, b', g1, g2, g3⟩ := h5 "_moment.x".toList (by decide +kernel) hb
  refine ⟨d', h1, h2, h3, b, b', g1, g2, ?_⟩
  rcases g3 with g3 | g3
  · exact g3.2
  · exact absurd g3.1 hn

/-- A category is imported, whose definition gets lost. -/
example : ∃ d', ddlmImport hostDic "host".toList magDic (blockOf magDic "moment") "moment".toList fullMode = (d', .error .index) ∧
    ∀ x, x ∈ d'.keys ↔ x ∈ hostDic.keys ∨ Below magDic "MOMENT".toList x := by
  refine C89_category_fails hostDic_filled magDic_filled magDic_acyclic magDic_flat magDic_apart
    (h := "host".toList) (o := "MOMENT".toList) (cat := .str "HOST".toList) (target := blockOf magDic "moment") (by decide +kernel) (by decide +kernel)
    (by decide +kernel) (by decide +kernel) ?_ (by decide +kernel) ⟨by decide +kernel, by decide +kernel⟩ (by decide +kernel)
  rintro ⟨_, b, g1, g2⟩
  have e : magDic.getItem "moment".toList = .ok (blockOf magDic "moment") := by decide +kernel
  have g1 : magDic.getItem "moment".toList = .ok b := g1
  rw [e] at g1
  injection g1 with g1
  subst g1
  have e2 : (blockOf magDic "moment").getItem classAttr = .ok (.str "Set".toList) := by decide +kernel
  rw [g2.2] at e2
  injection e2 with e2
  injection e2 with e2
  exact absurd e2 (by decide)

/-- C89 fails if the frames of the imported definitions are inside that of their `Head`: they are deleted again together with it. -/
theorem C89_nested_fails :
    (ddlmImport hostDic "host".toList nestedMag (blockOf nestedMag "mag") "mag".toList fullMode).2 = .ok () ∧
    ¬ "moment".toList ∈ (ddlmImport hostDic "host".toList nestedMag (blockOf nestedMag "mag") "mag".toList fullMode).1.keys ∧
    "_moment.x".toList ∈ (ddlmImport hostDic "host".toList nestedMag (blockOf nestedMag "mag") "mag".toList fullMode).1.keys ∧
    (ddlmImport hostDic "host".toList nestedMag (blockOf nestedMag "mag") "mag".toList fullMode).1.getItem "_moment.x".toList = .error .key := by
  decide +kernel

/-- An item cannot be the place of a full import, its frame has another name. -/
example : ddlmImport hostDic "_cell.a".toList magDic (blockOf magDic "mag") "mag".toList fullMode = (hostDic, .error .star) :=
  C89_frame_fails hostDic_filled (by decide +kernel) (by decide +kernel)

/-- The definitions below the `Head` are found after a light import, in lower case only. -/
example : ∃ d' b, importLight hostDic "host".toList magDic (blockOf magDic "mag") "mag".toList = (d', .ok magDic) ∧
    magDic.getItem "_Moment.x".toList = .ok b ∧ d'.getItem "_moment.x".toList = .ok b ∧ d'.getItem "_Moment.x".toList = .error .key := by
  refine C90_case_fails hostDic_filled magDic_filled magDic_acyclic (h := "host".toList) (o := "MAG".toList) (cat := .str "HOST".toList)
    (target := blockOf magDic "mag") host_head (by decide +kernel) mag_head (by decide +kernel) ⟨by decide +kernel, by decide +kernel⟩ rfl
    (x := "_Moment.x".toList) (by decide +kernel) (by decide +kernel) ?_ (by decide) (by decide)
  have e1 : magDic.getItem "moment".toList = .ok (blockOf magDic "moment") := by decide +kernel
  have e2 : magDic.getItem "_moment.x".toList = .ok (blockOf magDic "_moment.x") := by decide +kernel
  refine .deeper (y := "moment".toList) (.child (by decide +kernel) ⟨_, "MAG".toList, e1, ⟨?_, ?_⟩, rfl⟩) ⟨_, e1, ?_, ?_⟩ (by decide +kernel)
    ⟨_, "Moment".toList, e2, ⟨?_, ?_⟩, by decide⟩ <;> decide +kernel

/-- A missing definition. -/
example (d : CifDic) : heavyRef (fun _ => .ok magDic) "host".toList d (.sdict [("file".toList, .str "mag.dic".toList), ("save".toList, .str "cell".toList),
    ("miss".toList, .str "Ignore".toList)]) = (d, .ok ()) := by
  rw [C91_missing_partial (f := "mag.dic".toList) (imp := magDic) (k := "cell".toList) (by decide) rfl (by decide) (by decide +kernel)]
  rw [if_neg (by decide)]

/-- A definition that is there already. -/
example : heavyRef (fun _ => .ok magDic) "host".toList hostDic (.sdict [("file".toList, .str "mag.dic".toList), ("save".toList, .str "_cell.a".toList),
    ("mode".toList, .str "Full".toList)]) = (hostDic, .error .cif) := by
  rw [C91_duplicate (f := "mag.dic".toList) (imp := magDic) (k := "_cell.a".toList) (mode := "Full".toList) (target := blockOf magDic "_cell.a")
    (by decide) rfl (by decide) (by decide +kernel) (by decide) (by decide) (by decide +kernel)]
  rw [if_pos (by decide)]

/-- C91 fails for flags in other spellings, which are taken for none of those that are known: a missing definition is passed over. -/
theorem C91_spelling_fails : (heavyRef (fun _ => .ok magDic) "host".toList hostDic (.sdict [("file".toList, .str "mag.dic".toList),
    ("save".toList, .str "cell".toList), ("miss".toList, .str "exit".toList)])).2 = .ok () := by
  decide +kernel

/-- Nothing is imported. -/
example : obtainHeavy (fun _ => .error .type) magDic = (magDic, .ok ()) :=
  C91_none magDic_filled.readable (by
    have h : ∀ i ∈ magDic.keys, (match magDic.getItem i with | .ok b => !b.contains importAttr | .error _ => true) = true := by decide +kernel
    intro i hi b hb
    have := h i hi
    rw [hb] at this
    simpa using this)

end Samples
end Verif.CifDic
