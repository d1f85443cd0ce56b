import Verif.Lemmas.Ddl1Check
import Verif.Props.ValidateItem
/-! # Properties of DDL1 dictionaries (C78, C79)

A DDL1 dictionary is a file of data blocks. Opening it turns the blocks into definitions, finds each of them by what it defines, works
out types, ranges and categories, and lists what each category requires. -/
set_option linter.unusedSectionVars false
namespace Verif.Ddl1
open CifDic Validate Spec

section
variable [CaseFold]

/-! ## C78 -/

/-- C78: a regular DDL1 dictionary can be opened. -/
theorem C78_opens {c : Coll} (hr : Regular c) : ∃ d, load c = .ok d := by
  obtain ⟨d, h, _⟩ := load_ok hr
  exact ⟨d, h⟩

theorem loaded {c : Coll} (hr : Regular c) {d : CifDic} (h : load c = .ok d) : Loaded c d := by
  obtain ⟨d', h', hl⟩ := load_ok hr
  rw [h] at h'
  injection h' with h'
  exact h' ▸ hl

/-- C78: the names of the opened dictionary are, each once and in lower case, those of its definitions and of the categories that
definitions belong to but that have no definition themselves. -/
theorem C78_keys {c : Coll} (hr : Regular c) {d : CifDic} (h : load c = .ok d) :
    d.keys.Nodup ∧ ∀ x, x ∈ d.keys ↔ (∃ k b n i, Defines c k b n ∧ FoundAs b n i ∧ x = lower i) ∨ ∃ cat, Missing c cat ∧ x = lower cat := by
  have hl := loaded hr h
  refine ⟨hl.table.nodup, fun x => (hl.table.only x).trans ⟨?_, ?_⟩⟩
  · rintro ⟨q, s, hk, hq, rfl⟩
    cases hk with
    | dic => exact absurd rfl hq
    | defn hd hf => exact .inl ⟨_, _, _, _, hd, hf, rfl⟩
    | made hm => exact .inr ⟨_, hm, rfl⟩
  · rintro (⟨k, b, n, i, hd, hf, rfl⟩ | ⟨cat, hm, rfl⟩)
    · exact ⟨_, i, .defn hd hf, hd.key hr, rfl⟩
    · exact ⟨_, cat, .made hm, madeName_dic (hm.1.solid hr).1, rfl⟩

/-- What a definition has become. -/
theorem becomes {c : Coll} (hr : Regular c) {k : Str} {b : Block} {n : Str} (hd : Defines c k b n) {b1 b2 b' : Block} (hi : Inst b n b1)
    (hn : Norm b1 b2) (hk : Kin b2 b' [catMandatoryAttr, catKeyAttr]) : Becomes b n b' := by
  have cell {a : Str} (ha : a ∉ [catMandatoryAttr, catKeyAttr]) : dget b'.block a = dget b2.block a := hk.same a ha
  have one {a : Str} (ha : a ≠ nameAttr) : dget b1.block a = dget b.block a := hi.same a ha
  refine ⟨?_, ⟨?_, ?_⟩, ⟨?_, ?_⟩, ⟨?_, ?_⟩, ?_, ⟨?_, ?_⟩, ?_⟩
  · exact (has_of_same (by rw [low_name]; exact cell (by decide))).2 ((hn.has low_name (by decide)).2 hi.name)
  · intro hc
    refine lookup_of_same ?_
    rw [low_list, cell (by decide), hn.list.1 (by rw [hi.contains low_list (by decide)]; exact hc), one (by decide)]
  · intro hc
    exact (has_of_same (by rw [low_list]; exact cell (by decide))).2 (hn.list.2 (by rw [hi.contains low_list (by decide)]; exact hc))
  · intro hc
    refine lookup_of_same ?_
    rw [low_cond, cell (by decide), hn.cond.1 (by rw [hi.contains low_cond (by decide)]; exact hc), one (by decide)]
  · intro hc
    exact (has_of_same (by rw [low_cond]; exact cell (by decide))).2 (hn.cond.2 (by rw [hi.contains low_cond (by decide)]; exact hc))
  · intro hc
    exact (has_of_same (by rw [low_type]; exact cell (by decide))).2
      (hn.type.1 (by rw [hi.contains low_construct (by decide)]; exact hc) n hi.name)
  · intro hc
    refine lookup_of_same ?_
    rw [low_type, cell (by decide), hn.type.2 (by rw [hi.contains low_construct (by decide)]; exact hc), one (by decide)]
  · intro hc
    obtain ⟨h1, h2⟩ := hn.noRange (by rw [hi.contains low_range (by decide)]; exact hc)
    have hfresh := (hd.ok hr).1.fresh
    constructor
    · rw [contains_of_same (b := b) (by rw [low_max, cell (by decide), h1, one (by decide)])]
      exact hfresh _ (by simp)
    · rw [contains_of_same (b := b) (by rw [low_min, cell (by decide), h2, one (by decide)])]
      exact hfresh _ (by simp)
  · intro i ho hf
    rcases hf with ⟨_, t, e, ht⟩ | ⟨hno, _⟩
    · exact (has_of_same (by rw [low_catId]; exact cell (by decide))).2 (hn.ident.1 (hi.over.2 ho) n i t hi.name e ht)
    · exact absurd ho hno
  · intro ho
    rw [contains_of_same (b := b) (by rw [low_catId, cell (by decide), hn.ident.2 (fun h => ho (hi.over.1 h)), one (by decide)])]
    exact (hd.ok hr).1.fresh _ (by simp)
  · intro a ha
    have e : dget b'.block (lower a) = dget b.block (lower a) := by
      simp only [workedOut, List.mem_cons, List.not_mem_nil, or_false, not_or] at ha
      rw [cell (by simp; exact ⟨ha.2.2.2.2.2.2.2.1, ha.2.2.2.2.2.2.2.2⟩), hn.kin.same _ (by simp [ha]), one ha.1]
    exact ⟨contains_of_same e, lookup_of_same e⟩

/-- C78: each definition is found by its name (a category by the part of its name that names the category), in any case of letters, and
is what its block said about it. What is missing: definitions named like a block of the file in another case of letters
(`C78_case_fails`), which `Regular` excludes. -/
theorem C78_found_partial {c : Coll} (hr : Regular c) {d : CifDic} (h : load c = .ok d) {k : Str} {b : Block} {n i : Str} (hd : Defines c k b n)
    (hf : FoundAs b n i) (name : Str) (hn : lower name = lower i) : ∃ b', d.getItem name = .ok b' ∧ Becomes b n b' := by
  have hl := loaded hr h
  obtain ⟨b1, b2, b', q1, q2, q3, q4⟩ := hl.defs k b n hd
  refine ⟨b', found_ok hl.flat ?_ q1, becomes hr hd q2 q3 q4⟩
  rw [hn]
  exact hl.table.found _ _ (.defn hd hf) (hd.key hr)

/-- C78: the block of the dictionary lists the types: the three that every dictionary has, and one for each definition that comes with a
pattern. -/
theorem C78_types {c : Coll} (hr : Regular c) {d : CifDic} (h : load c = .ok d) :
    ∃ m, d.coll.getItem dicBlock = .ok m ∧ ∃ rows : List (Str × Str × Str), Has m codeAttr (.list (rows.map fun r => .str r.1)) ∧
      Has m codeConstructAttr (.list (rows.map fun r => .str r.2.1)) ∧ Has m primitiveAttr (.list (rows.map fun r => .str r.2.2)) ∧
      ∀ x y z, (x, y, z) ∈ rows ↔ TypeRow c x y z := by
  have hl := loaded hr h
  obtain ⟨m, h1, h2⟩ := hl.dic
  exact ⟨m, hl.flat.get (by rw [low_dic]; exact h1), h2⟩

/-- C78: a definition with a range of values lets exactly the values between the limits (these included) pass. -/
theorem C78_range {c : Coll} (hr : Regular c) {d : CifDic} (h : load c = .ok d) {k : Str} {b : Block} {n i : Str} (hd : Defines c k b n)
    (hf : FoundAs b n i) {s : Str} {lo hi : Option Numeral} (hs : Has b rangeAttr (.str s)) (ht : RangeText s lo hi)
    (hle : ∀ l h, lo = some l → hi = some h → l.value ≤ h.value) (D : Dic) (item : Str)
    (hD : ∃ b', d.getItem i = .ok b' ∧ D.find item = some b') (value : PyVal) (vals : List PyVal)
    (hv : valuesOf value = some vals) (hn : ∀ v ∈ vals, Numeric v ∨ NoNumber v) :
    validateEnumRange D item value = .ok (judge (InClosed lo hi) vals) := by
  have hl := loaded hr h
  obtain ⟨b1, b2, b', q1, q2, q3, q4⟩ := hl.defs k b n hd
  have hg : d.getItem i = .ok b' := found_ok hl.flat (hl.table.found _ _ (.defn hd hf) (hd.key hr)) q1
  obtain ⟨b'', h1, h2⟩ := hD
  rw [hg] at h1
  injection h1 with h1
  subst h1
  obtain ⟨h3, h4⟩ := q3.range s lo hi ((q2.has low_range (by decide)).2 hs) ht
  obtain ⟨e, hlo, hhi⟩ := ht
  obtain ⟨mx, mn, g1, g2⟩ := C40_ddl1 D item b' lo hi value vals hlo hhi hle hv hn
  rw [getMaxMin_sides hlo hhi] at g1
  injection g1 with g1
  injection g1 with g1 g1'
  have hcol := rangeColumns_sides lo hi
  rw [g1, g1'] at hcol
  refine g2 h2 ?_ ?_
  · rw [hcol]
    exact ((has_of_same (by rw [low_max]; exact q4.same _ (by decide))).2 h3).2
  · rw [hcol]
    exact ((has_of_same (by rw [low_min]; exact q4.same _ (by decide))).2 h4).2

/-! ## C79 -/

/-- C79: every category that definitions belong to, or that has a definition, is found in any case of letters; it carries its name, the
list of the items that have to be given, and the list of the items that make up its key. What is missing: that no item stands in the
key twice. Definitions are listed in lower case, but what they name is listed as it is written (`C79_twice_fails`). -/
theorem C79_categories_partial {c : Coll} (hr : Regular c) {d : CifDic} (h : load c = .ok d) {cat : Str} (hc : Uses c cat ∨ Declares c cat)
    (name : Str) (hn : lower name = lower cat) : ∃ b', d.getItem name = .ok b' ∧ Has b' catIdAttr (.str cat) ∧
      Lists b' catMandatoryAttr (Obliged c cat) ∧ Lists b' catKeyAttr (Identifying c cat) := by
  have hl := loaded hr h
  by_cases hdec : Declares c cat
  · obtain ⟨k, b, n, hd, ho, hf⟩ := hdec
    obtain ⟨b1, b2, b', q1, q2, q3, q4⟩ := hl.defs k b n hd
    obtain ⟨b'', h1, h2⟩ := hl.cats cat (lower n) hc (.defn hd hf) (hd.key hr)
    rw [q1] at h1
    injection h1 with h1
    subst h1
    refine ⟨b', found_ok hl.flat ?_ q1, (becomes hr hd q2 q3 q4).ident.1 cat ho hf, h2⟩
    rw [hn]
    exact hl.table.found _ _ (.defn hd hf) (hd.key hr)
  · have hm : Missing c cat := ⟨hc.resolve_right hdec, hdec⟩
    have hq := madeName_dic (hm.1.solid hr).1
    obtain ⟨b, b', q1, q2, q3⟩ := hl.made cat hm
    obtain ⟨b'', h1, h2⟩ := hl.cats cat _ hc (.made hm) hq
    rw [q1] at h1
    injection h1 with h1
    subst h1
    refine ⟨b', found_ok hl.flat ?_ q1, ?_, h2⟩
    · rw [hn]
      exact hl.table.found _ _ (.made hm) hq
    · exact (has_of_same (by rw [low_catId]; exact q3.same _ (by decide))).2 q2.ident

/-- C79: without capital letters in what definitions name, no item stands in the key of a category twice. -/
theorem C79_once {c : Coll} {cat : Str} {b' : Block} (hl : Lists b' catKeyAttr (Identifying c cat))
    (hu : ∀ k b n u, Defines c k b n → Has b uniqueAttr (.str u) → lower u = u) :
    b'.contains catKeyAttr = false ∨ ∃ l : List Str, Has b' catKeyAttr (.list (l.map .str)) ∧ (l.map lower).Nodup := by
  rcases hl with ⟨l, h1, _, h3, h4⟩ | ⟨h1, _⟩
  · refine .inr ⟨l, h1, ?_⟩
    have : l.map lower = l := by
      have : ∀ x ∈ l, lower x = x := by
        intro x hx
        obtain ⟨k, b, n, i, u, q1, _, _, q4, q5⟩ := (h4 x).1 hx
        rcases q5 with rfl | rfl
        · exact CaseFold.lower_lower i
        · exact hu k b n x q1 q4
      rw [List.map_congr_left this, List.map_id']
    rw [this]
    exact h3
  · exact .inl h1

end

/-! ## A dictionary -/

section
local instance : CaseFold := asciiFold

/-- A block with two names. -/
def demoTwo : Block :=
  ((itemsBlock [("_category", "x"), ("_list_uniqueness", "_x_A"), ("_type_construct", "[A-Z]+"), ("_type", "char")]).addItem
    "_name".toList (.list [.str "_x_A".toList, .str "_x_b".toList])).1

def demoDic : Block := itemsBlock [("_dictionary_name", "demo.dic"), ("_dictionary_version", "1.0")]
def demoOne : Block := itemsBlock [("_name", "_x_Y"), ("_category", "x"), ("_type", "numb"), ("_enumeration_range", "0:5"), ("_list_mandatory", "yes")]
def demoCat : Block := itemsBlock [("_name", "_x_[]"), ("_category", "category_overview"), ("_type", "null")]
def demoOther : Block := itemsBlock [("_name", "_z_q"), ("_category", "z"), ("_type", "char"), ("_list_mandatory", "yes")]

/-- A dictionary with an item `_x_Y`, items `_x_A` and `_x_b` defined together, a category `x`, and an item `_z_q` of a category that is
not defined. -/
def demoFile : Coll :=
  Coll.run { scoping := .dictionary, standard := some "Dic".toList }
    [.new "on_this_dictionary".toList demoDic true none, .new "x_y".toList demoOne true none, .new "x_A".toList demoTwo true none,
     .new "x_[]".toList demoCat true none, .new "z_q".toList demoOther true none]

theorem itemsBlock_reachable : ∀ l : List (String × String), (∀ e ∈ l, lower e.1.toList ≠ Block.saves) → (itemsBlock l).Reachable
  | [], _ => .fresh _ ⟨rfl, rfl, rfl, rfl⟩
  | (k, v) :: r, h => .step _ (.add k.toList (.str v.toList) false) (itemsBlock_reachable r fun e he => h e (List.mem_cons_of_mem _ he))
      (h (k, v) (by simp))

theorem demoFile_cons : demoFile.Consistent := by
  have h0 : Coll.Reachable { scoping := .dictionary, standard := some "Dic".toList } := .start _ _ _
  have h1 := h0.step (.new "on_this_dictionary".toList demoDic true none) ⟨nofun, fun h => absurd h (by decide +kernel)⟩
  have h2 := h1.step (.new "x_y".toList demoOne true none) ⟨nofun, fun h => absurd h (by decide +kernel)⟩
  have h3 := h2.step (.new "x_A".toList demoTwo true none) ⟨nofun, fun h => absurd h (by decide +kernel)⟩
  have h4 := h3.step (.new "x_[]".toList demoCat true none) ⟨nofun, fun h => absurd h (by decide +kernel)⟩
  have h5 := h4.step (.new "z_q".toList demoOther true none) ⟨nofun, fun h => absurd h (by decide +kernel)⟩
  exact Coll.reachable_consistent h5

theorem demoFile_dict : demoFile.dict = [("on_this_dictionary".toList, demoDic), ("x_y".toList, demoOne), ("x_a".toList, demoTwo),
    ("x_[]".toList, demoCat), ("z_q".toList, demoOther)] := by decide +kernel

/-- The numeral of a digit. -/
def digit (ch : Char) : Numeral := { neg := false, int := [ch], frac := none, su := none, exp := none }

theorem digit_ok (ch : Char) (h : Digit ch) : Bound.FloatText (digit ch) := by
  refine ⟨⟨?_, ?_, .inl (by simp [digit]), ?_, ?_⟩, rfl, ?_⟩
  · intro c hc
    simp only [digit, List.mem_singleton] at hc
    exact hc ▸ h
  · intro _ h; cases h
  · intro _ h; cases h
  · intro _ _ _ h; cases h
  · intro _ _ _ h; cases h

theorem demo_regular : Regular demoFile := by
  refine regular_of demoFile_cons ?_ rfl ?_ ?_ (by decide +kernel)
  · intro k
    have h : ∀ e ∈ demoFile.childTable, e.2.parent = none := by decide +kernel
    unfold Coll.parentOf
    split
    · rename_i pc hp
      exact h _ (dget_mem hp)
    · rfl
  · exact ⟨demoDic, by decide +kernel, itemsBlock_reachable _ (by decide +kernel), by rw [show demoDic.maxName = none by decide +kernel]; exact nofun, by decide +kernel⟩
  · rw [demoFile_dict]
    intro e he hne
    simp only [List.mem_cons, List.not_mem_nil, or_false] at he
    rcases he with rfl | rfl | rfl | rfl | rfl
    · exact absurd rfl hne
    · have no : ¬ Overview demoOne := by decide +kernel
      refine ⟨itemsBlock_reachable _ (by decide +kernel), by rw [show demoOne.maxName = none by decide +kernel]; exact nofun,
        ⟨["_x_Y".toList], .one (by decide +kernel), by decide +kernel, ?_⟩, ?_, ?_, ?_, ?_, ?_, by decide +kernel⟩
      · intro n hn
        rw [List.mem_singleton] at hn
        subst hn
        exact ⟨by unfold Solid; decide, by decide, _, .inr ⟨no, rfl⟩⟩
      · exact fun _ => ⟨"x".toList, by decide +kernel, by unfold Solid; decide, by decide⟩
      · exact fun _ => ⟨"0:5".toList, some (digit '0'), some (digit '5'), by decide +kernel, by decide,
          fun n h => by injection h with h; exact h ▸ digit_ok _ (by decide), fun n h => by injection h with h; exact h ▸ digit_ok _ (by decide)⟩
      · rw [show demoOne.contains constructAttr = false by decide +kernel]
        exact nofun
      · exact fun _ => ⟨by decide +kernel, .str "yes".toList, by decide +kernel⟩
      · rw [show demoOne.contains uniqueAttr = false by decide +kernel]
        exact nofun
    · have no : ¬ Overview demoTwo := by decide +kernel
      refine ⟨.step _ (.add _ _ false) (itemsBlock_reachable _ (by decide +kernel)) (by show lower _ ≠ _; decide +kernel),
        by rw [show demoTwo.maxName = none by decide +kernel]; exact nofun,
        ⟨["_x_A".toList, "_x_b".toList], .many (by decide +kernel), by decide +kernel, ?_⟩, ?_, ?_, ?_, ?_, ?_, by decide +kernel⟩
      · intro n hn
        simp only [List.mem_cons, List.not_mem_nil, or_false] at hn
        rcases hn with rfl | rfl
        · exact ⟨by unfold Solid; decide, by decide, _, .inr ⟨no, rfl⟩⟩
        · exact ⟨by unfold Solid; decide, by decide, _, .inr ⟨no, rfl⟩⟩
      · exact fun _ => ⟨"x".toList, by decide +kernel, by unfold Solid; decide, by decide⟩
      · rw [show demoTwo.contains rangeAttr = false by decide +kernel]
        exact nofun
      · exact fun _ => ⟨"[A-Z]+".toList, "char".toList, by decide +kernel, by decide +kernel, by unfold Printable; decide, by unfold Printable; decide⟩
      · rw [show demoTwo.contains mandatoryAttr = false by decide +kernel]
        exact nofun
      · exact fun _ => ⟨by decide +kernel, "_x_A".toList, by decide +kernel, by unfold Printable; decide⟩
    · refine ⟨itemsBlock_reachable _ (by decide +kernel), by rw [show demoCat.maxName = none by decide +kernel]; exact nofun,
        ⟨["_x_[]".toList], .one (by decide +kernel), by decide +kernel, ?_⟩, ?_, ?_, ?_, ?_, ?_, by decide +kernel⟩
      · intro n hn
        rw [List.mem_singleton] at hn
        subst hn
        exact ⟨by unfold Solid; decide, by decide, "x".toList, .inl ⟨by decide +kernel, "[]".toList, by decide, by decide⟩⟩
      · exact fun _ => ⟨overview, by decide +kernel, by unfold Solid; decide, by decide⟩
      · rw [show demoCat.contains rangeAttr = false by decide +kernel]
        exact nofun
      · rw [show demoCat.contains constructAttr = false by decide +kernel]
        exact nofun
      · rw [show demoCat.contains mandatoryAttr = false by decide +kernel]
        exact nofun
      · rw [show demoCat.contains uniqueAttr = false by decide +kernel]
        exact nofun
    · have no : ¬ Overview demoOther := by decide +kernel
      refine ⟨itemsBlock_reachable _ (by decide +kernel), by rw [show demoOther.maxName = none by decide +kernel]; exact nofun,
        ⟨["_z_q".toList], .one (by decide +kernel), by decide +kernel, ?_⟩, ?_, ?_, ?_, ?_, ?_, by decide +kernel⟩
      · intro n hn
        rw [List.mem_singleton] at hn
        subst hn
        exact ⟨by unfold Solid; decide, by decide, _, .inr ⟨no, rfl⟩⟩
      · exact fun _ => ⟨"z".toList, by decide +kernel, by unfold Solid; decide, by decide⟩
      · rw [show demoOther.contains rangeAttr = false by decide +kernel]
        exact nofun
      · rw [show demoOther.contains constructAttr = false by decide +kernel]
        exact nofun
      · exact fun _ => ⟨by decide +kernel, .str "yes".toList, by decide +kernel⟩
      · rw [show demoOther.contains uniqueAttr = false by decide +kernel]
        exact nofun

/-- The sample is regular. Opened, it has the three items, the category `x`, and the categories `z` and `category_overview` that were
made up; category `x` lists what it requires. -/
example : ∃ d, Regular demoFile ∧ load demoFile = .ok d ∧
    d.keys = ["_x_y".toList, "_x_a".toList, "_x_b".toList, "x".toList, "_z_q".toList, "category_overview".toList, "z".toList] ∧
    ∃ b', d.getItem "X".toList = .ok b' ∧ Has b' catMandatoryAttr (.list [.str "_x_y".toList]) := by
  obtain ⟨d, hd⟩ := C78_opens demo_regular
  have e : load demoFile = .ok d → d.keys = ["_x_y".toList, "_x_a".toList, "_x_b".toList, "x".toList, "_z_q".toList,
      "category_overview".toList, "z".toList] ∧ ∃ b', d.getItem "X".toList = .ok b' ∧ Has b' catMandatoryAttr (.list [.str "_x_y".toList]) := by
    have h : (match load demoFile with
      | .ok d => decide (d.keys = ["_x_y".toList, "_x_a".toList, "_x_b".toList, "x".toList, "_z_q".toList, "category_overview".toList, "z".toList]) &&
        (match d.getItem "X".toList with
        | .ok b' => decide (Has b' catMandatoryAttr (.list [.str "_x_y".toList]))
        | .error _ => false)
      | .error _ => false) = true := by decide +kernel
    intro hd
    rw [hd] at h
    simp only [Bool.and_eq_true, decide_eq_true_eq] at h
    refine ⟨h.1, ?_⟩
    have h2 := h.2
    split at h2
    · rename_i b' hb
      exact ⟨b', hb, of_decide_eq_true h2⟩
    · cases h2
  exact ⟨d, demo_regular, hd, e hd⟩

/-- The sample meets the hypotheses of `C78_found_partial` and `C78_range` with `_x_Y`, those of `C79_categories_partial` with the defined
category `x` and the made up category `z`. -/
example : (Defines demoFile "x_y".toList demoOne "_x_Y".toList ∧ FoundAs demoOne "_x_Y".toList "_x_Y".toList ∧
      Has demoOne rangeAttr (.str "0:5".toList) ∧ RangeText "0:5".toList (some (digit '0')) (some (digit '5')) ∧
      (digit '0').value ≤ (digit '5').value) ∧
    Declares demoFile "x".toList ∧ Uses demoFile "z".toList := by
  have h : ∀ k b, dget demoFile.dict k = some b ↔ dget [("on_this_dictionary".toList, demoDic), ("x_y".toList, demoOne), ("x_a".toList, demoTwo),
    ("x_[]".toList, demoCat), ("z_q".toList, demoOther)] k = some b := fun k b => by rw [demoFile_dict]
  refine ⟨⟨⟨⟨(h _ _).2 (by decide +kernel), by decide⟩, ["_x_Y".toList], .one (by decide +kernel), List.mem_singleton.2 rfl⟩, .inr ⟨by decide +kernel, rfl⟩, by decide +kernel,
    ⟨by decide, fun n h => by injection h with h; exact h ▸ digit_ok _ (by decide), fun n h => by injection h with h; exact h ▸ digit_ok _ (by decide)⟩,
    by decide +kernel⟩, ?_, ?_⟩
  · exact ⟨_, demoCat, "_x_[]".toList, ⟨⟨(h "x_[]".toList _).2 (by decide +kernel), by decide⟩, ["_x_[]".toList], .one (by decide +kernel), List.mem_singleton.2 rfl⟩, by decide +kernel,
      .inl ⟨by decide +kernel, "[]".toList, by decide, by decide⟩⟩
  · exact ⟨_, demoOther, "_z_q".toList, ⟨⟨(h "z_q".toList _).2 (by decide +kernel), by decide⟩, ["_z_q".toList], .one (by decide +kernel), List.mem_singleton.2 rfl⟩, by decide +kernel⟩

/-- C79 fails for names with capital letters: `_x_A`, which names itself, is listed in the key of its category in lower case and as it is
written, so that the key appears to have two items. -/
theorem C79_twice_fails : Regular demoFile ∧ ∃ d b', load demoFile = .ok d ∧ d.getItem "x".toList = .ok b' ∧
    Has b' catKeyAttr (.list [.str "_x_a".toList, .str "_x_A".toList, .str "_x_b".toList]) := by
  refine ⟨demo_regular, ?_⟩
  have h : (match load demoFile with
    | .ok d =>
      (match d.getItem "x".toList with
      | .ok b' => decide (Has b' catKeyAttr (.list [.str "_x_a".toList, .str "_x_A".toList, .str "_x_b".toList]))
      | .error _ => false)
    | .error _ => false) = true := by decide +kernel
  split at h
  · rename_i d hd
    split at h
    · rename_i b' hb
      exact ⟨d, b', hd, hb, of_decide_eq_true h⟩
    · cases h
  · cases h

/-- C78 fails for a definition in a block that is called as the definition, if the name has capital letters: the block `_x_y` with the
name `_x_Y` is gone after opening the dictionary, because the name is compared with the key of the block as it is written. -/
theorem C78_case_fails : ∃ d, load (Coll.run { scoping := .dictionary, standard := some "Dic".toList }
      [.new "on_this_dictionary".toList demoDic true none,
        .new "_x_Y".toList (itemsBlock [("_name", "_x_Y"), ("_category", "x"), ("_type", "numb")]) true none]) = .ok d ∧
    "_x_y".toList ∉ d.keys := by
  have h : (match load (Coll.run { scoping := .dictionary, standard := some "Dic".toList }
      [.new "on_this_dictionary".toList demoDic true none,
        .new "_x_Y".toList (itemsBlock [("_name", "_x_Y"), ("_category", "x"), ("_type", "numb")]) true none]) with
    | .ok d => decide ("_x_y".toList ∉ d.keys)
    | .error _ => false) = true := by decide +kernel
  split at h
  · rename_i d hd
    exact ⟨d, hd, of_decide_eq_true h⟩
  · cases h

end
end Verif.Ddl1
