import Verif.Props.CatTable
import Verif.Props.LoopTables
import Verif.Props.CifDicTree
/-! # C75, C76, C77: samples and counterexamples -/
set_option linter.unusedSectionVars false
namespace Verif.CifDic
open Validate

section
variable [CaseFold]

/-- The value of an attribute, if there is one. -/
def got (d : CifDic) (a attr : Str) : Option PyVal :=
  match attrI d a attr with
  | .ok v => some v
  | .error _ => none

theorem attr_iff {d : CifDic} {a attr : Str} {v : PyVal} : Attr d a attr v ↔ got d a attr = some v := by
  constructor
  · intro h
    unfold got
    rw [h.attrI]
  · intro h
    unfold got attrI at h
    cases hb : d.getItem a with
    | error e => simp only [hb] at h; cases h
    | ok b =>
      simp only [hb] at h
      cases hv : b.getItem attr with
      | error e => simp only [hv] at h; cases h
      | ok w =>
        simp only [hv] at h
        injection h with h
        subst h
        exact ⟨b, hb, by unfold Block.contains; rw [decide_eq_true_eq]; exact Block.getItem_ok_mem hv, hv⟩

/-- Whether a value is a text with a property. -/
def textIs (p : Str → Bool) : Option PyVal → Bool
  | some (.str s) => p s
  | _ => false

theorem textIs_iff {p : Str → Bool} {v : Option PyVal} : textIs p v = true ↔ ∃ s, v = some (.str s) ∧ p s = true := by
  constructor
  · intro h
    unfold textIs at h
    split at h
    · exact ⟨_, rfl, h⟩
    · cases h
  · rintro ⟨s, rfl, h⟩
    exact h

theorem described_of {d : CifDic} (h : Readable d)
    (h1 : (d.keys.all fun a => !scopeIs d "Item".toList a || (textIs (fun o => decide (lower o ≠ [])) (got d a objAttr) && textIs (fun _ => true) (got d a defIdAttr))) = true)
    (h2 : (d.keys.all fun a => match d.getItem a with
      | .ok b => !b.contains purposeAttr || (match b.getItem purposeAttr with | .ok _ => true | .error _ => false)
      | .error _ => true) = true)
    (h3 : (d.keys.all fun a => d.keys.all fun a' =>
      !textIs (fun o => textIs (fun i => decide (lower o = i)) (got d a' defIdAttr)) (got d a objAttr)) = true) : Described d := by
  rw [List.all_eq_true] at h1 h2 h3
  have h1' : ∀ a ∈ d.keys, ItemDef d a → textIs (fun o => decide (lower o ≠ [])) (got d a objAttr) = true ∧ textIs (fun _ => true) (got d a defIdAttr) = true := by
    intro a ha hi
    have := h1 a ha
    rw [(item_iff h ha).1 hi] at this
    simpa using this
  refine ⟨?_, ?_, ?_, ?_⟩
  · intro a ha hi
    obtain ⟨o, h4, h5⟩ := textIs_iff.1 (h1' a ha hi).1
    exact ⟨o, attr_iff.2 h4, by simpa using h5⟩
  · intro a ha hi
    obtain ⟨o, h4, _⟩ := textIs_iff.1 (h1' a ha hi).2
    exact ⟨o, attr_iff.2 h4⟩
  · intro a ha b hb hc
    have := h2 a ha
    rw [hb] at this
    simp only [hc] at this
    cases hv : b.getItem purposeAttr with
    | ok v => exact ⟨v, rfl⟩
    | error e => rw [hv] at this; cases this
  · intro a ha a' ha' o i ho hi e
    have := h3 a ha
    rw [List.all_eq_true] at this
    have := this a' ha'
    rw [attr_iff.1 ho, attr_iff.1 hi] at this
    simp [textIs, e] at this

theorem shallow_of {d : CifDic} (h : Readable d) (hs : (loopTree d).all (fun q => q.2.all fun c => decide (c ∉ dkeys (loopTree d))) = true) : Shallow d := by
  intro p c c' h1 h2
  rw [List.all_eq_true] at hs
  have hm := (mem_loopKids h h1.1).2 h1
  have := hs _ ((mem_loopTree h).2 ⟨h1.1, rfl, List.ne_nil_of_mem hm⟩)
  rw [List.all_eq_true] at this
  have := this c hm
  rw [decide_eq_true_eq] at this
  exact this ((mem_keys_loopTree h).2 ⟨c', h2⟩)

theorem acyclic_of {d : CifDic} (h : Readable d) (hs : (loopTree d).all (fun q => q.2.all fun c => decide (q.1.length < c.length)) = true) : LoopAcyclic d := by
  have hc : ∀ p c, LoopChild d p c → p.length < c.length := by
    intro p c h1
    rw [List.all_eq_true] at hs
    have hm := (mem_loopKids h h1.1).2 h1
    have := hs _ ((mem_loopTree h).2 ⟨h1.1, rfl, List.ne_nil_of_mem hm⟩)
    rw [List.all_eq_true] at this
    simpa using this c hm
  have hb : ∀ p c, LoopBelow d p c → p.length < c.length := by
    intro p c h1
    induction h1 with
    | child h => exact hc _ _ h
    | deeper _ h ih => exact Nat.lt_trans ih (hc _ _ h)
  intro c h1
  exact Nat.lt_irrefl _ (hb c c h1)

/-- The names in the key of a category. -/
def keyNames (d : CifDic) (c : Str) : List Str :=
  match keysOf d c with
  | .ok l => l
  | .error _ => []

theorem keyName_iff {d : CifDic} {c k : Str} {l : List Str} (hl : keysOf d c = .ok l) : KeyName d c k ↔ k ∈ l := by
  obtain ⟨v, pl, hv, h2, e⟩ := keysOf_name hl
  constructor
  · rintro ⟨v', pl', hv', h2', hm⟩
    have := hv.unique hv'
    subst this
    rw [h2] at h2'
    injection h2' with h2'
    subst h2'
    rw [e] at hm
    obtain ⟨k', hk, e'⟩ := List.mem_map.1 hm
    injection e' with e'
    subst e'
    exact hk
  · intro hm
    exact ⟨v, pl, hv, h2, by rw [e]; exact List.mem_map.2 ⟨k, hm, rfl⟩⟩

/-- A test of the hypotheses about keys. -/
def linkCheck (d : CifDic) : Bool :=
  (d.keys.filter (loopIs d)).all fun c => textIs (fun _ => true) (got d c catAttr) && (match keysOf d c with
    | .error _ => false
    | .ok l => decide l.Nodup && (l.all fun k => textIs (fun s => decide (lower s = lower c)) (got d k catAttr)) &&
      (loopKids d c).all fun x => ((keyNames d x).all fun k => textIs (fun y => decide (y ∈ l)) (got d k linkAttr)) &&
        l.all fun y => (keyNames d x).any fun k => decide (got d k linkAttr = some (.str y)))

theorem link_of {d : CifDic} (h : Readable d) (hc : linkCheck d = true) :
    (∀ c, LoopCat d c → ∃ s, Attr d c catAttr (.str s)) ∧ OwnKeys d ∧ Linkable d := by
  unfold linkCheck at hc
  rw [List.all_eq_true] at hc
  have hall : ∀ c, LoopCat d c → (∃ s, Attr d c catAttr (.str s)) ∧ ∃ l, keysOf d c = .ok l ∧ keyNames d c = l ∧ l.Nodup ∧ (∀ k ∈ l, InCategory d c k) ∧
      ∀ x, LoopChild d c x → (∀ k ∈ keyNames d x, ∃ y, Attr d k linkAttr (.str y) ∧ y ∈ l) ∧ ∀ y ∈ l, ∃ k ∈ keyNames d x, Attr d k linkAttr (.str y) := by
    intro c hl
    have := hc c (List.mem_filter.2 ((loopCat_iff h).1 hl))
    rw [Bool.and_eq_true] at this
    obtain ⟨h1, h2⟩ := this
    obtain ⟨s, hs, _⟩ := textIs_iff.1 h1
    refine ⟨⟨s, attr_iff.2 hs⟩, ?_⟩
    cases hk : keysOf d c with
    | error e => rw [hk] at h2; cases h2
    | ok l =>
      rw [hk] at h2
      simp only [Bool.and_eq_true, decide_eq_true_eq, List.all_eq_true, List.any_eq_true] at h2
      obtain ⟨⟨h3, h4⟩, h5⟩ := h2
      refine ⟨l, rfl, by unfold keyNames; rw [hk], h3, ?_, ?_⟩
      · intro k hkl
        obtain ⟨s', hs', e⟩ := textIs_iff.1 (h4 k hkl)
        obtain ⟨b, hb, hh⟩ := attr_iff.2 hs'
        exact ⟨b, s', hb, hh, by simpa using e⟩
      · intro x hx
        obtain ⟨h6, h7⟩ := h5 x ((mem_loopKids h hl).2 hx)
        refine ⟨?_, ?_⟩
        · intro k hkx
          obtain ⟨y, hy, e⟩ := textIs_iff.1 (h6 k hkx)
          exact ⟨y, attr_iff.2 hy, by simpa using e⟩
        · intro y hy
          obtain ⟨k, hk1, hk2⟩ := h7 y hy
          exact ⟨k, hk1, attr_iff.2 hk2⟩
  refine ⟨fun c hl => (hall c hl).1, ?_, ?_⟩
  · intro c v pl hl _ hv hpl
    obtain ⟨_, l, h1, _, h3, h4, _⟩ := hall c hl
    obtain ⟨v', pl', hv', hpl', e⟩ := keysOf_name h1
    have := hv.unique hv'
    subst this
    rw [hpl] at hpl'
    injection hpl' with hpl'
    subst hpl'
    refine ⟨?_, ?_⟩
    · rw [e, List.nodup_iff_pairwise_ne, List.pairwise_map]
      rw [List.nodup_iff_pairwise_ne] at h3
      exact h3.imp fun hne e => hne (by injection e)
    · intro k hk
      rw [e] at hk
      obtain ⟨k', hk', e'⟩ := List.mem_map.1 hk
      injection e' with e'
      subst e'
      exact h4 k' hk'
  · refine ⟨fun c hl _ => (hall c hl).1, ?_, ?_, ?_⟩
    · intro c hl _
      obtain ⟨_, l, h1, _⟩ := hall c hl
      obtain ⟨v', pl', hv', hpl', e⟩ := keysOf_name h1
      exact ⟨v', l, hv', by rw [← e]; exact hpl'⟩
    · intro p c k hpc _ _ hk
      obtain ⟨_, l, h1, _, _, _, h5⟩ := hall p hpc.1
      obtain ⟨_, l', h1', h2', _⟩ := hall c hpc.2.1
      obtain ⟨y, hy, hm⟩ := (h5 c hpc).1 k (by rw [h2']; exact (keyName_iff h1').1 hk)
      exact ⟨y, hy, (keyName_iff h1).2 hm⟩
    · intro p c y hpc _ _ hk
      obtain ⟨_, l, h1, _, _, _, h5⟩ := hall p hpc.1
      obtain ⟨_, l', h1', h2', _⟩ := hall c hpc.2.1
      obtain ⟨k, hm, hy⟩ := (h5 c hpc).2 y ((keyName_iff h1).1 hk)
      exact ⟨k, (keyName_iff h1').2 (by rw [← h2']; exact hm), hy⟩

theorem keyed_of {d : CifDic} (h : ((d.keys.filter (loopIs d)).all fun c => match d.getItem c with
    | .error _ => true
    | .ok b => (!b.contains keysAttr || (match b.getItem keysAttr with
        | .ok v => (match listify v with | .ok _ => true | .error _ => false)
        | .error _ => false)) && (!b.contains keyAttr || (match b.getItem keyAttr with | .ok _ => true | .error _ => false))) = true)
    (hr : Readable d) : Keyed d := by
  intro c b hc hb
  rw [List.all_eq_true] at h
  have := h c (List.mem_filter.2 ((loopCat_iff hr).1 hc))
  rw [hb] at this
  simp only [Bool.and_eq_true] at this
  refine ⟨fun e => ?_, fun e => ?_⟩
  · have := this.1
    rw [e] at this
    cases hv : b.getItem keysAttr with
    | error e => rw [hv] at this; cases this
    | ok v =>
      rw [hv] at this
      simp only [Bool.not_true, Bool.false_or] at this
      cases hl : listify v with
      | error e => rw [hl] at this; cases this
      | ok l => exact ⟨v, l, rfl, hl⟩
  · have := this.2
    rw [e] at this
    cases hv : b.getItem keyAttr with
    | error e => rw [hv] at this; cases this
    | ok v => exact ⟨v, rfl⟩

theorem present_of {d : CifDic} (h : (d.table.all fun q => match d.coll.getItem q.2 with | .ok _ => true | .error _ => false) = true) : Present d := by
  intro i k hk
  rw [List.all_eq_true] at h
  have := h _ (dget_mem hk)
  simp only at this
  cases hv : d.coll.getItem k with
  | error e => rw [hv] at this; cases this
  | ok v => exact ⟨v, rfl⟩
end

section Samples
local instance : CaseFold := asciiFold

/-- The head category. -/
def headFrame : String × List (String × String) :=
  ("HEAD", [("_definition.id", "HEAD"), ("_definition.scope", "Category"), ("_definition.class", "Head"), ("_name.category_id", "DEMO")])

/-- A looped category. -/
def loopFrame (c parent key : String) : String × List (String × String) :=
  (c, [("_definition.id", c), ("_definition.scope", "Category"), ("_definition.class", "Loop"), ("_name.category_id", parent), ("_category_key.name", key)])

/-- A key. -/
def keyFrame (c o link : String) : String × List (String × String) :=
  (c ++ "." ++ o, [("_definition.id", "_" ++ c ++ "." ++ o), ("_name.category_id", c), ("_name.object_id", o), ("_type.purpose", "Key"),
    ("_name.linked_item_id", link)])

/-- An item. -/
def itemFrame (c o : String) : String × List (String × String) :=
  (c ++ "." ++ o, [("_definition.id", "_" ++ c ++ "." ++ o), ("_name.category_id", c), ("_name.object_id", o), ("_definition.scope", "Item")])

/-- The dictionary with these frames. -/
def dicOf (l : List (String × List (String × String))) : CifDic :=
  { coll := frames l, table := match defTable (frames l) .ddlm with | .ok t => t | .error _ => [], lang := .ddlm }

/-- Atoms, their displacements, and their bonds in looped categories. -/
def atomDic : CifDic := dicOf [headFrame, loopFrame "ATOM" "HEAD" "_atom.id", loopFrame "ATOM_ANISO" "ATOM" "_atom_aniso.id", loopFrame "ATOM_TYPE" "Atom" "_atom_type.id",
  keyFrame "atom" "id" "", itemFrame "atom" "x", keyFrame "atom_aniso" "id" "_atom.id", itemFrame "atom_aniso" "U", itemFrame "ATOM_ANISO" "x",
  keyFrame "atom_type" "id" "_atom.id", itemFrame "atom_type" "mass"]

/-- Looped categories nested twice. -/
def deepDic : CifDic := dicOf [headFrame, loopFrame "A" "HEAD" "_a.id", loopFrame "AB" "A" "_ab.id", loopFrame "ABC" "AB" "_abc.id", loopFrame "ABD" "AB" "_abd.id",
  keyFrame "a" "id" "", keyFrame "ab" "id" "_a.id", keyFrame "abc" "id" "_ab.id", keyFrame "abd" "id" "_ab.id", itemFrame "abc" "c", itemFrame "abd" "d"]

theorem atom_readable : Readable atomDic := readable_of_check (by decide +kernel)
theorem deep_readable : Readable deepDic := readable_of_check (by decide +kernel)
theorem atom_shallow : Shallow atomDic := shallow_of atom_readable (by decide +kernel)
theorem atom_described : Described atomDic := described_of atom_readable (by decide +kernel) (by decide +kernel) (by decide +kernel)
theorem atom_keyed : Keyed atomDic := keyed_of (by decide +kernel) atom_readable
theorem deep_keyed : Keyed deepDic := keyed_of (by decide +kernel) deep_readable
theorem deep_child {p c : Str} (h : (loopTree deepDic).any (fun q => decide (q.1 = p ∧ c ∈ q.2)) = true) : LoopChild deepDic p c := by
  rw [List.any_eq_true] at h
  obtain ⟨⟨p', ch⟩, hm, e⟩ := h
  rw [decide_eq_true_eq] at e
  obtain ⟨rfl, hc⟩ := e
  obtain ⟨h1, h2, _⟩ := (mem_loopTree deep_readable).1 hm
  exact (mem_loopKids deep_readable h1).1 (by rw [← h2]; exact hc)

/-- The sample meets the hypotheses of `C75_names_partial`; names are found in the category itself first, and in the looped categories in it. -/
example : (Readable atomDic ∧ Described atomDic ∧ Shallow atomDic) ∧ ∃ t, catObjTable atomDic = .ok t ∧
    nameByCatObj t "_Atom".toList "X".toList = .ok "_atom.x".toList ∧ nameByCatObj t "atom".toList "u".toList = .ok "_atom_aniso.U".toList ∧
    nameByCatObj t "atom".toList "mass".toList = .ok "_atom_type.mass".toList ∧ nameByCatObj t "atom_type".toList "x".toList = .error .key :=
  ⟨⟨atom_readable, atom_described, atom_shallow⟩, _, rfl, by decide +kernel, by decide +kernel, by decide +kernel, by decide +kernel⟩

/-- C75 fails when looped categories are nested twice: of the categories in a category, only the last one gives names to the category above. -/
theorem C75_deep_fails : LoopChild deepDic "a".toList "ab".toList ∧ LoopChild deepDic "ab".toList "abc".toList ∧ LoopChild deepDic "ab".toList "abd".toList ∧
    OwnName deepDic "abc".toList "c".toList "_abc.c".toList ∧ OwnName deepDic "abd".toList "d".toList "_abd.d".toList ∧
    ∃ t, catObjTable deepDic = .ok t ∧ nameByCatObj t "a".toList "d".toList = .ok "_abd.d".toList ∧
      nameByCatObj t "a".toList "c".toList = .error .key := by
  have own : ∀ c o a, a ∈ deepDic.keys → scopeIs deepDic "Item".toList a = true → textIs (fun s => decide (lower s = lower c)) (got deepDic a catAttr) = true →
      textIs (fun s => decide (lower s = lower o)) (got deepDic a objAttr) = true → ∀ n, got deepDic a defIdAttr = some (.str n) → OwnName deepDic c o n := by
    intro c o a h1 h2 h3 h4 n h5
    obtain ⟨s, hs, e⟩ := textIs_iff.1 h3
    obtain ⟨s', hs', e'⟩ := textIs_iff.1 h4
    obtain ⟨b, hb, hh⟩ := attr_iff.2 hs
    exact ⟨a, ⟨h1, (item_iff deep_readable h1).2 h2, ⟨b, s, hb, hh, by simpa using e⟩, s', attr_iff.2 hs', by simpa using e'⟩, attr_iff.2 h5⟩
  refine ⟨deep_child (by decide +kernel), deep_child (by decide +kernel), deep_child (by decide +kernel), ?_, ?_, _, rfl, by decide +kernel, by decide +kernel⟩
  · exact own _ _ "_abc.c".toList (by decide +kernel) (by decide +kernel) (by decide +kernel) (by decide +kernel) _ (by decide +kernel)
  · exact own _ _ "_abd.d".toList (by decide +kernel) (by decide +kernel) (by decide +kernel) (by decide +kernel) _ (by decide +kernel)

/-- The sample meets the hypotheses of `C76_keys_partial`. -/
example : (Readable atomDic ∧ Keyed atomDic ∧ Shallow atomDic) ∧ ∃ t, catKeyTable atomDic = .ok t ∧
    dget t "atom".toList = some [[.str "_atom.id".toList], [.str "_atom_aniso.id".toList], [.str "_atom_type.id".toList]] ∧
    dget t "atom_type".toList = some [[.str "_atom_type.id".toList]] :=
  ⟨⟨atom_readable, atom_keyed, atom_shallow⟩, _, rfl, by decide +kernel, by decide +kernel⟩

/-- The other sample meets the hypotheses of `C76_nested_fails`. -/
example : catKeyTable deepDic = .error .type :=
  C76_nested_fails deep_readable deep_keyed (p := "a".toList) (c := "ab".toList) (c' := "abc".toList) (deep_child (by decide +kernel)) (deep_child (by decide +kernel))

/-- The sample meets the hypotheses of `C77_parents`, `C77_same` and `C77_equivs`. -/
example : (Readable deepDic ∧ LoopAcyclic deepDic ∧ (∀ c, LoopCat deepDic c → ∃ s, Attr deepDic c catAttr (.str s)) ∧ Present deepDic ∧ OwnKeys deepDic ∧
    Linkable deepDic) ∧ (∃ t, parentLookup deepDic = .ok t ∧ dget t "abc".toList = some "a".toList) ∧
    ∃ t, keyEquivs deepDic = .ok t ∧ equivsOf t "_abc.id".toList = ["_ab.id".toList, "_a.id".toList] ∧ equivsOf t "_a.id".toList = [] := by
  obtain ⟨h1, h2, h3⟩ := link_of deep_readable (by decide +kernel)
  exact ⟨⟨deep_readable, acyclic_of deep_readable (by decide +kernel), h1, present_of (by decide +kernel), h2, h3⟩, ⟨_, rfl, by decide +kernel⟩,
    _, rfl, by decide +kernel, by decide +kernel⟩

end Samples

/-- The name of an item is split into category, without underscores at its ends, and object. -/
theorem C75_split (c o : Str) (h1 : '.' ∉ c) (h2 : '.' ∉ o) (h3 : c.head? ≠ some '_') (h4 : c.getLast? ≠ some '_') :
    getCatObj ('_' :: c ++ '.' :: o) = .ok (c, o) ∧ getCatObj (c ++ '.' :: o) = .ok (c, o) := by
  have strip : ∀ l : Str, l.head? ≠ some '_' → l.dropWhile (· = '_') = l := by
    intro l hl
    cases l with
    | nil => rfl
    | cons x r =>
      rw [List.dropWhile_cons, if_neg]
      intro e
      exact hl (by rw [List.head?_cons, of_decide_eq_true e])
  have key : ∀ p : Str, '.' ∉ p → p.dropWhile (· = '_') = c → getCatObj (p ++ '.' :: o) = .ok (c, o) := by
    intro p hp hpc
    have hd : ∀ x ∈ p, decide (x ≠ '.') = true := by
      intro x hx
      rw [decide_eq_true_eq]
      rintro rfl
      exact hp hx
    unfold getCatObj
    rw [List.dropWhile_append_of_pos hd, List.takeWhile_append_of_pos hd]
    have e1 : ('.' :: o).dropWhile (fun x => decide (x ≠ '.')) = '.' :: o := by simp
    have e2 : ('.' :: o).takeWhile (fun x => decide (x ≠ '.')) = [] := by simp
    rw [e1, e2, List.append_nil]
    simp only [if_neg h2, hpc]
    rw [strip c.reverse (by rw [List.head?_reverse]; exact h4), List.reverse_reverse]
  refine ⟨?_, key c h1 (strip c h3)⟩
  refine key ('_' :: c) (by simp [h1]) ?_
  rw [List.dropWhile_cons, if_pos (by simp), strip c h3]

example : getCatObj "_atom_site.label".toList = .ok ("atom_site".toList, "label".toList) := (C75_split "atom_site".toList "label".toList (by decide) (by decide) (by decide) (by decide)).1

end Verif.CifDic
