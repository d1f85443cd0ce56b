import Verif.Lemmas.CatTable
/-! # C75: names by category and object -/
set_option linter.unusedSectionVars false
namespace Verif.CifDic
open Validate
variable [CaseFold]

/-- The key under which a category is looked up. -/
theorem nameBy_eq {t : NameTable} {category c o : Str} {g : Bool} (h : Spells category c) :
    nameByCatObj t category o g = match dget t (lower c, lower o) with
      | some (n :: _) => .ok n
      | some [] => .error .index
      | none => if g then .ok ('_' :: lower c ++ '.' :: o) else .error .key := by
  obtain ⟨_, rfl | ⟨rfl, hne, hh⟩⟩ := h
  · rfl
  · obtain ⟨x, r, rfl⟩ := List.exists_cons_of_ne_nil hne
    have : x ≠ '_' := fun e => hh (by rw [e]; rfl)
    unfold nameByCatObj
    simp only [if_neg this]
    rfl

theorem ownName_of {d : CifDic} (h : Readable d) {c o a n s : Str} (hc : lower c ≠ []) (ha : a ∈ d.keys) (hi : ItemDef d a)
    (hcat : catOf d a = lower c) (hs : Attr d a objAttr (.str s)) (e : lower s = lower o) (hn : Attr d a defIdAttr (.str n)) : OwnName d c o n := by
  obtain ⟨b, hb, hp⟩ := h.found a ha
  exact ⟨a, ⟨ha, hi, (inCategory_iff hb hp hc).2 hcat, ⟨s, hs, e⟩⟩, hn⟩

/-- **C75.** In a dictionary where looped categories are nested at most once, the table of names is made, and looking up a category (in any case,
with or without an underscore at the start) and an object gives the name of an item of that category with that object if there is one, otherwise
the name of an item with that object in one of the looped categories in it which is not a key; if there is none of these, a KeyError, or the
usual name if a default is asked for.
Partial: missing are dictionaries with looped categories nested more than once, where names are lost (`C75_deep_fails`). -/
theorem C75_names_partial {d : CifDic} (h : Readable d) (hd : Described d) (hs : Shallow d) : ∃ t, catObjTable d = .ok t ∧
    ∀ category c o, Spells category c →
      (∀ n g, (∃ n', OwnName d c o n') → nameByCatObj t category o g = .ok n → OwnName d c o n) ∧
      (∀ n g, (¬ ∃ n', OwnName d c o n') → (∃ n', ChildName d c o n') → nameByCatObj t category o g = .ok n → ChildName d c o n) ∧
      (∀ g, (∃ n', OwnName d c o n' ∨ ChildName d c o n') → ∃ n, nameByCatObj t category o g = .ok n) ∧
      ((¬ ∃ n', OwnName d c o n' ∨ ChildName d c o n') → nameByCatObj t category o = .error .key ∧
        nameByCatObj t category o true = .ok ('_' :: lower c ++ '.' :: o)) := by
  obtain ⟨base, hb, hb1, hb2, hbn⟩ := baseTable_ok h hd
  obtain ⟨extra, he, he1, _, he2⟩ := expandAll_ok h hd hs (d.table.length + 1) (loopTree d) [] (fun _ h => h) (fun _ _ _ hm => by cases hm)
  refine ⟨joinTables base extra, ?_, ?_⟩
  · unfold catObjTable
    simp only [hb, expandList_eq h]
    rw [he]
  · intro category c o hsp
    have hc := hsp.1
    have hown : ∀ l, dget base (lower c, lower o) = some l → ∃ n, l = [n] ∧ OwnName d c o n := by
      intro l hl
      obtain ⟨a, n, s, i1, i2, i3, i4, i5, i6, i7⟩ := hb1 _ _ _ (dget_mem hl)
      exact ⟨n, i7, ownName_of h hc i1 i2 i3 i4 i5 i6⟩
    have hownk : (∃ n', OwnName d c o n') → ∃ l, dget base (lower c, lower o) = some l := by
      rintro ⟨n', a, ⟨i1, i2, i3, s, i4, i5⟩, _⟩
      obtain ⟨b, hbb, hp⟩ := h.found a i1
      have := hb2 a s i1 i2 i4
      rw [(inCategory_iff hbb hp hc).1 i3, i5] at this
      exact dget_isSome.2 this
    have hnk : (¬ ∃ n', OwnName d c o n') → (lower c, lower o) ∉ dkeys base := by
      intro hn hm
      obtain ⟨l, hl⟩ := dget_isSome.2 hm
      obtain ⟨n, _, ho⟩ := hown l hl
      exact hn ⟨n, ho⟩
    have hch : ∀ l, ((lower c, lower o), l) ∈ extra → ∃ n, l = [n] ∧ ChildName d c o n := by
      intro l hl
      obtain ⟨c', a, s, n, i1, i2, i3, i4, i5, i6, i7, i8, i9⟩ := he1 _ _ _ hl
      exact ⟨n, i9, c', a, i1, ⟨i2, i3, i4, s, i6, i7⟩, i5, i8⟩
    have hchk : (∃ n', ChildName d c o n') → (lower c, lower o) ∈ dkeys extra := by
      rintro ⟨n', c', a, i1, ⟨j1, j2, j3, s, j4, j5⟩, i3, i4⟩
      have := he2 (lower c, loopKids d (lower c)) ((mem_loopTree h).2 ⟨i1.1, rfl, List.ne_nil_of_mem ((mem_loopKids h i1.1).2 i1)⟩) c'
        ((mem_loopKids h i1.1).2 i1) a s j1 j2 j3 i3 j4
      rw [j5] at this
      exact this
    have A : ∀ g, (∃ n', OwnName d c o n') → ∃ n, nameByCatObj (joinTables base extra) category o g = .ok n ∧ OwnName d c o n := by
      intro g hex
      obtain ⟨l, hl⟩ := hownk hex
      obtain ⟨n, rfl, ho⟩ := hown l hl
      obtain ⟨r, hr⟩ := join_own (extra := extra) hl
      refine ⟨n, ?_, ho⟩
      rw [nameBy_eq hsp, hr]
      rfl
    have B : ∀ g, (¬ ∃ n', OwnName d c o n') → (∃ n', ChildName d c o n') →
        ∃ n, nameByCatObj (joinTables base extra) category o g = .ok n ∧ ChildName d c o n := by
      intro g hno hex
      obtain ⟨j1, j2⟩ := join_extra (extra := extra) (hnk hno)
      obtain ⟨l, hl⟩ := j2 (hchk hex)
      obtain ⟨n, rfl, ho⟩ := hch l (j1 l hl)
      refine ⟨n, ?_, ho⟩
      rw [nameBy_eq hsp, hl]
    refine ⟨?_, ?_, ?_, ?_⟩
    · intro n g hex hn
      obtain ⟨n', h1, h2⟩ := A g hex
      rw [hn] at h1
      injection h1 with h1
      subst h1
      exact h2
    · intro n g hno hex hn
      obtain ⟨n', h1, h2⟩ := B g hno hex
      rw [hn] at h1
      injection h1 with h1
      subst h1
      exact h2
    · rintro g ⟨n', hn'⟩
      by_cases hex : ∃ n', OwnName d c o n'
      · obtain ⟨n, h1, _⟩ := A g hex
        exact ⟨n, h1⟩
      · rcases hn' with hn' | hn'
        · exact absurd ⟨n', hn'⟩ hex
        · obtain ⟨n, h1, _⟩ := B g hex ⟨n', hn'⟩
          exact ⟨n, h1⟩
    · intro hno
      have hno1 : ¬ ∃ n', OwnName d c o n' := fun ⟨n', h⟩ => hno ⟨n', .inl h⟩
      have : dget (joinTables base extra) (lower c, lower o) = none := by
        cases e : dget (joinTables base extra) (lower c, lower o) with
        | none => rfl
        | some l =>
          obtain ⟨n, _, h2⟩ := hch l ((join_extra (hnk hno1)).1 l e)
          exact absurd ⟨n, .inr h2⟩ hno
      rw [nameBy_eq hsp, nameBy_eq hsp, this]
      exact ⟨rfl, rfl⟩

end Verif.CifDic
