import Verif.Lemmas.Ddl2
/-! # C83: opening DDL2 dictionaries -/
set_option linter.unusedSectionVars false
namespace Verif.Ddl2
open CifDic Validate
variable [CaseFold]

/-- C83 in part: a dictionary whose definitions each name one item or category as a text, all of them different, and that gives no
aliases, can be opened. It lists exactly these names in lower case; a name written in any capitals finds the definition as it stands in
the file; all blocks are kept.
Missing: definitions that list several names, aliases (neither can be opened, see below), and the links between parents and children,
which are not completed. -/
theorem C83_opened_partial {c : Coll} (hc : c.Consistent) (ht : Texts c .ddl2)
    (hu : ∀ k k' s s', Names c .ddl2 k s → Names c .ddl2 k' s' → lower s = lower s' → k = k')
    (ha : ∀ k ∈ c.keys, ∀ b, c.getItem k = .ok b → b.contains "_item_aliases.alias_name".toList = false) :
    ∃ d, load c = .ok d ∧ d.coll = c ∧ d.keys.Nodup ∧
      (∀ x, x ∈ d.keys ↔ ∃ k s, Names c .ddl2 k s ∧ ¬ Outer c .ddl2 k ∧ lower s = x) ∧
      ∀ k s, Names c .ddl2 k s → ¬ Outer c .ddl2 k → ∀ name, lower name = lower s →
        ∃ b, c.getItem k = .ok b ∧ d.getItem name = .ok b ∧ d.contains name = true := by
  have hd : ∃ t, defTable c .ddl2 = .ok t := by
    rcases C54_duplicates hc ht with ⟨⟨k, k', s, hne, h1, h2⟩, _⟩ | ⟨_, h⟩
    · exact absurd (hu k k' s s h1 h2 rfl) hne
    · exact h
  obtain ⟨t, htab⟩ := hd
  have hsel : select (hasAlias ⟨c, t, .ddl2, []⟩) (dkeys t) = .ok [] := by
    rw [select_ok (p := fun _ => false)]
    · rw [List.filter_eq_nil_iff.2 fun _ _ => Bool.false_ne_true]
    · intro x hx
      obtain ⟨k, hk, b, hb, hg⟩ := key_get hc ht htab hx
      have e : b.contains aliasAttr = false := ha k hk b hb
      simp only [hasAlias, hg, e]
  have hl : load c = .ok ⟨c, t, .ddl2, []⟩ := by
    have hk : CifDic.keys ⟨c, t, .ddl2, []⟩ = dkeys t := rfl
    simp only [load, htab, normalise, hk, untangle_stay hc ht htab, seq, CifDic.read, hsel, each]
  have hkeys := C54_keys (i := []) hc ht htab
  refine ⟨_, hl, rfl, hkeys.1, hkeys.2, fun k s hk ho name hn => ?_⟩
  obtain ⟨h1, ⟨b, hb⟩, h3⟩ := C54_found_partial (i := []) hc ht htab hk ho
    (fun k' s' hk' _ e => hu k' k s' s hk' hk e) name hn
  exact ⟨b, hb, h1.trans hb, h3⟩

/-- C83 fails for every dictionary with a definition that lists several item names and is not that of a category: it cannot be
opened. -/
theorem C83_listed_fails {c : Coll} {k : Str} {b : Block} {l : List PyVal} (hk : k ∈ c.keys) (hb : c.getItem k = .ok b)
    (hc : b.contains "_category.id".toList = false) (hn : Has b "_item.name".toList (.list l)) :
    ∃ e, load c = .error e := by
  unfold load
  suffices h : ∃ e, defTable c .ddl2 = .error e by
    obtain ⟨e, h⟩ := h
    exact ⟨e, by rw [h]⟩
  unfold defTable
  cases hp : protoTable c .ddl2 with
  | error e => exact ⟨e, rfl⟩
  | ok proto =>
    have : (PyVal.list l, k) ∈ proto := by
      unfold protoTable at hp
      obtain ⟨v, hv, hf⟩ := mapE_reached hp _ hk
      have hd : defId .ddl2 b k = .ok (.list l) := by
        have h1 : getD b (defIdSpec .ddl2) (.str k) = .ok (.list l) := getD_has hn
        have h2 : getD b (catIdSpec .ddl2) (.list l) = .ok (.list l) := getD_not hc
        simp only [defId, h1, h2]
      simp only [hb, hd, Except.ok.injEq] at hf
      exact hf ▸ hv
    have ha : (proto.any fun a => !hashable a.1) = true := List.any_eq_true.2 ⟨_, this, rfl⟩
    exact ⟨.type, by simp only [ha, if_true]⟩

/-- C83 fails for every dictionary with an alias, unless some block holds the DDLm attribute `_definition.id`: it cannot be opened. -/
theorem C83_aliases_fails {c : Coll} (hc : c.Consistent) (hs : c.standard ≠ none) (ht : Texts c .ddl2)
    (hu : ∀ k k' s s', Names c .ddl2 k s → Names c .ddl2 k' s' → lower s = lower s' → k = k')
    (hd : ∀ k ∈ c.lowerKeys, ∀ b, c.getItem k = .ok b → b.contains "_definition.id".toList = false)
    {k s : Str} {b : Block} {v : PyVal} (hk : Names c .ddl2 k s) (ho : ¬ Outer c .ddl2 k) (hb : c.getItem k = .ok b)
    (hv : Has b "_item_aliases.alias_name".toList v) (ha : (∃ a, v = .str a) ∨ ∃ a l, v = .list (a :: l)) :
    ∃ e, load c = .error e := by
  rcases C54_duplicates hc ht with ⟨_, h⟩ | ⟨_, t, htab⟩
  · exact ⟨.cif, by rw [load, h]⟩
  · have hno : NoId c := by
      rintro ⟨x, e⟩ hx
      have hxm : x ∈ c.lowerKeys := (hc.mem_dict x).1 (mem_dkeys hx)
      refine hd x hxm e ?_
      rw [Coll.getItem, hc.lower_keys x hxm, if_pos hxm, dget_of_mem hc.nd_dict hx]
    obtain ⟨b', hb', hg, _⟩ : ∃ b', c.getItem k = .ok b' ∧ CifDic.getItem ⟨c, t, .ddl2, []⟩ (lower s) = .ok b' ∧ True := by
      obtain ⟨h1, ⟨b', hb'⟩, _⟩ := C54_found_partial (i := []) hc ht htab hk ho
        (fun k' s' hk' _ e => hu k' k s' s hk' hk e) (lower s) (CaseFold.lower_lower s)
      exact ⟨b', hb', h1.trans hb', trivial⟩
    rw [hb] at hb'
    injection hb' with hb'
    subst hb'
    have hin : lower s ∈ dkeys t := ((C54_keys (i := []) hc ht htab).2 (lower s)).2 ⟨k, s, hk, ho, rfl⟩
    have hatt : attrI ⟨c, t, .ddl2, []⟩ (lower s) aliasAttr = .ok v := by
      simp only [attrI, hg]
      exact hv.2
    have hlist : ∃ l, listed v = .ok l ∧ l ≠ [] := by
      rcases ha with ⟨a, rfl⟩ | ⟨a, l, rfl⟩
      · exact ⟨[.str a], rfl, by simp⟩
      · exact ⟨a :: l, rfl, by simp⟩
    obtain ⟨l, hl, hne⟩ := hlist
    have hsel : ∃ q, select (hasAlias ⟨c, t, .ddl2, []⟩) (dkeys t) = .ok q ∧ lower s ∈ q := by
      refine ⟨_, select_ok (p := fun x => match hasAlias ⟨c, t, .ddl2, []⟩ x with | .ok r => r | .error _ => false) ?_, ?_⟩
      · intro x hx
        obtain ⟨_, _, b', _, hg'⟩ := key_get hc ht htab hx
        simp only [hasAlias, hg']
      · rw [List.mem_filter]
        refine ⟨hin, ?_⟩
        simp only [hasAlias, hg]
        exact hv.1
    obtain ⟨q, hq, hsq⟩ := hsel
    obtain ⟨d', e, he⟩ := each_raise (f := aliasDef) (d := ⟨c, t, .ddl2, []⟩) (k := lower s) (l := q)
      (fun x _ => aliasDef_cases x hno rfl hs) hsq (aliasDef_raises hno rfl hs hatt hl hne)
    have hkk : CifDic.keys ⟨c, t, .ddl2, []⟩ = dkeys t := rfl
    exact ⟨e, by simp only [load, htab, normalise, hkk, untangle_stay hc ht htab, seq, CifDic.read, hq, he]⟩

end Verif.Ddl2
