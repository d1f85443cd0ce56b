import Verif.Lemmas.LoopTables
/-! # C76, C77: keys and parents of looped categories -/
set_option linter.unusedSectionVars false
namespace Verif.CifDic
open Validate
variable [CaseFold]

/-- **C76.** In a dictionary where looped categories are nested at most once, the table of keys is made. It has an entry for each looped category and
no others: first the key of the category, then those of the looped categories in it, one for each.
Partial: missing are dictionaries with looped categories nested more than once, for which no table is made (`C76_nested_fails`). -/
theorem C76_keys_partial {d : CifDic} (h : Readable d) (hk : Keyed d) (hs : Shallow d) : ∃ t, catKeyTable d = .ok t ∧
    (∀ c, c ∈ dkeys t ↔ LoopCat d c) ∧
    ∀ c, LoopCat d c → ∃ own cs rest, dget t c = some (own :: rest) ∧ KeyOf d c own ∧ cs.Nodup ∧ (∀ x, x ∈ cs ↔ LoopChild d c x) ∧
      Matched (KeyOf d) cs rest := by
  obtain ⟨es, h1, h2, h3⟩ := ownKeys_ok h hk
  have hcol : ∀ q ∈ loopTree d, ∃ ks, collectKeys d (loopTree d) q.2 = .ok ks ∧ Matched (KeyOf d) q.2 ks := by
    rintro ⟨p, cs⟩ hq
    obtain ⟨i1, i2, i3⟩ := (mem_loopTree h).1 hq
    have hcs : ∀ c ∈ cs, LoopChild d p c := fun c hc => (mem_loopKids h i1).1 (by rw [← i2]; exact hc)
    exact collectKeys_ok h hk (fun c hc => (hcs c hc).2.1) (fun c hc hm => by
      obtain ⟨c', hc'⟩ := (mem_keys_loopTree h).1 hm
      exact hs p c c' (hcs c hc) hc')
  obtain ⟨t, g1, g2, g3⟩ := addKeys_ok (d := d) (ex := loopTree d) (loopTree d) (dupdate [] es) (nodup_loopTree h)
    (fun q hq => (hcol q hq).imp fun _ h => h.1) (fun q hq => (h2 _).2 ((mem_loopTree h).1 hq).1)
  have hent : ∀ c, LoopCat d c → ∃ own cs rest, dget t c = some (own :: rest) ∧ KeyOf d c own ∧ cs.Nodup ∧ (∀ x, x ∈ cs ↔ LoopChild d c x) ∧
      Matched (KeyOf d) cs rest := by
    intro c hc
    obtain ⟨l, hl⟩ := dget_isSome.2 ((h2 c).2 hc)
    obtain ⟨own, rfl, hown⟩ := h3 c l hl
    by_cases hm : c ∈ dkeys (loopTree d)
    · have hq : (c, loopKids d c) ∈ loopTree d := by
        obtain ⟨x, hx⟩ := (mem_keys_loopTree h).1 hm
        exact (mem_loopTree h).2 ⟨hc, rfl, List.ne_nil_of_mem ((mem_loopKids h hc).2 hx)⟩
      obtain ⟨ks, k1, k2⟩ := hcol _ hq
      refine ⟨own, loopKids d c, ks, ?_, hown, ?_, fun x => mem_loopKids h hc, k2⟩
      · exact g3 _ hq ks [own] k1 hl
      · unfold loopKids kids
        split
        · exact (h.nodup.filter _).filter _
        · simp
    · refine ⟨own, [], [], by rw [g2 c hm, hl], hown, by simp, ?_, .nil⟩
      intro x
      constructor
      · intro hx; cases hx
      · intro hx; exact absurd ((mem_keys_loopTree h).2 ⟨x, hx⟩) hm
  refine ⟨t, ?_, ?_, hent⟩
  · unfold catKeyTable
    simp only [loopable_eq h, h1, expandList_eq h]
    exact g1
  · intro c
    constructor
    · intro hm
      by_cases hl : c ∈ dkeys (loopTree d)
      · exact ((mem_keys_loopTree h).1 hl).elim fun _ hx => hx.1
      · obtain ⟨v, hv⟩ := dget_isSome.2 hm
        rw [g2 c hl] at hv
        exact (h2 c).1 (dget_isSome.1 ⟨v, hv⟩)
    · intro hc
      obtain ⟨own, _, rest, hg, _⟩ := hent c hc
      exact dget_isSome.1 ⟨_, hg⟩

/-- Making the table of keys fails with a TypeError for every dictionary with looped categories nested more than once: `collect_keys` calls itself
without its second argument. -/
theorem C76_nested_fails {d : CifDic} (h : Readable d) (hk : Keyed d) {p c c' : Str} (h1 : LoopChild d p c) (h2 : LoopChild d c c') :
    catKeyTable d = .error .type := by
  obtain ⟨es, e1, e2, _⟩ := ownKeys_ok h hk
  have hloop : ∀ q ∈ loopTree d, ∀ c ∈ q.2, LoopCat d c := by
    rintro ⟨p, cs⟩ hq c hc
    obtain ⟨i1, i2, i3⟩ := (mem_loopTree h).1 hq
    exact ((mem_loopKids h i1).1 (by rw [← i2]; exact hc)).2.1
  unfold catKeyTable
  simp only [loopable_eq h, e1, expandList_eq h]
  refine addKeys_type (loopTree d) _ ?_ (fun q hq => (e2 _).2 ((mem_loopTree h).1 hq).1) ?_
  · intro q hq
    by_cases hx : ∃ x ∈ q.2, x ∈ dkeys (loopTree d)
    · exact .inr (collectKeys_type h hk (hloop q hq) hx)
    · obtain ⟨ks, hks, _⟩ := collectKeys_ok h hk (hloop q hq) (fun x hx' hm => hx ⟨x, hx', hm⟩)
      exact .inl ⟨ks, hks⟩
  · have hm := (mem_loopKids h h1.1).2 h1
    have hq : (p, loopKids d p) ∈ loopTree d := (mem_loopTree h).2 ⟨h1.1, rfl, List.ne_nil_of_mem hm⟩
    exact ⟨_, hq, collectKeys_type h hk (hloop _ hq) ⟨c, hm, (mem_keys_loopTree h).2 ⟨c', h2⟩⟩⟩

/-- **C77.** If no looped category is below itself and every looped category names its category, the table of parents is made. It has an entry for each
looped category and no others: the topmost looped category at or above it. -/
theorem C77_parents {d : CifDic} (h : Readable d) (ha : LoopAcyclic d) (hl : ∀ c, LoopCat d c → ∃ s, Attr d c catAttr (.str s)) :
    ∃ t, parentLookup d = .ok t ∧ (∀ c, c ∈ dkeys t ↔ LoopCat d c ∧ IsCategory d c) ∧ ∀ c r, dget t c = some r → TopOf d c r := by
  have hone : ∀ c ∈ (d.keys.filter (isCat d)).filter (loopIs d), ∃ r, topLoop d c = .ok (c, r) ∧ TopOf d c r := by
    intro c hc
    obtain ⟨hcl, _⟩ := (mem_loopedCats h).1 hc
    obtain ⟨s, hs⟩ := hl c hcl
    obtain ⟨r, h1, h2⟩ := climb_ok h ha hl (d.table.length + 2) c s [c] hcl hs (by simp)
      (by intro v hv; rw [List.mem_singleton] at hv; subst hv; exact ⟨hcl.1, .inl rfl⟩) (by
        have : d.keys.length = d.table.length := by unfold keys dkeys; rw [List.length_map]
        simp only [List.length_singleton]
        omega)
    refine ⟨r, ?_, h2⟩
    unfold topLoop
    simp only [hs.textI, h1]
  obtain ⟨es, h1, h2⟩ := mapE_exists (f := topLoop d) (fun c hc => (hone c hc).elim fun r hr => ⟨(c, r), hr.1⟩)
  have hmem : ∀ c r, (c, r) ∈ es → (LoopCat d c ∧ IsCategory d c) ∧ TopOf d c r := by
    intro c r hm
    obtain ⟨a, ha', e⟩ := (h2 _).1 hm
    obtain ⟨r', e', ht⟩ := hone a ha'
    rw [e'] at e
    injection e with e
    injection e with e3 e4
    subst e3 e4
    exact ⟨(mem_loopedCats h).1 ha', ht⟩
  refine ⟨dupdate [] es, ?_, ?_, ?_⟩
  · unfold parentLookup
    simp only [loopedCats_eq h, h1]
  · intro c
    rw [dup_keys]
    constructor
    · rintro (hm | hm)
      · obtain ⟨r, hr⟩ := dget_isSome.2 hm
        exact (hmem c r (dget_mem hr)).1
      · cases hm
    · intro hc
      have hc := (mem_loopedCats h).2 hc
      obtain ⟨r, e, _⟩ := hone c hc
      exact .inl (mem_dkeys ((h2 (c, r)).2 ⟨c, hc, e⟩))
  · intro c r hr
    rcases dup_get hr with hm | hm
    · exact (hmem c r hm).2
    · cases hm

/-- Two looped categories have the same parent in the table exactly if some looped category is at or above both. -/
theorem C77_same {d : CifDic} (h : Readable d) {t : Dict Str Str} {c c' r r' : Str} (ht : ∀ c r, dget t c = some r → TopOf d c r)
    (hc : dget t c = some r) (hc' : dget t c' = some r') : r = r' ↔ ∃ x, AtOrAbove d x c ∧ AtOrAbove d x c' := by
  have h1 := ht c r hc
  have h2 := ht c' r' hc'
  constructor
  · rintro rfl
    exact ⟨r, h1.1, h2.1⟩
  · rintro ⟨x, hx, hx'⟩
    have top : ∀ {c r}, TopOf d c r → AtOrAbove d x c → AtOrAbove d r x := by
      intro c r ht hx
      rcases above_linear h ht.1 hx with h3 | h3
      · exact h3
      · exact .inl (top_above ht.2 h3).symm
    exact topOf_unique h (c := x) ⟨top h1 hx, h1.2⟩ ⟨top h2 hx', h2.2⟩

/-- **C77.** If moreover the keys of each looped category are its own items, and are linked to the keys of the looped category it is in, the table of
equivalent keys is made. It gives for each key of a looped category the keys reached by following the links up, nearest first. -/
theorem C77_equivs {d : CifDic} (h : Readable d) (hp : Present d) (ha : LoopAcyclic d) (ho : OwnKeys d) (hk : Linkable d) :
    ∃ t, keyEquivs d = .ok t ∧ (∀ c k, LoopCat d c → IsCategory d c → KeyName d c k → Equivs d k (equivsOf t k)) ∧
      ∀ k ∈ dkeys t, ∃ c, LoopCat d c ∧ IsCategory d c ∧ KeyName d c k := by
  have hm : ∀ c ∈ (d.keys.filter (isCat d)).filter (loopIs d), LoopCat d c ∧ IsCategory d c := fun c hc => (mem_loopedCats h).1 hc
  obtain ⟨t, ht⟩ := followAll_total h hp ho hk ha _ [] hm
  obtain ⟨g1, _, g3⟩ := followAll_ok h hp ho _ [] t ((h.nodup.filter _).filter _) hm (fun _ _ _ _ => rfl) ht
  refine ⟨t, ?_, ?_, ?_⟩
  · unfold keyEquivs
    simp only [loopedCats_eq h, ht]
  · intro c k hc hcc hkn
    exact g1 c ((mem_loopedCats h).2 ⟨hc, hcc⟩) k hkn
  · intro k hkk
    rcases g3 k hkk with hx | ⟨c, hc, hkn⟩
    · cases hx
    · exact ⟨c, (hm c hc).1, (hm c hc).2, hkn⟩

/-- A key is equivalent to one list of keys only. -/
theorem Equivs.unique {d : CifDic} {k : Str} {r r' : List Str} (h1 : Equivs d k r) (h2 : Equivs d k r') : r = r' := by
  induction h1 generalizing r' with
  | top ha hn =>
    cases h2 with
    | top => rfl
    | up ha' hp hpc hin _ _ _ =>
      have := ha.unique ha'
      injection this with this
      subst this
      exact absurd hin (hn _ hp hpc)
  | up ha hp hpc hin hl _ _ ih =>
    cases h2 with
    | top ha' hn =>
      have := ha.unique ha'
      injection this with this
      subst this
      exact absurd hin (hn _ hp hpc)
    | up _ _ _ _ hl' _ hr' =>
      have := hl.unique hl'
      injection this with this
      subst this
      rw [ih hr']

end Verif.CifDic
