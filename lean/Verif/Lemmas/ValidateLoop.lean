import Verif.Lemmas.ValidateRel
/-! # Lemmas about checks of loops and blocks -/
namespace Verif
namespace Validate
open Spec
set_option linter.unusedSectionVars false
variable [CaseFold]

theorem present_iff {wb : Block} {n : Str} : wb.contains n = true ↔ Present wb n := by
  simp [Block.contains, Present]

theorem blockScope_is {wb : Block} {s : Str} (h : ScopeIs wb s) : blockScope wb = .ok s := by
  rcases h with ⟨h1, rfl, ⟨v, h2⟩ | h2⟩ | ⟨h1, h2⟩ | ⟨h1, h2, rfl⟩
  · simp only [blockScope, attr_some h2, bind, Except.bind, h1, if_true]
  · simp only [blockScope, attr_none h2, bind, Except.bind, h1, if_true]
  · simp only [blockScope, attr_some h2, bind, Except.bind, h1, Bool.false_eq_true, if_false]
  · simp only [blockScope, attr_none h2, bind, Except.bind, h1, Bool.false_eq_true, if_false]

theorem mapE_exists {α β : Type} {f : α → Except PyErr β} : ∀ {l : List α}, (∀ a ∈ l, ∃ y, f a = .ok y) →
    ∃ ys, mapE f l = .ok ys ∧ ∀ y, y ∈ ys ↔ ∃ a ∈ l, f a = .ok y
  | [], _ => ⟨[], rfl, by simp⟩
  | a :: r, h => by
    obtain ⟨y, hy⟩ := h a List.mem_cons_self
    obtain ⟨ys, h1, h2⟩ := mapE_exists (fun b hb => h b (List.mem_cons_of_mem _ hb))
    refine ⟨y :: ys, by simp only [mapE, hy, h1], ?_⟩
    intro z
    rw [List.mem_cons, h2]
    constructor
    · rintro (rfl | ⟨b, hb, hz⟩)
      · exact ⟨a, List.mem_cons_self, hy⟩
      · exact ⟨b, List.mem_cons_of_mem _ hb, hz⟩
    · rintro ⟨b, hb, hz⟩
      rcases List.mem_cons.1 hb with rfl | hb
      · rw [hy] at hz
        injection hz with hz
        exact .inl hz.symm
      · exact .inr ⟨b, hb, hz⟩

theorem mandatory_run {D : Dic}
    (hk : ∀ k ∈ D.keys, ∃ b, D.find k = some b ∧ (b.getItem "_category.mandatory_code".toList = .error .key ∨
      ∃ v, b.getItem "_category.mandatory_code".toList = .ok v ∧
        (v = .str "yes".toList → ∃ c, b.getItem "_category.id".toList = .ok c))) :
    ∃ mand, mapE (mandatoryCat D) D.keys = .ok mand ∧ ∀ c, c ∈ mand.flatten ↔ ∃ k ∈ D.keys, MandatoryIs D k c := by
  have hone : ∀ k ∈ D.keys, ∃ l, mandatoryCat D k = .ok l ∧ ∀ c, c ∈ l ↔ MandatoryIs D k c := by
    intro k hkk
    obtain ⟨b, hb, h | ⟨v, h, hv⟩⟩ := hk k hkk
    · refine ⟨[], ?_, ?_⟩
      · simp only [mandatoryCat, getDef, hb, attr_none h, bind, Except.bind]
      · intro c
        refine iff_of_false (by simp) ?_
        rintro ⟨b', hb', h', -⟩
        rw [hb] at hb'
        injection hb' with hb'
        subst hb'
        rw [h] at h'
        cases h'
    · by_cases hy : v = .str "yes".toList
      · obtain ⟨c, hc⟩ := hv hy
        refine ⟨[c], ?_, ?_⟩
        · simp only [mandatoryCat, getDef, hb, attr_some h, bind, Except.bind, if_pos hy, need, attr_some hc]
        · intro d
          rw [List.mem_singleton]
          constructor
          · rintro rfl
            exact ⟨b, hb, by rw [h, hy], hc⟩
          · rintro ⟨b', hb', -, h'⟩
            rw [hb] at hb'
            injection hb' with hb'
            subst hb'
            rw [hc] at h'
            injection h' with h'
            exact h'.symm
      · refine ⟨[], ?_, ?_⟩
        · simp only [mandatoryCat, getDef, hb, attr_some h, bind, Except.bind, if_neg hy]
        · intro c
          refine iff_of_false (by simp) ?_
          rintro ⟨b', hb', h', -⟩
          rw [hb] at hb'
          injection hb' with hb'
          subst hb'
          rw [h] at h'
          injection h' with h'
          exact hy h'
  obtain ⟨ys, h1, h2⟩ := mapE_exists (f := mandatoryCat D) (l := D.keys) (fun k hkk => ⟨_, (hone k hkk).choose_spec.1⟩)
  refine ⟨ys, h1, ?_⟩
  intro c
  rw [List.mem_flatten]
  constructor
  · rintro ⟨l, hl, hc⟩
    obtain ⟨k, hkk, hkl⟩ := (h2 l).1 hl
    obtain ⟨l', hl', h3⟩ := hone k hkk
    rw [hkl] at hl'
    injection hl' with hl'
    subst hl'
    exact ⟨k, hkk, (h3 c).1 hc⟩
  · rintro ⟨k, hkk, hm⟩
    obtain ⟨l, hl, h3⟩ := hone k hkk
    exact ⟨l, (h2 l).2 ⟨k, hkk, hl⟩, (h3 c).2 hm⟩

theorem itemCat_run {D : Dic} {names : List Str}
    (hw : ∀ n ∈ names, ∃ b, D.find n = some b ∧ (b.getItem D.names.cat = .error .key ∨ ∃ c, b.getItem D.names.cat = .ok c)) :
    ∃ cats, mapE (itemCat D) names = .ok cats ∧
      ∀ c, some c ∉ cats ↔ ¬ ∃ n ∈ names, ∃ b, D.find n = some b ∧ b.getItem D.names.cat = .ok c := by
  have hone : ∀ n ∈ names, ∃ o, itemCat D n = .ok o ∧ ∀ c, o = some c ↔ ∃ b, D.find n = some b ∧ b.getItem D.names.cat = .ok c := by
    intro n hn
    obtain ⟨b, hb, h | ⟨c, h⟩⟩ := hw n hn
    · refine ⟨none, by simp only [itemCat, getDef, hb, bind, Except.bind, attr_none h], ?_⟩
      intro c
      refine iff_of_false (by simp) ?_
      rintro ⟨b', hb', h'⟩
      rw [hb] at hb'
      injection hb' with hb'
      subst hb'
      rw [h] at h'
      cases h'
    · refine ⟨some c, by simp only [itemCat, getDef, hb, bind, Except.bind, attr_some h], ?_⟩
      intro d
      constructor
      · intro hd
        injection hd with hd
        subst hd
        exact ⟨b, hb, h⟩
      · rintro ⟨b', hb', h'⟩
        rw [hb] at hb'
        injection hb' with hb'
        subst hb'
        rw [h] at h'
        injection h' with h'
        rw [h']
  obtain ⟨ys, h1, h2⟩ := mapE_exists (f := itemCat D) (l := names) (fun k hkk => ⟨_, (hone k hkk).choose_spec.1⟩)
  refine ⟨ys, h1, ?_⟩
  intro c
  apply not_congr
  rw [h2]
  constructor
  · rintro ⟨n, hn, h⟩
    obtain ⟨o, ho, h3⟩ := hone n hn
    rw [h] at ho
    injection ho with ho
    exact ⟨n, hn, (h3 c).1 ho.symm⟩
  · rintro ⟨n, hn, h⟩
    obtain ⟨o, ho, h3⟩ := hone n hn
    exact ⟨n, hn, by rw [ho, (h3 c).2 h]⟩

/-! ## Final categories -/

theorem categoryIs_run {D : Dic} {n c : Str} (h : CategoryIs D n c) : category D n = .ok (lower c) := by
  obtain ⟨b, hb, hc⟩ := h
  simp only [category, hb, attr_some hc]

theorem finalIs_unique {D : Dic} {n f g : Str} (h : FinalIs D n f) (h' : FinalIs D n g) : f = g := by
  obtain ⟨c, hc, h1⟩ := h
  obtain ⟨d, hd, h2⟩ := h'
  have := (categoryIs_run hc).symm.trans (categoryIs_run hd)
  injection this with this
  rw [this, h2] at h1
  injection h1 with h1
  exact h1.symm

theorem finalCats_run {D : Dic} {names : List Str} {fin : Str → Str} (hf : ∀ n ∈ names, FinalIs D n (fin n)) :
    finalCats D names = .ok (names.map fin) := by
  have key : ∀ l : List Str, (∀ n ∈ l, FinalIs D n (fin n)) →
      ∃ cs, mapE (category D) l = .ok cs ∧ cs.filterMap (dget D.parentLookup) = l.map fin := by
    intro l
    induction l with
    | nil => intro _; exact ⟨[], rfl, rfl⟩
    | cons n r ih =>
      intro h
      obtain ⟨cs, h1, h2⟩ := ih (fun m hm => h m (List.mem_cons_of_mem _ hm))
      obtain ⟨c, hc, h3⟩ := h n List.mem_cons_self
      refine ⟨lower c :: cs, by simp only [mapE, categoryIs_run hc, h1], ?_⟩
      rw [List.filterMap_cons, h3, h2, List.map_cons]
  obtain ⟨cs, h1, h2⟩ := key names hf
  simp only [finalCats, h1, bind, Except.bind, h2]

/-- The outcome of the membership check for a list of final categories. -/
def membership : List Str → Outcome
  | [] => .good
  | f :: r =>
    if ((f :: r).filter fun a => decide (a ≠ f)) = [] then .good
    else .bad { items := some (((f :: r).filter fun a => decide (a ≠ f)).map .str) }

theorem membership_good {f : Str} {r : List Str} : membership (f :: r) = .good ↔ ∀ g ∈ r, g = f := by
  simp only [membership]
  split
  · rename_i h
    refine iff_of_true rfl ?_
    intro g hg
    have := List.filter_eq_nil_iff.1 h g (List.mem_cons_of_mem _ hg)
    simpa using this
  · rename_i h
    refine iff_of_false (by simp) ?_
    intro hall
    apply h
    rw [List.filter_eq_nil_iff]
    intro g hg
    rcases List.mem_cons.1 hg with rfl | hg
    · simp
    · simpa using hall g hg

theorem membership_bad {l : List Str} (h : membership l ≠ .good) :
    ∃ m : List Str, membership l = .bad { items := some (m.map .str) } ∧ m ≠ [] ∧ ∀ f ∈ m, f ∈ l := by
  cases l with
  | nil => exact absurd rfl h
  | cons f r =>
    simp only [membership] at h ⊢
    split at h
    · exact absurd rfl h
    · rename_i hn
      exact ⟨_, if_neg hn, hn, fun g hg => (List.mem_filter.1 hg).1⟩

/-! ## Keys -/

/-- The outcome of the key check for the first missing key. -/
def missingOutcome : Option PyVal → Outcome
  | none => .good
  | some k => .bad { items := some [k] }

theorem keyPresent_spec {D : Dic} {names : List Str} {k : Str}
    (hd : ∃ bk, D.find k = some bk ∧ ((∃ v, bk.getItem D.names.mustExist = .ok v) ∨ bk.getItem D.names.mustExist = .error .key))
    (ha : Alternates D k replacing []) :
    ∃ t, keyPresent D names (.str k) = .ok t ∧ (t = true ↔ k ∈ names ∨ Implicit D k) := by
  by_cases hk : k ∈ names
  · refine ⟨true, ?_, iff_of_true rfl (.inl hk)⟩
    rw [keyPresent, if_pos (by simpa [isIn] using hk)]
  · obtain ⟨bk, hb, hm⟩ := hd
    have hm' : ∃ m, attr bk D.names.mustExist = .ok m ∧ (m = some (.str "implicit".toList) ↔ Implicit D k) := by
      rcases hm with ⟨v, hv⟩ | hv
      · refine ⟨some v, attr_some hv, ?_⟩
        constructor
        · intro h
          injection h with h
          exact ⟨bk, hb, by rw [hv, h]⟩
        · rintro ⟨b', hb', h'⟩
          rw [hb] at hb'
          injection hb' with hb'
          subst hb'
          rw [hv] at h'
          injection h' with h'
          rw [h']
      · refine ⟨none, attr_none hv, iff_of_false (by simp) ?_⟩
        rintro ⟨b', hb', h'⟩
        rw [hb] at hb'
        injection hb' with hb'
        subst hb'
        rw [hv] at h'
        cases h'
    obtain ⟨m, hm1, hm2⟩ := hm'
    have hin : ¬ isIn (.str k) names = true := by simpa [isIn] using hk
    rw [keyPresent, if_neg hin]
    simp only [bind, Except.bind, getDefV, getDef, hb, hm1, getAlternates_spec ha, if_true]
    by_cases hi : m = some (.str "implicit".toList)
    · rw [if_pos hi]
      exact ⟨true, rfl, iff_of_true rfl (.inr (hm2.1 hi))⟩
    · rw [if_neg hi]
      refine ⟨false, rfl, iff_of_false (by simp) ?_⟩
      rintro (h | h)
      · exact hk h
      · exact hi (hm2.2 h)

theorem firstMissing_spec {D : Dic} {names : List Str} : ∀ {keys : List Str},
    (∀ k ∈ keys, ∃ bk, D.find k = some bk ∧ ((∃ v, bk.getItem D.names.mustExist = .ok v) ∨ bk.getItem D.names.mustExist = .error .key)) →
    (∀ k ∈ keys, Alternates D k replacing []) →
    (firstMissing D names (keys.map .str) = .ok none ∧ ∀ k ∈ keys, k ∈ names ∨ Implicit D k) ∨
    (∃ k1 k k2, keys = k1 ++ k :: k2 ∧ firstMissing D names (keys.map .str) = .ok (some (.str k)) ∧
      (∀ x ∈ k1, x ∈ names ∨ Implicit D x) ∧ ¬ (k ∈ names ∨ Implicit D k))
  | [], _, _ => .inl ⟨rfl, by simp⟩
  | k :: r, hd, ha => by
    obtain ⟨t, h1, h2⟩ := keyPresent_spec (names := names) (hd k List.mem_cons_self) (ha k List.mem_cons_self)
    cases t with
    | false =>
      refine .inr ⟨[], k, r, rfl, ?_, by simp, ?_⟩
      · simp only [List.map_cons, firstMissing, h1]
      · intro h
        exact absurd (h2.2 h) (by simp)
    | true =>
      have hstep : firstMissing D names ((k :: r).map .str) = firstMissing D names (r.map .str) := by
        simp only [List.map_cons, firstMissing, h1]
      rcases firstMissing_spec (names := names) (fun x hx => hd x (List.mem_cons_of_mem _ hx))
        (fun x hx => ha x (List.mem_cons_of_mem _ hx)) with ⟨e1, e2⟩ | ⟨k1, q, k2, e, e1, e2, e3⟩
      · refine .inl ⟨hstep.trans e1, ?_⟩
        intro x hx
        rcases List.mem_cons.1 hx with rfl | hx
        · exact h2.1 rfl
        · exact e2 x hx
      · refine .inr ⟨k :: k1, q, k2, by rw [e]; rfl, hstep.trans e1, ?_, e3⟩
        intro x hx
        rcases List.mem_cons.1 hx with rfl | hx
        · exact h2.1 rfl
        · exact e2 x hx

theorem keyGroup_written (g : KeyEntry) : keyGroup g.written = .ok (g.names.map .str) := by
  cases g <;> rfl

theorem firstMissingGroup_spec {D : Dic} {names : List Str} : ∀ {gs : List KeyEntry},
    (∀ k ∈ gs.flatMap KeyEntry.names, ∃ bk, D.find k = some bk ∧
      ((∃ v, bk.getItem D.names.mustExist = .ok v) ∨ bk.getItem D.names.mustExist = .error .key)) →
    (∀ k ∈ gs.flatMap KeyEntry.names, Alternates D k replacing []) →
    (firstMissingGroup D names (gs.map KeyEntry.written) = .ok none ∧ ∀ k ∈ gs.flatMap KeyEntry.names, k ∈ names ∨ Implicit D k) ∨
    (∃ k1 k k2, gs.flatMap KeyEntry.names = k1 ++ k :: k2 ∧ firstMissingGroup D names (gs.map KeyEntry.written) = .ok (some (.str k)) ∧
      (∀ x ∈ k1, x ∈ names ∨ Implicit D x) ∧ ¬ (k ∈ names ∨ Implicit D k))
  | [], _, _ => .inl ⟨rfl, by simp⟩
  | g :: r, hd, ha => by
    rw [List.flatMap_cons] at hd ha ⊢
    rcases firstMissing_spec (names := names) (fun k hk => hd k (List.mem_append_left _ hk)) (fun k hk => ha k (List.mem_append_left _ hk)) with
      ⟨h1, h2⟩ | ⟨k1, q, k2, e, h1, h2, h3⟩
    · have hstep : firstMissingGroup D names ((g :: r).map KeyEntry.written) = firstMissingGroup D names (r.map KeyEntry.written) := by
        simp only [List.map_cons, firstMissingGroup, keyGroup_written, h1]
      rcases firstMissingGroup_spec (names := names) (fun x hx => hd x (List.mem_append_right _ hx))
        (fun x hx => ha x (List.mem_append_right _ hx)) with ⟨e1, e2⟩ | ⟨k1, q, k2, e, e1, e2, e3⟩
      · refine .inl ⟨hstep.trans e1, ?_⟩
        intro x hx
        rcases List.mem_append.1 hx with hx | hx
        · exact h2 x hx
        · exact e2 x hx
      · refine .inr ⟨g.names ++ k1, q, k2, by rw [e, List.append_assoc], hstep.trans e1, ?_, e3⟩
        intro x hx
        rcases List.mem_append.1 hx with hx | hx
        · exact h2 x hx
        · exact e2 x hx
    · refine .inr ⟨k1, q, k2 ++ r.flatMap KeyEntry.names, by rw [e, List.append_assoc]; rfl, ?_, h2, h3⟩
      simp only [List.map_cons, firstMissingGroup, keyGroup_written, h1]

/-! ## References -/

theorem flatNames_values {v : PyVal} {ns : List Str} (h : valuesOf v = some (ns.map .str)) : flatNames v = .ok (ns.map lower) := by
  have hm : ∀ l : List Str, mapE lowerV (l.map .str) = .ok (l.map lower) := by
    intro l
    rw [mapE_map, mapE_ok (g := lower)]
    intro a _
    rfl
  cases v with
  | str s =>
    simp only [valuesOf, Option.some.injEq] at h
    cases ns with
    | nil => cases h
    | cons a r =>
      cases r with
      | nil =>
        simp only [List.map_cons, List.map_nil, List.cons.injEq, PyVal.str.injEq, and_true] at h
        simp only [flatNames, h, List.map_cons, List.map_nil]
      | cons _ _ => simp at h
  | list l =>
    simp only [valuesOf, Option.some.injEq] at h
    simp only [flatNames, Block.pyIter, h, hm]
  | slist l =>
    simp only [valuesOf, Option.some.injEq] at h
    simp only [flatNames, Block.pyIter, h, hm]
  | none => cases h
  | num s => cases h
  | sdict l => cases h

theorem references_run {D : Dic} {n : Str} {refs : List Str} (h : References D n refs) : references D n = .ok refs := by
  obtain ⟨b, hb, ⟨h, rfl⟩ | ⟨v, ns, h, hv, rfl⟩⟩ := h
  · simp only [references, getDef, hb, bind, Except.bind, attr_none h]
  · simp only [references, getDef, hb, bind, Except.bind, attr_some h, flatNames_values hv]

/-- The end of the check of references, for the names that are not in the loop and what can stand for them. -/
def referenceOutcome (names : List Str) (alts : List (Str × List PyVal)) : Except PyErr Outcome :=
  if (alts.filter fun a => decide (a.2 = [])) ≠ [] then
    .ok (.bad { items := some ((alts.filter fun a => decide (a.2 = [])).map fun a => .str a.1) })
  else
    match alts.find? fun a => decide ((a.2.filter fun n => isIn n names) = []) with
    | some a => .ok (.bad { items := some [.str a.1] })
    | none => .ok .good

theorem references_outcome {D : Dic} {names : List Str} {flat : List (List Str)} (hflat : mapE (references D) names = .ok flat)
    (hs : ∀ a ∈ flat.flatten, ∃ c, a.getLast? = some c ∧ c ≠ '_')
    (ha : ∀ a ∈ flat.flatten, ∃ alts, Alternates D a replacing alts) :
    ∃ o, validateLoopReferences D names = .ok o ∧ (o = .good ↔ ∀ a ∈ flat.flatten, Covered D names a) ∧
      (o ≠ .good → ∃ m : List Str, o = .bad { items := some (m.map .str) } ∧ m ≠ [] ∧ ∀ a ∈ m, a ∈ flat.flatten ∧ ¬ Covered D names a) := by
  classical
  generalize hF : flat.flatten = F at hs ha
  have hg : ∀ a ∈ F, isGroup a = .ok false := by
    intro a hm
    obtain ⟨c, h1, h2⟩ := hs a hm
    simp only [isGroup, h1, h2, decide_false]
  have hgroups : select isGroup F = .ok [] := by
    rw [select_ok (p := fun _ => false) hg]
    simp
  have hsingles : select (fun s => (isGroup s).bind fun g => Except.ok (!g)) F = .ok F := by
    rw [select_ok (p := fun _ => true)]
    · simp
    · intro a hm
      simp only [hg a hm, Except.bind, Bool.not_false]
  have hpick : ∃ alts : Str → List PyVal, ∀ n ∈ F, getAlternates D (.str n) = .ok (alts n) ∧
      (n ∉ names → (((alts n).filter fun a => isIn a names) = [] ↔ ¬ Covered D names n)) := by
    refine ⟨fun n => if h : ∃ alts, Alternates D n replacing alts then h.choose else [], ?_⟩
    intro n hn
    have hex := ha n hn
    simp only [dif_pos hex]
    exact ⟨getAlternates_spec hex.choose_spec, covered_alts hex.choose_spec⟩
  obtain ⟨alts, halts⟩ := hpick
  have hres : ∀ a ∈ F.filter (fun a => decide (a ∉ names)), a ∈ F ∧ a ∉ names := by
    intro a hm
    have := List.mem_filter.1 hm
    exact ⟨this.1, of_decide_eq_true this.2⟩
  have hmap : mapE (fun a => (getAlternates D (.str a)).bind fun l => Except.ok (a, l)) (F.filter fun a => decide (a ∉ names)) =
      .ok ((F.filter fun a => decide (a ∉ names)).map fun a => (a, alts a)) := by
    apply mapE_ok
    intro a hm
    simp only [(halts a (hres a hm).1).1, Except.bind]
  have hrun : validateLoopReferences D names =
      (if (F.filter fun a => decide (a ∉ names)) = [] ∧ ([] : List Str) = [] then .ok .good
      else referenceOutcome names ((F.filter fun a => decide (a ∉ names)).map fun a => (a, alts a))) := by
    unfold validateLoopReferences
    simp only [hflat, bind, Except.bind, hF, hgroups]
    simp only [Except.bind] at hsingles hmap
    rw [hsingles]
    simp only [List.filter_nil]
    rw [hmap]
    rfl
  rw [hrun]
  by_cases hn : (F.filter fun a => decide (a ∉ names)) = []
  · rw [if_pos ⟨hn, rfl⟩]
    refine ⟨.good, rfl, iff_of_true rfl ?_, by simp⟩
    intro a hm
    have := List.filter_eq_nil_iff.1 hn a hm
    exact .inl (by simpa using this)
  · rw [if_neg (fun h => hn h.1)]
    unfold referenceOutcome
    by_cases h0 : (((F.filter fun a => decide (a ∉ names)).map fun a => (a, alts a)).filter fun a => decide (a.2 = [])) = []
    · rw [if_neg (by simpa using h0)]
      split
      · rename_i p hp
        have hp1 := List.mem_of_find?_eq_some hp
        have hp2 := List.find?_some hp
        obtain ⟨a, hm, rfl⟩ := List.mem_map.1 hp1
        have hnc : ¬ Covered D names a := ((halts a (hres a hm).1).2 (hres a hm).2).1 (of_decide_eq_true hp2)
        refine ⟨_, rfl, iff_of_false (by simp) ?_, ?_⟩
        · intro hall
          exact hnc (hall a (hres a hm).1)
        · intro _
          refine ⟨[a], rfl, by simp, ?_⟩
          intro x hx
          rw [List.mem_singleton] at hx
          subst hx
          exact ⟨(hres x hm).1, hnc⟩
      · rename_i hnone
        refine ⟨_, rfl, iff_of_true rfl ?_, by simp⟩
        intro a hm
        by_cases hin : a ∈ names
        · exact .inl hin
        · have hm' : a ∈ F.filter fun a => decide (a ∉ names) := List.mem_filter.2 ⟨hm, decide_eq_true hin⟩
          have := List.find?_eq_none.1 hnone _ (List.mem_map_of_mem hm')
          simp only [decide_eq_true_eq] at this
          apply Classical.byContradiction
          intro hc
          exact this (((halts a hm).2 hin).2 hc)
    · rw [if_pos h0]
      have hnc : ∀ a ∈ (((F.filter fun a => decide (a ∉ names)).map fun a => (a, alts a)).filter fun a => decide (a.2 = [])).map (·.1),
          a ∈ F ∧ ¬ Covered D names a := by
        intro a hm
        obtain ⟨p, hp, rfl⟩ := List.mem_map.1 hm
        obtain ⟨hp1, hp2⟩ := List.mem_filter.1 hp
        obtain ⟨x, hx, rfl⟩ := List.mem_map.1 hp1
        refine ⟨(hres x hx).1, ?_⟩
        apply ((halts x (hres x hx).1).2 (hres x hx).2).1
        have : alts x = [] := of_decide_eq_true hp2
        rw [this]
        rfl
      have hne : (((F.filter fun a => decide (a ∉ names)).map fun a => (a, alts a)).filter fun a => decide (a.2 = [])).map (·.1) ≠ [] := by
        simpa using h0
      refine ⟨_, rfl, iff_of_false (by simp) ?_, ?_⟩
      · intro hall
        obtain ⟨a, hm⟩ := List.exists_mem_of_ne_nil _ hne
        exact (hnc a hm).2 (hall a (hnc a hm).1)
      · intro _
        refine ⟨_, ?_, hne, hnc⟩
        rw [List.map_map]
        rfl

end Validate
end Verif
