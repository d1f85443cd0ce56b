import Verif.Lemmas.CifDic
/-! Helper lemmas about the tree of categories. -/
set_option linter.unusedSectionVars false
namespace Verif.CifDic
open Validate
variable [CaseFold]

/-- The category of a definition in lower case, or nothing. -/
def catOf (d : CifDic) (a : Str) : Str :=
  match d.getItem a with
  | .error _ => []
  | .ok b =>
    match getD b catAttr (.str []) with
    | .ok (.str s) => lower s
    | _ => []

/-- Whether a definition has scope `s`. -/
def scopeIs (d : CifDic) (s : Str) (a : Str) : Bool :=
  match d.getItem a with
  | .error _ => false
  | .ok b =>
    match getD b scopeAttr (.str "Item".toList) with
    | .ok v => decide (v = .str s)
    | _ => false

/-- Whether a definition is a category. -/
def isCat (d : CifDic) (a : Str) : Bool := scopeIs d "Category".toList a

/-- Whether a definition is of class `Head`. -/
def headIs (d : CifDic) (a : Str) : Bool :=
  match d.getItem a with
  | .error _ => false
  | .ok b =>
    match getD b classAttr (.str "Datum".toList) with
    | .ok v => decide (v = .str "Head".toList)
    | _ => false

theorem inCat_eq {d : CifDic} {c a : Str} {b : Block} (hb : d.getItem a = .ok b) (hp : Plain b) :
    inCat d c a = .ok (decide (catOf d a = lower c)) := by
  unfold inCat attrD catOf
  simp only [hb]
  cases hc : b.contains catAttr with
  | false => simp only [getD_not hc, lowered]
  | true =>
    obtain ⟨s, hs⟩ := hp.1 hc
    simp only [getD_has (d := .str []) ⟨hc, hs⟩, lowered]

theorem isScope_eq {d : CifDic} {s a : Str} {b : Block} (hb : d.getItem a = .ok b) (hp : Plain b) :
    isScope d s a = .ok (scopeIs d s a) := by
  unfold isScope attrD scopeIs
  simp only [hb]
  cases hc : b.contains scopeAttr with
  | false => simp only [getD_not hc]
  | true =>
    obtain ⟨v, hv⟩ := hp.2.1 hc
    simp only [getD_has (d := .str "Item".toList) ⟨hc, hv⟩]

theorem isScope_cat {d : CifDic} {a : Str} {b : Block} (hb : d.getItem a = .ok b) (hp : Plain b) :
    isScope d "Category".toList a = .ok (isCat d a) := isScope_eq hb hp

theorem isClass_eq {d : CifDic} {a : Str} {b : Block} (hb : d.getItem a = .ok b) (hp : Plain b) :
    isClass d "Datum".toList "Head".toList a = .ok (headIs d a) := by
  unfold isClass attrD headIs
  simp only [hb]
  cases hc : b.contains classAttr with
  | false => simp only [getD_not hc]
  | true =>
    obtain ⟨v, hv⟩ := hp.2.2 hc
    simp only [getD_has (d := .str "Datum".toList) ⟨hc, hv⟩]

theorem inCategory_iff {d : CifDic} {c a : Str} {b : Block} (hb : d.getItem a = .ok b) (hp : Plain b) (hc : lower c ≠ []) :
    InCategory d c a ↔ catOf d a = lower c := by
  unfold InCategory catOf
  simp only [hb]
  cases h : b.contains catAttr with
  | false =>
    rw [getD_not h]
    constructor
    · rintro ⟨_, _, e, h', _⟩
      injection e with e
      subst e
      have := h'.1
      rw [h] at this
      cases this
    · intro e
      exact absurd (e.symm.trans (CaseFold.lower_ascii ([] : Str) (by simp))) hc
  | true =>
    obtain ⟨s, hs⟩ := hp.1 h
    rw [getD_has ⟨h, hs⟩]
    constructor
    · rintro ⟨b', s', e1, h', e2⟩
      injection e1 with e1
      subst e1
      have := h'.2
      rw [hs] at this
      injection this with this
      injection this with this
      subst this
      exact e2
    · intro e
      exact ⟨b, s, rfl, ⟨h, hs⟩, e⟩

theorem isCategory_iff {d : CifDic} {a : Str} {b : Block} (hb : d.getItem a = .ok b) (hp : Plain b) :
    IsCategory d a ↔ isCat d a = true := by
  unfold IsCategory isCat scopeIs
  simp only [hb]
  cases h : b.contains scopeAttr with
  | false =>
    rw [getD_not h]
    constructor
    · rintro ⟨_, e, h', _⟩
      injection e with e
      subst e
      rw [h] at h'
      cases h'
    · intro e
      exact absurd e (by decide +kernel)
  | true =>
    obtain ⟨v, hv⟩ := hp.2.1 h
    rw [getD_has ⟨h, hv⟩]
    simp only [decide_eq_true_eq]
    constructor
    · rintro ⟨b', e, h'⟩
      injection e with e
      subst e
      have := h'.2
      rw [hv] at this
      injection this
    · intro e
      subst e
      exact ⟨b, rfl, h, hv⟩

theorem isHead_iff {d : CifDic} {a : Str} {b : Block} (hb : d.getItem a = .ok b) (hp : Plain b) :
    (∃ b, d.getItem a = .ok b ∧ Has b classAttr (.str "Head".toList)) ↔ headIs d a = true := by
  unfold headIs
  simp only [hb]
  cases h : b.contains classAttr with
  | false =>
    rw [getD_not h]
    constructor
    · rintro ⟨_, e, h', _⟩
      injection e with e
      subst e
      rw [h] at h'
      cases h'
    · intro e
      exact absurd e (by decide +kernel)
  | true =>
    obtain ⟨v, hv⟩ := hp.2.2 h
    rw [getD_has ⟨h, hv⟩]
    simp only [decide_eq_true_eq]
    constructor
    · rintro ⟨b', e, h'⟩
      injection e with e
      subst e
      have := h'.2
      rw [hv] at this
      injection this
    · intro e
      subst e
      exact ⟨b, rfl, h, hv⟩

/-! ## The forest of a readable dictionary -/

/-- The definitions in a category given in lower case. -/
def kids (d : CifDic) (c : Str) : List Str :=
  if lower c = c then d.keys.filter fun a => decide (catOf d a = c) else []

theorem mem_kids {d : CifDic} (h : Readable d) {c x : Str} (hl : lower c = c) (hc : c ≠ []) :
    x ∈ kids d c ↔ x ∈ d.keys ∧ InCategory d c x := by
  unfold kids
  rw [if_pos hl, List.mem_filter, decide_eq_true_eq]
  constructor
  · rintro ⟨hx, e⟩
    obtain ⟨b, hb, hp⟩ := h.found x hx
    exact ⟨hx, (inCategory_iff hb hp (by rw [hl]; exact hc)).2 (by rw [hl]; exact e)⟩
  · rintro ⟨hx, e⟩
    obtain ⟨b, hb, hp⟩ := h.found x hx
    exact ⟨hx, ((inCategory_iff hb hp (by rw [hl]; exact hc)).1 e).trans hl⟩

/-- Links of the forest are links of the dictionary. -/
theorem below_iff {d : CifDic} (h : Readable d) {c x : Str} (hl : lower c = c) (hc : c ≠ []) :
    Forest.Desc (kids d) (isCat d) c x ↔ Below d c x := by
  constructor
  · intro hd
    induction hd with
    | child hx =>
      obtain ⟨h1, h2⟩ := (mem_kids h hl hc).1 hx
      exact .child h1 h2
    | @deeper y x hy ho hx ih =>
      have hyk : y ∈ d.keys := by cases ih <;> assumption
      obtain ⟨b, hb, hp⟩ := h.found y hyk
      obtain ⟨h1, h2⟩ := (mem_kids h (h.low y hyk) (h.named y hyk)).1 hx
      exact .deeper ih ((isCategory_iff hb hp).2 ho) h1 h2
  · intro hd
    induction hd with
    | child h1 h2 => exact .child ((mem_kids h hl hc).2 ⟨h1, h2⟩)
    | @deeper y x hy ho h1 h2 ih =>
      have hyk : y ∈ d.keys := by cases hy <;> assumption
      obtain ⟨b, hb, hp⟩ := h.found y hyk
      exact .deeper ih ((isCategory_iff hb hp).1 ho) ((mem_kids h (h.low y hyk) (h.named y hyk)).2 ⟨h1, h2⟩)

theorem forest {d : CifDic} (h : Readable d) (ha : Acyclic d) : Forest.IsForest (kids d) (isCat d) d.keys where
  sub := by
    intro c x hx
    unfold kids at hx
    split at hx
    · exact (List.mem_filter.1 hx).1
    · cases hx
  nodup := by
    intro c
    unfold kids
    split
    · exact h.nodup.filter _
    · simp
  uniq := by
    intro c c' x h1 h2
    unfold kids at h1 h2
    split at h1
    · split at h2
      · have e1 := (List.mem_filter.1 h1).2
        have e2 := (List.mem_filter.1 h2).2
        simp only [decide_eq_true_eq] at e1 e2
        exact e1.symm.trans e2
      · cases h2
    · cases h1
  acyclic := by
    intro x hx
    have hk : x ∈ d.keys := by
      rcases hx with hx | ⟨_, _, hx⟩ <;>
      · unfold kids at hx
        split at hx
        · exact (List.mem_filter.1 hx).1
        · cases hx
    exact ha x ((below_iff h (h.low x hk) (h.named x hk)).1 hx)

theorem immediate_eq {d : CifDic} (h : Readable d) (c : Str) : immediateChildren d c = .ok (kids d (lower c)) := by
  unfold immediateChildren kids
  rw [if_pos (CaseFold.lower_lower c)]
  exact select_ok fun a ha => by
    obtain ⟨b, hb, hp⟩ := h.found a ha
    exact inCat_eq hb hp

theorem cats_eq {d : CifDic} (h : Readable d) {l : List Str} (hl : ∀ a ∈ l, a ∈ d.keys) (s : Str) :
    select (isScope d s) l = .ok (l.filter (scopeIs d s)) :=
  select_ok fun a ha => by
    obtain ⟨b, hb, hp⟩ := h.found a (hl a ha)
    exact isScope_eq hb hp

theorem cats_cat {d : CifDic} (h : Readable d) {l : List Str} (hl : ∀ a ∈ l, a ∈ d.keys) :
    select (isScope d "Category".toList) l = .ok (l.filter (isCat d)) :=
  cats_eq h hl _

/-- The loop of `ddlm_all_children` replaces each category by what is below it. -/
theorem expand_eq {f : Str → Except PyErr (List Str)} {T : Str → List Str} : ∀ (cats A B : List Str), cats.Nodup →
    (∀ c ∈ cats, f c = .ok (T c)) → (∀ c ∈ cats, c ∈ A) → A.Nodup →
    expandChildren f (A ++ B) cats = .ok ((A.filter fun a => decide (a ∉ cats)) ++ (B ++ cats.flatMap T))
  | [], A, B, _, _, _, _ => by
    have : (A.filter fun a => decide (a ∉ ([] : List Str))) = A := List.filter_eq_self.2 (by simp)
    rw [this]
    simp [expandChildren]
  | c :: cs, A, B, hn, hf, hm, hA => by
    rw [List.nodup_cons] at hn
    have hc : c ∈ A := hm c (by simp)
    have hA' : (A.erase c).Nodup := hA.erase c
    have ih := expand_eq (f := f) (T := T) cs (A.erase c) (B ++ T c) hn.2 (fun x hx => hf x (by simp [hx]))
      (fun x hx => (hA.mem_erase_iff).2 ⟨by rintro rfl; exact hn.1 hx, hm x (by simp [hx])⟩) hA'
    rw [expandChildren, hf c (by simp)]
    simp only
    rw [List.erase_append_left _ hc, List.append_assoc, ih]
    congr 1
    rw [List.flatMap_cons, List.append_assoc]
    congr 1
    rw [hA.erase_eq_filter, List.filter_filter]
    apply List.filter_congr
    intro x _
    by_cases h1 : x = c <;> by_cases h2 : x ∈ cs <;> simp [h1, h2]

/-- `ddlm_all_children` finds what is below a category. -/
theorem allFuel_eq {d : CifDic} (h : Readable d) (ha : Acyclic d) : ∀ (n : Nat) (c : Str), lower c ≠ [] →
    Forest.size (kids d) (isCat d) d.keys (lower c) < n →
    ∃ l, allChildrenFuel d n c = .ok (l ++ [c]) ∧ l.Nodup ∧ ∀ x, x ∈ l ↔ Forest.Desc (kids d) (isCat d) (lower c) x
  | 0, _, _, hs => by omega
  | n + 1, c, hc, hs => by
    have hF := forest h ha
    have hsub : ∀ a ∈ kids d (lower c), a ∈ d.keys := hF.sub _
    have hT : ∀ y ∈ kids d (lower c), isCat d y = true → ∃ l, allChildrenFuel d n y = .ok (l ++ [y]) ∧ l.Nodup ∧
        ∀ x, x ∈ l ↔ Forest.Desc (kids d) (isCat d) y x := by
      intro y hy ho
      have hyl := h.low y (hsub y hy)
      have := Forest.size_lt hF hy ho
      have ih := allFuel_eq h ha n y (by rw [hyl]; exact h.named y (hsub y hy)) (by rw [hyl]; omega)
      rw [hyl] at ih
      exact ih
    have : ∃ T : Str → List Str, ∀ y ∈ kids d (lower c), isCat d y = true →
        allChildrenFuel d n y = .ok (T y) ∧ (T y).Nodup ∧ ∀ x, x ∈ T y ↔ x = y ∨ Forest.Desc (kids d) (isCat d) y x := by
      refine ⟨fun y => match allChildrenFuel d n y with | .ok l => l | .error _ => [], fun y hy ho => ?_⟩
      obtain ⟨l, h1, h2, h3⟩ := hT y hy ho
      simp only [h1]
      refine ⟨trivial, ?_, fun x => ?_⟩
      · rw [List.nodup_append]
        refine ⟨h2, by simp, ?_⟩
        intro x hx z hz e
        rw [List.mem_singleton] at hz
        subst e hz
        exact hF.acyclic _ ((h3 _).1 hx)
      · rw [List.mem_append, List.mem_singleton, h3]
        exact Or.comm
    obtain ⟨T, hT⟩ := this
    have hb := Forest.below hF (lower c) T (fun y hy ho => (hT y hy ho).2)
    have he := expand_eq (f := allChildrenFuel d n) (T := T) ((kids d (lower c)).filter (isCat d)) (kids d (lower c)) []
      ((hF.nodup _).filter _) (fun y hy => (hT y (List.mem_filter.1 hy).1 (List.mem_filter.1 hy).2).1)
      (fun y hy => (List.mem_filter.1 hy).1) (hF.nodup _)
    refine ⟨(kids d (lower c)).filter (fun y => !isCat d y) ++
      ((kids d (lower c)).filter (isCat d)).flatMap T, ?_, hb.1, hb.2⟩
    rw [allChildrenFuel, immediate_eq h]
    simp only [cats_cat h hsub]
    rw [List.append_nil] at he
    rw [he]
    simp only [List.nil_append]
    congr 3
    apply List.filter_congr
    intro x hx
    simp [List.mem_filter, hx]

theorem all_eq {d : CifDic} (h : Readable d) (ha : Acyclic d) {c : Str} (hc : lower c ≠ []) :
    ∃ l, allChildren d c = .ok (l ++ [c]) ∧ l.Nodup ∧ ∀ x, x ∈ l ↔ Below d (lower c) x := by
  obtain ⟨l, h1, h2, h3⟩ := allFuel_eq h ha (d.table.length + 1) c hc (by
    have := Forest.size_le (kids := kids d) (open_ := isCat d) (K := d.keys) (lower c)
    unfold keys dkeys at this
    rw [List.length_map] at this
    unfold keys dkeys
    omega)
  exact ⟨l, h1, h2, fun x => by rw [h3, below_iff h (CaseFold.lower_lower c) hc]⟩

/-- `expand_category_opt` replaces categories by the items below them. -/
theorem expandFuel_eq {d : CifDic} (h : Readable d) (ha : Acyclic d) : ∀ (n : Nat), ∃ E : Str → List Str,
    (∀ names : List Str, (∀ a ∈ names, a ∈ d.keys) →
      (∀ a ∈ names, isCat d a = true → Forest.size (kids d) (isCat d) d.keys a < n) →
      expandCategoryFuel d (n + 1) names = .ok (names.map E).flatten) ∧
    ∀ a ∈ d.keys, (isCat d a = true → Forest.size (kids d) (isCat d) d.keys a < n) →
      (E a).Nodup ∧ ∀ x, x ∈ E a ↔ isCat d x = false ∧
        (x = a ∨ (isCat d a = true ∧ Forest.Desc (kids d) (isCat d) a x))
  | 0 => by
    refine ⟨fun a => [a], fun names hk hs => ?_, fun a hk hs => ?_⟩
    · have hno : ∀ a ∈ names, isCat d a = false := by
        intro a hm
        cases ho : isCat d a with
        | false => rfl
        | true => exact absurd (hs a hm ho) (by omega)
      rw [expandCategoryFuel, mapE_ok (g := fun a => [a])]
      intro a hm
      obtain ⟨b, hb, hp⟩ := h.found a (hk a hm)
      have hc : d.contains a = true := by simp [contains, h.low a (hk a hm), hk a hm]
      rw [if_pos hc, isScope_cat hb hp, hno a hm]
    · have hno : isCat d a = false := by
        cases ho : isCat d a with
        | false => rfl
        | true => exact absurd (hs ho) (by omega)
      refine ⟨by simp, fun x => ?_⟩
      rw [List.mem_singleton, hno]
      constructor
      · rintro rfl; exact ⟨hno, .inl rfl⟩
      · rintro ⟨_, e | ⟨h', _⟩⟩
        · exact e
        · cases h'
  | n + 1 => by
    have hF := forest h ha
    obtain ⟨E, h1, h2⟩ := expandFuel_eq h ha n
    have hkid : ∀ a ∈ d.keys, isCat d a = true →
        Forest.size (kids d) (isCat d) d.keys a < n + 1 → ∀ y ∈ kids d a,
        isCat d y = true → Forest.size (kids d) (isCat d) d.keys y < n := by
      intro a _ ho hs y hy hyo
      have := Forest.size_lt hF hy hyo
      omega
    refine ⟨fun a => if isCat d a = true then ((kids d a).map E).flatten else [a], fun names hk hs => ?_, fun a hk hs => ?_⟩
    · rw [expandCategoryFuel, mapE_ok]
      intro a hm
      obtain ⟨b, hb, hp⟩ := h.found a (hk a hm)
      have hc : d.contains a = true := by simp [contains, h.low a (hk a hm), hk a hm]
      rw [if_pos hc, isScope_cat hb hp]
      cases ho : isCat d a with
      | false => rfl
      | true =>
        simp only [immediate_eq h, h.low a (hk a hm), if_true]
        exact h1 _ (hF.sub _) (hkid a (hk a hm) ho (hs a hm ho))
    · cases ho : isCat d a with
      | false =>
        simp only [ho, Bool.false_eq_true, if_false]
        refine ⟨by simp, fun x => ?_⟩
        rw [List.mem_singleton]
        constructor
        · rintro rfl; exact ⟨ho, .inl rfl⟩
        · rintro ⟨_, e | ⟨h', _⟩⟩
          · exact e
          · cases h'
      | true =>
        simp only [ho, if_true]
        have hE : ∀ y ∈ kids d a, (E y).Nodup ∧ ∀ x, x ∈ E y ↔ isCat d x = false ∧
            (x = y ∨ (isCat d y = true ∧ Forest.Desc (kids d) (isCat d) y x)) :=
          fun y hy => h2 y (hF.sub _ _ hy) (hkid a hk ho (hs ho) y hy)
        rw [← List.flatMap_def]
        constructor
        · apply Forest.nodup_flatMap (hF.nodup a) (fun y hy => (hE y hy).1)
          intro y hy z hz hne x hx hx'
          have e1 := ((hE y hy).2 x).1 hx
          have e2 := ((hE z hz).2 x).1 hx'
          rcases e1.2 with rfl | ⟨hyo, hd⟩
          · rcases e2.2 with rfl | ⟨hzo, hd'⟩
            · exact hne rfl
            · exact Forest.kids_apart hF hy hz hzo hd'
          · rcases e2.2 with rfl | ⟨hzo, hd'⟩
            · exact Forest.kids_apart hF hz hy hyo hd
            · exact Forest.kids_disjoint hF hy hz hyo hzo hne (.inr hd) (.inr hd')
        · intro x
          rw [List.mem_flatMap]
          constructor
          · rintro ⟨y, hy, hx⟩
            have e1 := ((hE y hy).2 x).1 hx
            refine ⟨e1.1, .inr ⟨trivial, Forest.desc_head.2 ?_⟩⟩
            rcases e1.2 with rfl | ⟨hyo, hd⟩
            · exact .inl hy
            · exact .inr ⟨y, hy, hyo, hd⟩
          · rintro ⟨hx, rfl | ⟨_, hd⟩⟩
            · rw [ho] at hx; cases hx
            · rcases Forest.desc_head.1 hd with hk' | ⟨y, hy, hyo, hd'⟩
              · exact ⟨x, hk', ((hE x hk').2 x).2 ⟨hx, .inl rfl⟩⟩
              · exact ⟨y, hy, ((hE y hy).2 x).2 ⟨hx, .inr ⟨hyo, hd'⟩⟩⟩

theorem below_lower {d : CifDic} {c x : Str} : Below d (lower c) x ↔ Below d c x := by
  constructor
  · intro h
    induction h with
    | child h1 h2 => exact .child h1 (by obtain ⟨b, s, e1, e2, e3⟩ := h2; exact ⟨b, s, e1, e2, e3.trans (CaseFold.lower_lower c)⟩)
    | deeper _ h1 h2 h3 ih => exact .deeper ih h1 h2 h3
  · intro h
    induction h with
    | child h1 h2 => exact .child h1 (by obtain ⟨b, s, e1, e2, e3⟩ := h2; exact ⟨b, s, e1, e2, e3.trans (CaseFold.lower_lower c).symm⟩)
    | deeper _ h1 h2 h3 ih => exact .deeper ih h1 h2 h3

theorem Below.key {d : CifDic} {c x : Str} (h : Below d c x) : x ∈ d.keys := by
  cases h <;> assumption

theorem heads_eq {d : CifDic} (h : Readable d) : heads d = .ok (d.keys.filter (headIs d)) :=
  select_ok fun a ha => by
    obtain ⟨b, hb, hp⟩ := h.found a ha
    exact isClass_eq hb hp

theorem mem_heads {d : CifDic} (h : Readable d) {a : Str} : a ∈ d.keys.filter (headIs d) ↔ IsHead d a := by
  rw [List.mem_filter]
  constructor
  · rintro ⟨hk, hh⟩
    obtain ⟨b, hb, hp⟩ := h.found a hk
    exact ⟨hk, (isHead_iff hb hp).2 hh⟩
  · rintro ⟨hk, hh⟩
    obtain ⟨b, hb, hp⟩ := h.found a hk
    exact ⟨hk, (isHead_iff hb hp).1 hh⟩

theorem nodup_singleton_of {l : List Str} {r : Str} (hn : l.Nodup) (h : ∀ x, x ∈ l ↔ x = r) : l = [r] := by
  cases l with
  | nil => exact absurd ((h r).2 rfl) (by simp)
  | cons a t =>
    have ea : a = r := (h a).1 (by simp)
    cases t with
    | nil => rw [ea]
    | cons b t' =>
      have eb : b = r := (h b).1 (by simp)
      rw [ea, eb] at hn
      simp at hn

theorem root_eq {d : CifDic} (h : Readable d) {r : Str} (hr : ∀ a, IsHead d a ↔ a = r) : heads d = .ok [r] := by
  rw [heads_eq h, nodup_singleton_of (h.nodup.filter _) (fun x => by rw [mem_heads h, hr])]

end Verif.CifDic
