import Verif.Lemmas.CatTable
import Verif.Lemmas.Block
/-! Helper lemmas about keys and parents of looped categories. -/
set_option linter.unusedSectionVars false
namespace Verif.CifDic
open Validate
variable [CaseFold]

theorem nodup_length {α : Type} [DecidableEq α] : ∀ {l k : List α}, l.Nodup → (∀ x ∈ l, x ∈ k) → l.length ≤ k.length
  | [], _, _, _ => Nat.zero_le _
  | a :: l, k, hn, hs => by
    rw [List.nodup_cons] at hn
    have ha := hs a (by simp)
    have := nodup_length (l := l) (k := k.erase a) hn.2 (fun x hx => by
      rw [List.mem_erase_of_ne (by rintro rfl; exact hn.1 hx)]
      exact hs x (by simp [hx]))
    rw [List.length_erase_of_mem ha] at this
    have : 0 < k.length := List.length_pos_of_mem ha
    simp only [List.length_cons]
    omega

theorem self_zip {α : Type} {k : α} : ∀ {l : List α}, k ∈ l → (k, k) ∈ l.zip l
  | [], h => by cases h
  | a :: r, h => by
    rw [List.zip_cons_cons]
    rcases List.mem_cons.1 h with rfl | h
    · exact List.mem_cons_self
    · exact List.mem_cons_of_mem _ (self_zip h)

theorem nodup_of_map {α β : Type} {f : α → β} : ∀ {l : List α}, (l.map f).Nodup → l.Nodup
  | [], _ => by simp
  | a :: r, h => by
    rw [List.map_cons, List.nodup_cons] at h
    rw [List.nodup_cons]
    exact ⟨fun hm => h.1 (List.mem_map.2 ⟨a, hm, rfl⟩), nodup_of_map h.2⟩

theorem compoundKey_ok {d : CifDic} (h : Readable d) (hk : Keyed d) {c : Str} (hc : LoopCat d c) : ∃ k, compoundKey d c = .ok k ∧ KeyOf d c k := by
  obtain ⟨b, hb, _⟩ := h.found c hc.1
  obtain ⟨h1, h2⟩ := hk c b hc hb
  unfold compoundKey attrD
  simp only [hb]
  cases e2 : b.contains keyAttr with
  | false =>
    simp only [getD_not e2]
    cases e1 : b.contains keysAttr with
    | false => simp only [getD_not e1]; exact ⟨_, rfl, .missing hb e1 e2⟩
    | true =>
      obtain ⟨v, k, hv, hl⟩ := h1 e1
      simp only [getD_has ⟨e1, hv⟩]
      exact ⟨k, hl, .names ⟨b, hb, e1, hv⟩ hl⟩
  | true =>
    obtain ⟨w, hw⟩ := h2 e2
    simp only [getD_has ⟨e2, hw⟩]
    cases e1 : b.contains keysAttr with
    | false => simp only [getD_not e1]; exact ⟨_, rfl, .single hb e1 ⟨e2, hw⟩⟩
    | true =>
      obtain ⟨v, k, hv, hl⟩ := h1 e1
      simp only [getD_has ⟨e1, hv⟩]
      exact ⟨k, hl, .names ⟨b, hb, e1, hv⟩ hl⟩

theorem collectKeys_ok {d : CifDic} (h : Readable d) (hk : Keyed d) : ∀ {cs : List Str}, (∀ c ∈ cs, LoopCat d c) →
    (∀ c ∈ cs, c ∉ dkeys (loopTree d)) → ∃ ks, collectKeys d (loopTree d) cs = .ok ks ∧ Matched (KeyOf d) cs ks
  | [], _, _ => ⟨[], rfl, .nil⟩
  | c :: cs, hc, hn => by
    obtain ⟨k, h1, h2⟩ := compoundKey_ok h hk (hc c (by simp))
    obtain ⟨ks, h3, h4⟩ := collectKeys_ok h hk (cs := cs) (fun x hx => hc x (by simp [hx])) (fun x hx => hn x (by simp [hx]))
    refine ⟨k :: ks, ?_, .cons h2 h4⟩
    rw [collectKeys, if_neg (hn c (by simp)), h1]
    simp only [h3]

theorem collectKeys_type {d : CifDic} (h : Readable d) (hk : Keyed d) : ∀ {cs : List Str}, (∀ c ∈ cs, LoopCat d c) →
    (∃ c ∈ cs, c ∈ dkeys (loopTree d)) → collectKeys d (loopTree d) cs = .error .type
  | [], _, ⟨_, h, _⟩ => by cases h
  | c :: cs, hc, ⟨x, hx, hxe⟩ => by
    rw [collectKeys]
    by_cases hce : c ∈ dkeys (loopTree d)
    · rw [if_pos hce]
    · obtain ⟨k, h1, _⟩ := compoundKey_ok h hk (hc c (by simp))
      have hx : x ∈ cs := by
        rcases List.mem_cons.1 hx with rfl | hx
        · exact absurd hxe hce
        · exact hx
      rw [if_neg hce, h1, collectKeys_type h hk (cs := cs) (fun x hx => hc x (by simp [hx])) ⟨x, hx, hxe⟩]

/-- The keys are added to the entries of the parents. -/
theorem addKeys_ok {d : CifDic} {ex : Dict Str (List Str)} : ∀ (l : Dict Str (List Str)) (t : Dict Str (List (List PyVal))),
    (dkeys l).Nodup → (∀ q ∈ l, ∃ ks, collectKeys d ex q.2 = .ok ks) → (∀ q ∈ l, q.1 ∈ dkeys t) →
    ∃ t', addKeys d ex l t = .ok t' ∧ (∀ c, c ∉ dkeys l → dget t' c = dget t c) ∧
      ∀ q ∈ l, ∀ ks old, collectKeys d ex q.2 = .ok ks → dget t q.1 = some old → dget t' q.1 = some (old ++ ks)
  | [], t, _, _, _ => ⟨t, rfl, fun _ _ => rfl, by simp⟩
  | (p, cs) :: l, t, hn, hk, ht => by
    simp only [dkeys, List.map_cons, List.nodup_cons] at hn
    obtain ⟨ks, hks⟩ := hk (p, cs) (by simp)
    obtain ⟨old, hold⟩ := dget_isSome.2 (ht (p, cs) (by simp))
    simp only at hks hold
    obtain ⟨t', g1, g2, g3⟩ := addKeys_ok (d := d) (ex := ex) l (dset t p (old ++ ks)) hn.2 (fun q hq => hk q (by simp [hq])) (fun q hq => by
      rw [mem_dkeys_dset]; exact .inr (ht q (by simp [hq])))
    refine ⟨t', ?_, ?_, ?_⟩
    · rw [addKeys]
      simp only [hks, hold]
      exact g1
    · intro c hc
      simp only [dkeys, List.map_cons, List.mem_cons, not_or] at hc
      rw [g2 c hc.2, dget_dset, if_neg (fun e => hc.1 e.symm)]
    · intro q hq ks' old' e1 e2
      rcases List.mem_cons.1 hq with rfl | hq
      · simp only at e1 e2 ⊢
        rw [hks] at e1
        rw [hold] at e2
        injection e1 with e1
        injection e2 with e2
        subst e1 e2
        rw [g2 p hn.1, dget_dset, if_pos rfl]
      · have hne : p ≠ q.1 := fun e => hn.1 (by rw [e]; exact List.mem_map.2 ⟨q, hq, rfl⟩)
        exact g3 q hq ks' old' e1 (by rw [dget_dset, if_neg hne]; exact e2)

theorem addKeys_type {d : CifDic} {ex : Dict Str (List Str)} : ∀ (l : Dict Str (List Str)) (t : Dict Str (List (List PyVal))),
    (∀ q ∈ l, (∃ ks, collectKeys d ex q.2 = .ok ks) ∨ collectKeys d ex q.2 = .error .type) → (∀ q ∈ l, q.1 ∈ dkeys t) →
    (∃ q ∈ l, collectKeys d ex q.2 = .error .type) → addKeys d ex l t = .error .type
  | [], _, _, _, ⟨_, h, _⟩ => by cases h
  | (p, cs) :: l, t, hk, ht, ⟨q, hq, hqe⟩ => by
    rw [addKeys]
    rcases hk (p, cs) (by simp) with ⟨ks, hks⟩ | e
    · simp only at hks
      obtain ⟨old, hold⟩ := dget_isSome.2 (ht (p, cs) (by simp))
      simp only at hold
      simp only [hks, hold]
      have hq' : q ∈ l := by
        rcases List.mem_cons.1 hq with e | hq
        · rw [e] at hqe
          simp only at hqe
          rw [hks] at hqe
          cases hqe
        · exact hq
      exact addKeys_type l _ (fun q hq => hk q (by simp [hq])) (fun q hq => by rw [mem_dkeys_dset]; exact .inr (ht q (by simp [hq]))) ⟨q, hq', hqe⟩
    · simp only at e
      simp only [e]

/-- The table before the keys of looped categories in a category are added. -/
theorem ownKeys_ok {d : CifDic} (h : Readable d) (hk : Keyed d) :
    ∃ es, mapE (keyEntry d) (d.keys.filter (loopIs d)) = .ok es ∧
    (∀ c, c ∈ dkeys (dupdate [] es) ↔ LoopCat d c) ∧ ∀ c l, dget (dupdate [] es) c = some l → ∃ k, l = [k] ∧ KeyOf d c k := by
  have hf : ∀ c ∈ d.keys.filter (loopIs d), ∃ k, compoundKey d c = .ok k ∧ KeyOf d c k := fun c hc =>
    compoundKey_ok h hk ((loopCat_iff h).2 (List.mem_filter.1 hc))
  obtain ⟨es, h1, h2⟩ := mapE_exists (f := keyEntry d) (l := d.keys.filter (loopIs d)) (fun c hc => by
    obtain ⟨k, e, _⟩ := hf c hc
    exact ⟨(c, [k]), by unfold keyEntry; simp only [e]⟩)
  have hmem : ∀ c l, (c, l) ∈ es → LoopCat d c ∧ ∃ k, l = [k] ∧ KeyOf d c k := by
    intro c l hm
    obtain ⟨a, ha, e⟩ := (h2 _).1 hm
    obtain ⟨k, e', hk'⟩ := hf a ha
    unfold keyEntry at e
    simp only [e'] at e
    injection e with e
    injection e with e1 e2
    subst e1
    exact ⟨(loopCat_iff h).2 (List.mem_filter.1 ha), k, e2.symm, hk'⟩
  refine ⟨es, h1, ?_, ?_⟩
  · intro c
    rw [dup_keys]
    constructor
    · rintro (hm | hm)
      · obtain ⟨l, hl⟩ := dget_isSome.2 hm
        exact (hmem c l (dget_mem hl)).1
      · cases hm
    · intro hc
      have ha := List.mem_filter.2 ((loopCat_iff h).1 hc)
      obtain ⟨k, e, _⟩ := hf c ha
      exact .inl (mem_dkeys ((h2 (c, [k])).2 ⟨c, ha, by unfold keyEntry; simp only [e]⟩))
  · intro c l hl
    rcases dup_get hl with hm | hm
    · exact (hmem c l hm).2
    · cases hm

/-! ## Parents -/

theorem LoopBelow.loop {d : CifDic} {c x : Str} (h : LoopBelow d c x) : LoopCat d x := by
  cases h with
  | child h => exact h.2.1
  | deeper _ h => exact h.2.1

theorem LoopBelow.cons {d : CifDic} {p c x : Str} (h : LoopChild d p c) (hb : LoopBelow d c x) : LoopBelow d p x := by
  induction hb with
  | child h' => exact .deeper (.child h) h'
  | deeper _ h' ih => exact .deeper ih h'

theorem loopedCats_eq {d : CifDic} (h : Readable d) : loopedCats d = .ok ((d.keys.filter (isCat d)).filter (loopIs d)) := by
  have h1 : categories d = .ok (d.keys.filter (isCat d)) := by
    unfold categories
    refine select_ok fun a ha => ?_
    obtain ⟨b, hb, hp⟩ := h.found a ha
    unfold attrD isCat scopeIs
    simp only [hb]
    cases hc : b.contains scopeAttr with
    | false => simp only [getD_not hc]; rfl
    | true =>
      obtain ⟨v, hv⟩ := hp.2.1 hc
      simp only [getD_has ⟨hc, hv⟩]
  unfold loopedCats
  rw [h1]
  exact select_ok fun a ha => by
    obtain ⟨b, hb, hp⟩ := h.found a (List.mem_filter.1 ha).1
    exact (loopClass "Set".toList (by decide) hb hp).1

theorem mem_loopedCats {d : CifDic} (h : Readable d) {c : Str} :
    c ∈ (d.keys.filter (isCat d)).filter (loopIs d) ↔ LoopCat d c ∧ IsCategory d c := by
  rw [List.mem_filter, List.mem_filter]
  constructor
  · rintro ⟨⟨h1, h2⟩, h3⟩
    obtain ⟨b, hb, hp⟩ := h.found c h1
    exact ⟨(loopCat_iff h).2 ⟨h1, h3⟩, (isCategory_iff hb hp).2 h2⟩
  · rintro ⟨h1, h2⟩
    have h1 := (loopCat_iff h).1 h1
    obtain ⟨b, hb, hp⟩ := h.found c h1.1
    exact ⟨⟨h1.1, (isCategory_iff hb hp).1 h2⟩, h1.2⟩

theorem climb_ok {d : CifDic} (h : Readable d) (ha : LoopAcyclic d) (hl : ∀ c, LoopCat d c → ∃ s, Attr d c catAttr (.str s)) :
    ∀ (n : Nat) (cat s : Str) (vs : List Str), LoopCat d cat → Attr d cat catAttr (.str s) → vs.Nodup → (∀ v ∈ vs, v ∈ d.keys ∧ AtOrAbove d cat v) →
    d.keys.length + 1 ≤ n + vs.length → ∃ r, climb d n cat (lower s) = .ok r ∧ TopOf d cat r
  | 0, cat, s, vs, _, _, hn, hv, hf => by
    exfalso
    have := nodup_length hn (fun v hm => (hv v hm).1)
    omega
  | n + 1, cat, s, vs, hc, hs, hn, hv, hf => by
    have hup : ∀ p, LoopChild d p cat → p = lower s := by
      rintro p ⟨hp, _, b, s', hb, hh, e⟩
      have := hs.unique ⟨b, hb, hh⟩
      injection this with this
      subst this
      rw [e, h.low p hp.1]
    rw [climb]
    by_cases hk : d.contains (lower s) = true
    · have hk' : lower s ∈ d.keys := by
        unfold contains at hk
        rw [decide_eq_true_eq, CaseFold.lower_lower] at hk
        exact hk
      obtain ⟨b, hb, hp⟩ := h.found _ hk'
      rw [if_pos hk, (loopClass "Set".toList (by decide) hb hp).1]
      cases hlo : loopIs d (lower s) with
      | false =>
        refine ⟨cat, rfl, .inl rfl, ?_⟩
        intro p hpc
        have := (loopCat_iff h).1 hpc.1
        rw [hup p hpc, hlo] at this
        cases this.2
      | true =>
        have hnext : LoopCat d (lower s) := (loopCat_iff h).2 ⟨hk', hlo⟩
        obtain ⟨s', hs'⟩ := hl _ hnext
        simp only [hs'.textI]
        have hch : LoopChild d (lower s) cat := by
          obtain ⟨b', hb', hh⟩ := hs
          exact ⟨hnext, hc, b', s, hb', hh, by rw [CaseFold.lower_lower]⟩
        have habove : ∀ v, AtOrAbove d cat v → LoopBelow d (lower s) v := by
          rintro v (rfl | hb)
          · exact .child hch
          · exact hb.cons hch
        obtain ⟨r, h1, h2, h3⟩ := climb_ok h ha hl n (lower s) s' (lower s :: vs) hnext hs' (by
            rw [List.nodup_cons]
            exact ⟨fun hm => ha _ (habove _ (hv _ hm).2), hn⟩) (by
            intro v hm
            rcases List.mem_cons.1 hm with rfl | hm
            · exact ⟨hk', .inl rfl⟩
            · exact ⟨(hv v hm).1, .inr (habove v (hv v hm).2)⟩) (by simp only [List.length_cons]; omega)
        refine ⟨r, h1, ?_, h3⟩
        rcases h2 with rfl | h2
        · exact .inr (.child hch)
        · exact .inr (.deeper h2 hch)
    · rw [if_neg hk]
      refine ⟨cat, rfl, .inl rfl, ?_⟩
      intro p hpc
      refine hk ?_
      unfold contains
      rw [decide_eq_true_eq, CaseFold.lower_lower, ← hup p hpc]
      exact hpc.1.1

/-- There is one category above a category. -/
theorem loopChild_unique {d : CifDic} (h : Readable d) {p p' c : Str} (h1 : LoopChild d p c) (h2 : LoopChild d p' c) : p = p' := by
  obtain ⟨hp, _, b, s, hb, hh, e⟩ := h1
  obtain ⟨hp', _, b', s', hb', hh', e'⟩ := h2
  have := Attr.unique ⟨b, hb, hh⟩ ⟨b', hb', hh'⟩
  injection this with this
  subst this
  rw [← h.low p hp.1, ← h.low p' hp'.1, ← e, ← e']

/-- Of two categories above a category, one is at or above the other. -/
theorem above_linear {d : CifDic} (h : Readable d) {x y c : Str} (h1 : AtOrAbove d x c) (h2 : AtOrAbove d y c) : AtOrAbove d x y ∨ AtOrAbove d y x := by
  rcases h1 with rfl | h1
  · exact .inr h2
  · induction h1 with
    | @child c hc =>
      rcases h2 with rfl | h2
      · exact .inl (.inr (.child hc))
      · cases h2 with
        | child h' => exact .inl (.inl (loopChild_unique h hc h'))
        | deeper hb h' =>
          have := loopChild_unique h hc h'
          subst this
          exact .inr (.inr hb)
    | @deeper z c hz hc ih =>
      rcases h2 with rfl | h2
      · exact .inl (.inr (.deeper hz hc))
      · cases h2 with
        | child h' =>
          have := loopChild_unique h hc h'
          subst this
          exact .inl (.inr hz)
        | deeper hb h' =>
          have := loopChild_unique h hc h'
          subst this
          exact ih (.inr hb)

theorem AtOrAbove.trans {d : CifDic} {x y z : Str} (h1 : AtOrAbove d x y) (h2 : AtOrAbove d y z) : AtOrAbove d x z := by
  rcases h2 with rfl | h2
  · exact h1
  · rcases h1 with rfl | h1
    · exact .inr h2
    · right
      induction h2 with
      | child h => exact .deeper h1 h
      | deeper _ h ih => exact .deeper ih h

/-- Nothing is above a topmost category. -/
theorem top_above {d : CifDic} {r x : Str} (ht : ∀ p, ¬ LoopChild d p r) (h : AtOrAbove d x r) : x = r := by
  rcases h with h | h
  · exact h
  · cases h with
    | child h => exact absurd h (ht _)
    | deeper _ h => exact absurd h (ht _)

theorem topOf_unique {d : CifDic} (h : Readable d) {c r r' : Str} (h1 : TopOf d c r) (h2 : TopOf d c r') : r = r' := by
  rcases above_linear h h1.1 h2.1 with h3 | h3
  · exact top_above h2.2 h3
  · exact (top_above h1.2 h3).symm

/-! ## Equivalent keys -/

theorem getItem_low {d : CifDic} (hp : Present d) {s : Str} (h : lower s ∈ d.keys) : d.getItem s = d.getItem (lower s) := by
  obtain ⟨k, hk⟩ := dget_isSome.2 h
  obtain ⟨b, hb⟩ := hp _ k hk
  unfold getItem byId
  simp only [CaseFold.lower_lower, hk, hb]

theorem textI_attr {d : CifDic} {a attr s : Str} (h : textI d a attr = .ok s) : Attr d a attr (.str s) := by
  unfold textI attrI at h
  cases hb : d.getItem a with
  | error e => simp only [hb] at h; cases h
  | ok b =>
    simp only [hb] at h
    cases hv : b.getItem attr with
    | error e => simp only [hv] at h; cases h
    | ok v =>
      simp only [hv] at h
      cases v with
      | str s' =>
        simp only at h
        injection h with h
        subst h
        exact ⟨b, hb, by unfold Block.contains; rw [decide_eq_true_eq]; exact Block.getItem_ok_mem hv, hv⟩
      | _ => cases h

theorem mapE_all {α β : Type} {f : α → Except PyErr β} : ∀ {l : List α} {r : List β}, mapE f l = .ok r → Matched (fun x y => f x = .ok y) l r
  | [], r, h => by simp only [mapE, Except.ok.injEq] at h; subst h; exact .nil
  | a :: l, r, h => by
    simp only [mapE] at h
    split at h
    · cases h
    · rename_i v hv
      split at h
      · cases h
      · rename_i s hs
        simp only [Except.ok.injEq] at h
        subst h
        exact .cons hv (mapE_all hs)

theorem forall2_mem_right {α β : Type} {R : α → β → Prop} : ∀ {l : List α} {r : List β}, Matched R l r → ∀ y ∈ r, ∃ x ∈ l, R x y
  | _, _, .nil, _, h => by cases h
  | _, _, .cons h t, y, hy => by
    rcases List.mem_cons.1 hy with rfl | hy
    · exact ⟨_, List.mem_cons_self, h⟩
    · obtain ⟨x, hx, hr⟩ := forall2_mem_right t y hy
      exact ⟨x, List.mem_cons_of_mem _ hx, hr⟩

theorem forall2_zip {α β : Type} {R : α → β → Prop} {γ : Type} : ∀ {l : List α} {r : List β} {s : List γ}, Matched R l r → ∀ x z, (x, z) ∈ l.zip s →
    ∃ y, R x y ∧ (y, z) ∈ r.zip s
  | _, _, _, .nil, _, _, h => by simp at h
  | _, _, [], .cons _ _, _, _, h => by simp at h
  | _, _, _ :: _, .cons (a := a) (b := b) h t, x, z, hm => by
    rw [List.zip_cons_cons] at hm
    rcases List.mem_cons.1 hm with e | hm
    · injection e with e1 e2
      subst e1 e2
      exact ⟨b, h, by rw [List.zip_cons_cons]; exact List.mem_cons_self⟩
    · obtain ⟨y, h1, h2⟩ := forall2_zip t x z hm
      exact ⟨y, h1, by rw [List.zip_cons_cons]; exact List.mem_cons_of_mem _ h2⟩

theorem addEquivs_other (s : Str) : ∀ (l : List (Str × Str)) (t : Dict Str (List Str)), s ∉ l.map Prod.snd → equivsOf (addEquivs t l) s = equivsOf t s
  | [], _, _ => rfl
  | (p, c) :: l, t, h => by
    simp only [List.map_cons, List.mem_cons, not_or] at h
    rw [addEquivs, addEquivs_other s l _ h.2]
    unfold equivsOf
    rw [dget_dset, if_neg (fun e => h.1 e.symm)]

theorem addEquivs_same (x s : Str) : ∀ (l : List (Str × Str)) (t : Dict Str (List Str)), (l.map Prod.snd).Nodup → (x, s) ∈ l →
    equivsOf (addEquivs t l) s = equivsOf t s ++ [x]
  | [], _, _, h => by cases h
  | (p, c) :: l, t, hn, h => by
    simp only [List.map_cons, List.nodup_cons] at hn
    rw [addEquivs]
    rcases List.mem_cons.1 h with e | h
    · injection e with e1 e2
      subst e1 e2
      rw [addEquivs_other _ l _ hn.1]
      unfold equivsOf
      rw [dget_dset, if_pos rfl]
      rfl
    · rw [addEquivs_same x s l _ hn.2 h]
      unfold equivsOf
      rw [dget_dset, if_neg]
      rintro rfl
      exact hn.1 (List.mem_map.2 ⟨_, h, rfl⟩)

theorem addEquivs_keys : ∀ (l : List (Str × Str)) (t : Dict Str (List Str)) (k : Str), k ∈ dkeys (addEquivs t l) → k ∈ dkeys t ∨ k ∈ l.map Prod.snd
  | [], _, _, h => .inl h
  | (p, c) :: l, t, k, h => by
    rw [addEquivs] at h
    rcases addEquivs_keys l _ k h with h | h
    · rw [mem_dkeys_dset] at h
      rcases h with rfl | h
      · exact .inr (by simp)
      · exact .inl h
    · exact .inr (by simp only [List.map_cons, List.mem_cons]; exact .inr h)

theorem zip_snd_sub {α β : Type} : ∀ (l : List α) (r : List β), ((l.zip r).map Prod.snd).Sublist r
  | [], r => by simp
  | _ :: _, [] => by simp
  | _ :: l, b :: r => by
    rw [List.zip_cons_cons, List.map_cons]
    exact (zip_snd_sub l r).cons_cons b

theorem keysOf_name {d : CifDic} {c : Str} {l : List Str} (h : keysOf d c = .ok l) : ∃ v pl, Attr d c keysAttr v ∧ listify v = .ok pl ∧ pl = l.map .str := by
  unfold keysOf at h
  cases hv : attrI d c keysAttr with
  | error e => simp only [hv] at h; cases h
  | ok v =>
    simp only [hv] at h
    unfold nameList at h
    cases hl : listify v with
    | error e => simp only [hl] at h; cases h
    | ok pl =>
      simp only [hl] at h
      refine ⟨v, pl, ?_, hl, ?_⟩
      · unfold attrI at hv
        cases hb : d.getItem c with
        | error e => simp only [hb] at hv; cases hv
        | ok b =>
          simp only [hb] at hv
          exact ⟨b, hb, by unfold Block.contains; rw [decide_eq_true_eq]; exact Block.getItem_ok_mem hv, hv⟩
      · have := mapE_all h
        clear h hl
        induction this with
        | nil => rfl
        | @cons a b _ _ h1 _ ih =>
          rw [List.map_cons, ← ih]
          congr 1
          split at h1
          · injection h1 with h1
            rw [h1]
          · cases h1

/-- What the loop that follows the keys adds. -/
theorem followKeys_ok {d : CifDic} (h : Readable d) (hp : Present d) (ho : OwnKeys d) {start : List Str} (hn : start.Nodup) :
    ∀ (n : Nat) (q : Str) (ks : List Str) (t t' : Dict Str (List Str)), LoopCat d q → (∀ k ∈ ks, InCategory d q k) →
    followKeys d ((d.keys.filter (isCat d)).filter (loopIs d)) start n ks t = .ok t' →
    (∀ x s, (x, s) ∈ ks.zip start → ∃ r, Equivs d x r ∧ equivsOf t' s = equivsOf t s ++ r) ∧ (∀ s, s ∉ start → equivsOf t' s = equivsOf t s) ∧
      ∀ s, s ∈ dkeys t' → s ∈ dkeys t ∨ s ∈ start
  | 0, _, _, _, _, _, _, hf => by rw [followKeys] at hf; cases hf
  | n + 1, q, [], t, t', _, _, hf => by
    rw [followKeys] at hf
    injection hf with hf
    subst hf
    exact ⟨by simp, fun _ _ => rfl, fun _ h => .inl h⟩
  | n + 1, q, k :: ks, t, t', hq, hk, hf => by
    rw [followKeys] at hf
    cases h1 : textI d k catAttr with
    | error e => simp only [h1] at hf; cases hf
    | ok thisCat =>
      simp only [h1] at hf
      have hcat : lower thisCat = q := by
        obtain ⟨b, s, hb, hh, e⟩ := hk k (by simp)
        have := (textI_attr h1).unique ⟨b, hb, hh⟩
        injection this with this
        subst this
        rw [e, h.low q hq.1]
      have hget : ∀ s, lower s = q → d.getItem s = d.getItem q := by
        intro s e
        rw [← e]
        exact getItem_low hp (by rw [e]; exact hq.1)
      unfold loopParent at hf
      cases h2 : textI d thisCat catAttr with
      | error e => simp only [h2] at hf; cases hf
      | ok p =>
        simp only [h2] at hf
        have hpar : ∀ a s, lower s = q → (InCategory d a s ↔ lower p = lower a) := by
          intro a s e
          have h2' := textI_attr h2
          unfold Attr at h2'
          rw [hget thisCat hcat] at h2'
          unfold InCategory
          rw [hget s e]
          obtain ⟨b, hb, hh⟩ := h2'
          constructor
          · rintro ⟨b', s', hb', hh', e'⟩
            rw [hb] at hb'
            injection hb' with hb'
            subst hb'
            have := hh.2
            rw [hh'.2] at this
            injection this with this
            injection this with this
            rw [← this]
            exact e'
          · intro e'
            exact ⟨b, p, hb, hh, e'⟩
        have hcats : ∀ x ∈ k :: ks, ∃ s, Attr d x catAttr (.str s) ∧ lower s = q := by
          intro x hx
          obtain ⟨b, s, hb, hh, e⟩ := hk x hx
          exact ⟨s, ⟨b, hb, hh⟩, by rw [e, h.low q hq.1]⟩
        cases h3 : ((d.keys.filter (isCat d)).filter (loopIs d)).filter fun a => decide (lower p = a) with
        | nil =>
          simp only [h3] at hf
          injection hf with hf
          subst hf
          refine ⟨?_, fun _ _ => rfl, fun _ h => .inl h⟩
          intro x s hm
          obtain ⟨sx, hsx, e⟩ := hcats x (List.of_mem_zip hm).1
          refine ⟨[], .top hsx ?_, by simp⟩
          intro a ha hac hin
          rw [hpar a sx e, h.low a ha.1] at hin
          have := List.filter_eq_nil_iff.1 h3 a ((mem_loopedCats h).2 ⟨ha, hac⟩)
          rw [decide_eq_true_eq] at this
          exact this hin
        | cons parent more =>
          cases more with
          | cons _ _ => simp only [h3] at hf; cases hf
          | nil =>
            simp only [h3] at hf
            have hpm : parent ∈ ((d.keys.filter (isCat d)).filter (loopIs d)).filter fun a => decide (lower p = a) := by rw [h3]; exact List.mem_cons_self
            obtain ⟨hpm1, hpm2⟩ := List.mem_filter.1 hpm
            rw [decide_eq_true_eq] at hpm2
            obtain ⟨hpl, hpc⟩ := (mem_loopedCats h).1 hpm1
            cases h4 : keysOf d parent with
            | error e => simp only [h4] at hf; cases hf
            | ok parentKeys =>
              simp only [h4] at hf
              cases h5 : mapE (fun l => textI d l linkAttr) (k :: ks) with
              | error e => simp only [h5] at hf; cases hf
              | ok linked =>
                simp only [h5] at hf
                split at hf
                · rename_i hset
                  obtain ⟨v, pl, hv, hl, e⟩ := keysOf_name h4
                  have hlk : ∀ x ∈ linked, KeyName d parent x := fun x hx =>
                    ⟨v, pl, hv, hl, by rw [e]; exact List.mem_map.2 ⟨x, hset.2 x hx, rfl⟩⟩
                  obtain ⟨g1, g2, g3⟩ := followKeys_ok h hp ho hn n parent linked _ _ hpl (by
                    intro x hx
                    refine (ho parent v pl hpl hpc hv hl).2 x ?_
                    rw [e]
                    exact List.mem_map.2 ⟨x, hset.2 x hx, rfl⟩) hf
                  have hsn := (zip_snd_sub linked start).nodup hn
                  refine ⟨?_, ?_, ?_⟩
                  · intro x s hm
                    obtain ⟨y, hy, hys⟩ := forall2_zip (mapE_all h5) x s hm
                    obtain ⟨r, hr, he⟩ := g1 y s hys
                    obtain ⟨sx, hsx, e'⟩ := hcats x (List.of_mem_zip hm).1
                    refine ⟨y :: r, .up hsx hpl hpc ((hpar parent sx e').2 ?_) (textI_attr hy) (hlk y (List.of_mem_zip hys).1) hr, ?_⟩
                    · rw [hpm2, h.low parent hpl.1]
                    · rw [he, addEquivs_same y s _ _ hsn hys, List.append_assoc]
                      rfl
                  · intro s hs
                    rw [g2 s hs, addEquivs_other]
                    intro hm
                    exact hs ((zip_snd_sub linked start).subset hm)
                  · intro s hs
                    rcases g3 s hs with hs | hs
                    · rcases addEquivs_keys _ _ _ hs with hs | hs
                      · exact .inl hs
                      · exact .inr ((zip_snd_sub linked start).subset hs)
                    · exact .inr hs
                · cases hf

/-- What following the keys of several categories adds. -/
theorem followAll_ok {d : CifDic} (h : Readable d) (hp : Present d) (ho : OwnKeys d) : ∀ (l : List Str) (t t' : Dict Str (List Str)),
    l.Nodup → (∀ c ∈ l, LoopCat d c ∧ IsCategory d c) → (∀ c ∈ l, ∀ k, KeyName d c k → equivsOf t k = []) →
    followAll d ((d.keys.filter (isCat d)).filter (loopIs d)) l t = .ok t' →
    (∀ c ∈ l, ∀ k, KeyName d c k → Equivs d k (equivsOf t' k)) ∧ (∀ k, (∀ c ∈ l, ¬ KeyName d c k) → equivsOf t' k = equivsOf t k) ∧
      ∀ k, k ∈ dkeys t' → k ∈ dkeys t ∨ ∃ c ∈ l, KeyName d c k
  | [], t, t', _, _, _, hf => by
    rw [followAll] at hf
    injection hf with hf
    subst hf
    exact ⟨by simp, fun _ _ => rfl, fun _ h => .inl h⟩
  | c :: cs, t, t', hn, hc, ht, hf => by
    rw [List.nodup_cons] at hn
    rw [followAll] at hf
    cases h1 : keysOf d c with
    | error e => simp only [h1] at hf; cases hf
    | ok ks =>
      simp only [h1] at hf
      cases h2 : followKeys d ((d.keys.filter (isCat d)).filter (loopIs d)) ks (d.table.length + 2) ks t with
      | error e => simp only [h2] at hf; cases hf
      | ok t1 =>
        simp only [h2] at hf
        obtain ⟨hcl, hcc⟩ := hc c (by simp)
        obtain ⟨v, pl, hv, hl, e⟩ := keysOf_name h1
        obtain ⟨o1, o2⟩ := ho c v pl hcl hcc hv hl
        have hks : ∀ k, k ∈ ks ↔ KeyName d c k := by
          intro k
          constructor
          · intro hk
            exact ⟨v, pl, hv, hl, by rw [e]; exact List.mem_map.2 ⟨k, hk, rfl⟩⟩
          · rintro ⟨v', pl', hv', hl', hm⟩
            have := hv.unique hv'
            subst this
            rw [hl] at hl'
            injection hl' with hl'
            subst hl'
            rw [e] at hm
            obtain ⟨k', hk', e'⟩ := List.mem_map.1 hm
            injection e' with e'
            subst e'
            exact hk'
        have hkn : ks.Nodup := by
          rw [e] at o1
          exact nodup_of_map o1
        have hin : ∀ k ∈ ks, InCategory d c k := fun k hk => o2 k (by rw [e]; exact List.mem_map.2 ⟨k, hk, rfl⟩)
        obtain ⟨g1, g2, g3⟩ := followKeys_ok h hp ho hkn _ c ks t t1 hcl hin h2
        have hdisj : ∀ c' ∈ cs, ∀ k, KeyName d c' k → k ∉ ks := by
          rintro c' hc' k ⟨v', pl', hv', hl', hm⟩ hk
          obtain ⟨hcl', hcc'⟩ := hc c' (by simp [hc'])
          obtain ⟨b, s, hb, hh, e1⟩ := (ho c' v' pl' hcl' hcc' hv' hl').2 k hm
          obtain ⟨b', s', hb', hh', e2⟩ := hin k hk
          have := Attr.unique ⟨b, hb, hh⟩ ⟨b', hb', hh'⟩
          injection this with this
          subst this
          rw [e1, h.low c hcl.1, h.low c' hcl'.1] at e2
          subst e2
          exact hn.1 hc'
        obtain ⟨k1, k2, k3⟩ := followAll_ok h hp ho cs t1 t' hn.2 (fun x hx => hc x (by simp [hx])) (by
          intro c' hc' k hk
          rw [g2 k (hdisj c' hc' k hk)]
          exact ht c' (by simp [hc']) k hk) hf
        refine ⟨?_, ?_, ?_⟩
        · intro c' hc' k hk
          rcases List.mem_cons.1 hc' with rfl | hc'
          · have hkk := (hks k).2 hk
            rw [k2 k (fun c'' hc'' hk'' => hdisj c'' hc'' k hk'' hkk)]
            obtain ⟨r, hr, he⟩ := g1 k k (self_zip hkk)
            rw [he, ht c' (by simp) k hk]
            exact hr
          · exact k1 c' hc' k hk
        · intro k hk
          rw [k2 k (fun x hx => hk x (by simp [hx])), g2 k (fun hm => hk c (by simp) ((hks k).1 hm))]
        · intro k hk
          rcases k3 k hk with hk | ⟨x, hx, hk⟩
          · rcases g3 k hk with hk | hk
            · exact .inl hk
            · exact .inr ⟨c, by simp, (hks k).1 hk⟩
          · exact .inr ⟨x, by simp [hx], hk⟩

theorem nameList_texts (l : List Str) : mapE (fun
    | .str s => .ok s
    | _ => Except.error PyErr.attribute) (l.map PyVal.str) = .ok l := by
  induction l with
  | nil => rfl
  | cons a r ih => rw [List.map_cons, mapE, ih]

theorem keysOf_ok {d : CifDic} (hk : Linkable d) {c : Str} (hc : LoopCat d c) (hcc : IsCategory d c) :
    ∃ l, keysOf d c = .ok l ∧ ∀ k, k ∈ l ↔ KeyName d c k := by
  obtain ⟨v, l, h1, h2⟩ := hk.keys c hc hcc
  refine ⟨l, ?_, ?_⟩
  · unfold keysOf
    simp only [h1.attrI]
    unfold nameList
    simp only [h2]
    exact nameList_texts l
  · intro k
    constructor
    · intro hm
      exact ⟨v, _, h1, h2, List.mem_map.2 ⟨k, hm, rfl⟩⟩
    · rintro ⟨v', l', h1', h2', hm⟩
      have := h1.unique h1'
      subst this
      rw [h2] at h2'
      injection h2' with h2'
      subst h2'
      obtain ⟨k', hk', e⟩ := List.mem_map.1 hm
      injection e with e
      subst e
      exact hk'

theorem filter_one {α : Type} [DecidableEq α] {a : α} : ∀ {l : List α}, l.Nodup → a ∈ l → (l.filter fun x => decide (a = x)) = [a]
  | [], _, h => by cases h
  | b :: l, hn, h => by
    rw [List.nodup_cons] at hn
    rw [List.filter_cons]
    by_cases e : a = b
    · subst e
      rw [if_pos (by simp)]
      congr 1
      rw [List.filter_eq_nil_iff]
      intro x hx
      rw [decide_eq_true_eq]
      rintro rfl
      exact hn.1 hx
    · rw [if_neg (by simpa using e)]
      exact filter_one hn.2 (by simpa [e] using h)

/-- The loop that follows the keys comes to an end. -/
theorem followKeys_total {d : CifDic} (h : Readable d) (hp : Present d) (ho : OwnKeys d) (hk : Linkable d) (ha : LoopAcyclic d) {start : List Str} :
    ∀ (n : Nat) (q : Str) (ks : List Str) (t : Dict Str (List Str)) (vs : List Str), LoopCat d q → IsCategory d q → (∀ k, k ∈ ks ↔ KeyName d q k) →
    vs.Nodup → (∀ v ∈ vs, v ∈ d.keys ∧ AtOrAbove d q v) → d.keys.length + 1 ≤ n + vs.length →
    ∃ t', followKeys d ((d.keys.filter (isCat d)).filter (loopIs d)) start n ks t = .ok t'
  | 0, _, _, _, vs, _, _, _, hn, hv, hf => by
    exfalso
    have := nodup_length hn (fun v hm => (hv v hm).1)
    omega
  | n + 1, _, [], t, _, _, _, _, _, _, _ => ⟨t, by rw [followKeys]⟩
  | n + 1, q, k :: ks, t, vs, hq, hqc, hks, hn, hv, hf => by
    rw [followKeys]
    have hcat : ∀ x, KeyName d q x → InCategory d q x := by
      rintro x ⟨v, l, h1, h2, hm⟩
      exact (ho q v l hq hqc h1 h2).2 x hm
    obtain ⟨b, s, hb, hh, e⟩ := hcat k ((hks k).1 (by simp))
    rw [h.low q hq.1] at e
    rw [(Attr.textI ⟨b, hb, hh⟩ : textI d k catAttr = .ok s)]
    have hgs : d.getItem s = d.getItem q := by rw [← e]; exact getItem_low hp (by rw [e]; exact hq.1)
    obtain ⟨p, bq, hbq, hpq⟩ := hk.parents q hq hqc
    have hps : textI d s catAttr = .ok p := Attr.textI ⟨bq, by rw [hgs]; exact hbq, hpq⟩
    unfold loopParent
    simp only [hps]
    have hnd : ((d.keys.filter (isCat d)).filter (loopIs d)).Nodup := (h.nodup.filter _).filter _
    by_cases hm : lower p ∈ (d.keys.filter (isCat d)).filter (loopIs d)
    · rw [filter_one hnd hm]
      obtain ⟨hpl, hpc⟩ := (mem_loopedCats h).1 hm
      have hch : LoopChild d (lower p) q := ⟨hpl, hq, bq, p, hbq, hpq, (CaseFold.lower_lower p).symm⟩
      obtain ⟨pk, h1, h2⟩ := keysOf_ok hk hpl hpc
      have hln : ∀ x ∈ k :: ks, ∃ y, textI d x linkAttr = .ok y := by
        intro x hx
        obtain ⟨l, hl, _⟩ := hk.links _ _ x hch hpc hqc ((hks x).1 hx)
        exact ⟨l, hl.textI⟩
      obtain ⟨linked, h3, h4⟩ := mapE_exists hln
      have hcov : ∀ y, y ∈ linked ↔ KeyName d (lower p) y := by
        intro y
        rw [h4]
        constructor
        · rintro ⟨x, hx, hy⟩
          obtain ⟨l, hl, hkn⟩ := hk.links _ _ x hch hpc hqc ((hks x).1 hx)
          rw [hl.textI] at hy
          injection hy with hy
          subst hy
          exact hkn
        · intro hy
          obtain ⟨x, hx, hl⟩ := hk.all _ _ y hch hpc hqc hy
          exact ⟨x, (hks x).2 hx, hl.textI⟩
      simp only [h1, h3]
      rw [if_pos ⟨fun x hx => (hcov x).2 ((h2 x).1 hx), fun x hx => (h2 x).2 ((hcov x).1 hx)⟩]
      have habove : ∀ v, AtOrAbove d q v → LoopBelow d (lower p) v := by
        rintro v (rfl | hb)
        · exact .child hch
        · exact hb.cons hch
      exact followKeys_total h hp ho hk ha n (lower p) linked _ (lower p :: vs) hpl hpc hcov (by
          rw [List.nodup_cons]
          exact ⟨fun hm => ha _ (habove _ (hv _ hm).2), hn⟩) (by
          intro v hm
          rcases List.mem_cons.1 hm with rfl | hm
          · exact ⟨hpl.1, .inl rfl⟩
          · exact ⟨(hv v hm).1, .inr (habove v (hv v hm).2)⟩) (by simp only [List.length_cons]; omega)
    · have : (((d.keys.filter (isCat d)).filter (loopIs d)).filter fun a => decide (lower p = a)) = [] := by
        rw [List.filter_eq_nil_iff]
        intro x hx
        rw [decide_eq_true_eq]
        rintro rfl
        exact hm hx
      rw [this]
      exact ⟨t, rfl⟩

theorem followAll_total {d : CifDic} (h : Readable d) (hp : Present d) (ho : OwnKeys d) (hk : Linkable d) (ha : LoopAcyclic d) :
    ∀ (l : List Str) (t : Dict Str (List Str)), (∀ c ∈ l, LoopCat d c ∧ IsCategory d c) →
    ∃ t', followAll d ((d.keys.filter (isCat d)).filter (loopIs d)) l t = .ok t'
  | [], t, _ => ⟨t, rfl⟩
  | c :: cs, t, hc => by
    obtain ⟨hcl, hcc⟩ := hc c (by simp)
    obtain ⟨ks, h1, h2⟩ := keysOf_ok hk hcl hcc
    obtain ⟨t1, h3⟩ := followKeys_total h hp ho hk ha (start := ks) (d.table.length + 2) c ks t [c] hcl hcc h2 (by simp)
      (by intro v hv; rw [List.mem_singleton] at hv; subst hv; exact ⟨hcl.1, .inl rfl⟩) (by
        have : d.keys.length = d.table.length := by unfold keys dkeys; rw [List.length_map]
        simp only [List.length_singleton]
        omega)
    obtain ⟨t', h4⟩ := followAll_total h hp ho hk ha cs t1 (fun x hx => hc x (by simp [hx]))
    refine ⟨t', ?_⟩
    rw [followAll]
    simp only [h1, h3, h4]

end Verif.CifDic
