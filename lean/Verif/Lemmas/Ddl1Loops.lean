import Verif.Lemmas.Ddl1Coll
/-! Helper lemmas for DDL1 dictionaries: the second and the third loop, and the types. -/
set_option linter.unusedSectionVars false
namespace Verif.Ddl1
open CifDic Validate Spec
variable [CaseFold]

/-! ## The second loop -/

theorem normFold : ∀ (l : List (Str × Block)) {c : Coll} (f : Found) (_ : Flat c) (_ : (l.map (·.1)).Nodup)
    (_ : ∀ k b, (k, b) ∈ l → dget c.dict k = some b ∧ Ready b),
    ∃ c' f', foldE normaliseOne (c, f) l = .ok (c', f') ∧ Flat c' ∧ c'.unicode = c.unicode ∧
      (∀ k b, (k, b) ∈ l → ∃ b', dget c'.dict k = some b' ∧ Norm b b') ∧ (∀ x, x ∉ l.map (·.1) → dget c'.dict x = dget c.dict x) ∧
      (∀ row, row ∈ f'.types ↔ row ∈ f.types ∨ ∃ k b, (k, b) ∈ l ∧ NewType b row) ∧
      ∀ cat, cat ∈ f'.cats ↔ cat ∈ f.cats ∨ ∃ k b, (k, b) ∈ l ∧ NewCat b cat
  | [], c, f, hf, _, _ => ⟨c, f, rfl, hf, rfl, by simp, fun _ _ => rfl, by simp, by simp⟩
  | (k, b) :: r, c, f, hf, hn, h => by
    rw [List.map_cons, List.nodup_cons] at hn
    obtain ⟨hb, hr⟩ := h k b (by simp)
    obtain ⟨b1, f1, e1, n1, t1, c1⟩ := normalise_ok hr f
    obtain ⟨fl, d1⟩ := hf.set hb b1
    have hk : ∀ k' b', (k', b') ∈ r → k' ≠ k := by
      rintro k' b' hm rfl
      exact hn.1 (List.mem_map.2 ⟨_, hm, rfl⟩)
    obtain ⟨c', f', e2, fl2, u2, d2, d2', t2, c2⟩ := normFold r f1 fl hn.2 (fun k' b' hm => by
      obtain ⟨q1, q2⟩ := h k' b' (List.mem_cons_of_mem _ hm)
      refine ⟨?_, q2⟩
      rw [d1, if_neg (hk k' b' hm), q1])
    refine ⟨c', f', ?_, fl2, u2, ?_, ?_, ?_, ?_⟩
    · have : normaliseOne (c, f) (k, b) = .ok ({ c with dict := dset c.dict k b1 }, f1) := by
        unfold normaliseOne
        simp only [e1]
      simp only [foldE, this, e2]
    · intro k' b' hm
      rcases List.mem_cons.1 hm with e | hm
      · injection e with ea eb
        subst ea eb
        refine ⟨b1, ?_, n1⟩
        rw [d2' _ hn.1, d1, if_pos rfl]
      · exact d2 k' b' hm
    · intro x hx
      simp only [List.map_cons, List.mem_cons, not_or] at hx
      rw [d2' x hx.2, d1, if_neg hx.1]
    · intro row
      rw [t2, t1, or_assoc]
      refine or_congr .rfl ⟨?_, ?_⟩
      · rintro (h | ⟨k', b', h1, h2⟩)
        · exact ⟨k, b, by simp, h⟩
        · exact ⟨k', b', List.mem_cons_of_mem _ h1, h2⟩
      · rintro ⟨k', b', h1, h2⟩
        rcases List.mem_cons.1 h1 with e | hm
        · injection e with ea eb
          subst ea eb
          exact .inl h2
        · exact .inr ⟨k', b', hm, h2⟩
    · intro cat
      rw [c2, c1, or_assoc]
      refine or_congr .rfl ⟨?_, ?_⟩
      · rintro (h | ⟨k', b', h1, h2⟩)
        · exact ⟨k, b, by simp, h⟩
        · exact ⟨k', b', List.mem_cons_of_mem _ h1, h2⟩
      · rintro ⟨k', b', h1, h2⟩
        rcases List.mem_cons.1 h1 with e | hm
        · injection e with ea eb
          subst ea eb
          exact .inl h2
        · exact .inr ⟨k', b', hm, h2⟩

theorem Inst.has {b b1 : Block} {n : Str} (h : Inst b n b1) {a : Str} (hl : lower a = a) (ha : a ≠ nameAttr) {v : PyVal} : Has b1 a v ↔ Has b a v :=
  has_of_same (by rw [hl]; exact h.same a ha)

theorem Inst.contains {b b1 : Block} {n : Str} (h : Inst b n b1) {a : Str} (hl : lower a = a) (ha : a ≠ nameAttr) : b1.contains a = b.contains a :=
  contains_of_same (by rw [hl]; exact h.same a ha)

theorem Inst.over {b b1 : Block} {n : Str} (h : Inst b n b1) : Overview b1 ↔ Overview b := h.has low_category (by decide)

theorem Defines.ok {c : Coll} (hr : Regular c) {k : Str} {b : Block} {n : Str} (h : Defines c k b n) :
    DefOk b ∧ Solid n ∧ n.length ≤ 75 ∧ ∃ i, FoundAs b n i := by
  have hok := hr.defs k b h.1
  obtain ⟨ns, h1, _, h3⟩ := hok.named
  obtain ⟨_, ns', h4, h5⟩ := h
  rw [h4.unique h1] at h5
  exact ⟨hok, h3 n h5⟩

theorem Inst.ready {c : Coll} (hr : Regular c) {k : Str} {b : Block} {n : Str} (hd : Defines c k b n) {b1 : Block} (h : Inst b n b1) : Ready b1 := by
  obtain ⟨hok, hsol, _, i, hi⟩ := hd.ok hr
  refine ⟨h.wf, h.limit, ?_, ?_, ?_, ?_, ?_⟩
  · rw [h.contains low_range (by decide)]
    intro hc
    obtain ⟨s, lo, hi, h1, h2⟩ := hok.range hc
    exact ⟨s, lo, hi, (h.has low_range (by decide)).2 h1, h2⟩
  · rw [h.contains low_construct (by decide)]
    intro hc
    obtain ⟨s, t, h1, h2, h3, h4⟩ := hok.construct hc
    exact ⟨n, s, t, h.name, hsol.printable, (h.has low_construct (by decide)).2 h1, (h.has low_type (by decide)).2 h2⟩
  · rw [h.contains low_category (by decide)]
    intro hc
    obtain ⟨cat, h1, _⟩ := hok.category hc
    exact ⟨_, (h.has low_category (by decide)).2 h1⟩
  · intro ho
    rcases hi with ⟨_, t, e, ht⟩ | ⟨hno, _⟩
    · refine ⟨n, i, t, h.name, e, ht, ?_⟩
      intro ch hc
      have := hsol ch (by rw [e]; simp [hc])
      omega
    · exact absurd (h.over.1 ho) hno
  · intro _
    rw [h.contains low_max (by decide), h.contains low_min (by decide)]
    exact ⟨hok.fresh _ (by simp), hok.fresh _ (by simp)⟩

/-- After the second loop. -/
structure Normed (c0 c : Coll) (f : Found) : Prop where
  flat : Flat c
  uni : c.unicode = c0.unicode
  dic : ∃ m m', dget c0.dict dicBlock = some m ∧ dget c.dict dicBlock = some m' ∧ Norm m m'
  defs : ∀ k b n, Defines c0 k b n → ∃ b1 b', dget c.dict (lower n) = some b' ∧ Inst b n b1 ∧ Norm b1 b'
  only : ∀ x b', dget c.dict x = some b' → x = dicBlock ∨ ∃ k b n, Defines c0 k b n ∧ x = lower n
  types : ∀ row, row ∈ f.types ↔ ∃ k b n s t, Defines c0 k b n ∧ Has b constructAttr (.str s) ∧ Has b typeAttr (.str t) ∧
    row = (.str (n ++ "_type".toList), .str (s ++ ['$']), .str t)
  cats : ∀ cat, cat ∈ f.cats ↔ Declares c0 cat

theorem Regular.dicReady {c : Coll} (hr : Regular c) {m : Block} (hm : dget c.dict dicBlock = some m) : Ready m := by
  obtain ⟨m', h1, h2, h3, h4⟩ := hr.dic
  rw [hm] at h1
  injection h1 with h1
  subst h1
  have no {a : Str} (ha : a ∈ [nameAttr, categoryAttr, rangeAttr, constructAttr, catIdAttr, codeAttr, codeConstructAttr, primitiveAttr])
      {p : Prop} (h : m.contains a = true) : p := by
    rw [h4 a ha] at h
    cases h
  exact ⟨(Block.reachable_wf h2).1, h3, fun h => no (by simp) h, fun h => no (by simp) h, fun h => no (by simp) h,
    fun h => no (a := categoryAttr) (by simp) h.1, fun h => no (a := rangeAttr) (by simp) h⟩

theorem Defines.key {c : Coll} (hr : Regular c) {k : Str} {b : Block} {n : Str} (h : Defines c k b n) : lower n ≠ dicBlock := by
  intro e
  obtain ⟨m, hm, _⟩ := hr.dic
  exact hr.keys k b n h (e ▸ (hr.cons.mem_dict _).1 (dget_isSome.1 ⟨m, hm⟩))

theorem Defines.same {c : Coll} (hr : Regular c) {k : Str} {b : Block} {n : Str} (h : Defines c k b n) {k' : Str} {b' : Block} {n' : Str}
    (h' : Defines c k' b' n') (e : lower n = lower n') : k = k' ∧ b = b' ∧ n = n' := by
  obtain ⟨rfl, rfl⟩ := hr.apart _ _ _ _ _ _ h h' e
  have := h.1.1.symm.trans h'.1.1
  injection this with this
  exact ⟨rfl, this, rfl⟩

theorem normaliseAll_ok {c0 c : Coll} (hr : Regular c0) (h : Expanded c0 c) : ∃ c' f, normaliseAll c = .ok (c', f) ∧ Normed c0 c' f := by
  obtain ⟨l, h1, h2, h3⟩ := h.flat.items
  obtain ⟨m, hm, _⟩ := hr.dic
  have hdic : dget c.dict dicBlock = some m := by rw [h.dic, hm]
  have kind : ∀ k b, dget c.dict k = some b → (k = dicBlock ∧ b = m) ∨ ∃ k' b' n, Defines c0 k' b' n ∧ k = lower n ∧ Inst b' n b := by
    intro k b hb
    by_cases hk : k = dicBlock
    · subst hk
      rw [hdic] at hb
      injection hb with hb
      exact .inl ⟨rfl, hb.symm⟩
    · obtain ⟨k', b', n, hd, rfl⟩ := h.only k b hb hk
      obtain ⟨b1, q1, q2⟩ := h.defs k' b' n hd
      rw [hb] at q1
      injection q1 with q1
      subst q1
      exact .inr ⟨k', b', n, hd, rfl, q2⟩
  obtain ⟨c', f, e, fl, u, d, d', ty, ca⟩ := normFold l {} h.flat (by rw [h2]; exact h.flat.cons.nd_visible) (fun k b hm' => by
    have hb := (h3 k b).1 hm'
    refine ⟨hb, ?_⟩
    rcases kind k b hb with ⟨rfl, rfl⟩ | ⟨k', b', n, hd, _, hi⟩
    · exact hr.dicReady hm
    · exact hi.ready hr hd)
  refine ⟨c', f, ?_, fl, u.trans h.uni, ?_, ?_, ?_, ?_, ?_⟩
  · unfold normaliseAll
    rw [h1]
    exact e
  · obtain ⟨m', q1, q2⟩ := d dicBlock m ((h3 _ _).2 hdic)
    exact ⟨m, m', hm, q1, q2⟩
  · intro k b n hd
    obtain ⟨b1, q1, q2⟩ := h.defs k b n hd
    obtain ⟨b', q3, q4⟩ := d (lower n) b1 ((h3 _ _).2 q1)
    exact ⟨b1, b', q3, q2, q4⟩
  · intro x b' hb
    have : ∃ b, dget c.dict x = some b := by
      by_cases hx : x ∈ l.map (·.1)
      · obtain ⟨⟨x', b⟩, hm', rfl⟩ := List.mem_map.1 hx
        exact ⟨b, (h3 _ _).1 hm'⟩
      · rw [d' x hx] at hb
        exact ⟨b', hb⟩
    obtain ⟨b, hb⟩ := this
    rcases kind x b hb with ⟨rfl, _⟩ | ⟨k', b'', n, hd, e, _⟩
    · exact .inl rfl
    · exact .inr ⟨k', b'', n, hd, e⟩
  · intro row
    rw [ty]
    simp only [List.not_mem_nil, false_or]
    constructor
    · rintro ⟨k, b, hm', n, s, t, q1, q2, q3, rfl⟩
      rcases kind k b ((h3 _ _).1 hm') with ⟨rfl, rfl⟩ | ⟨k', b', n', hd, rfl, hi⟩
      · obtain ⟨m', w1, _, _, w4⟩ := hr.dic
        rw [hm] at w1
        injection w1 with w1
        subst w1
        have := q2.1
        rw [w4 constructAttr (by simp)] at this
        cases this
      · have := Has.unique hi.name q1
        injection this with this
        subst this
        exact ⟨k', b', n', s, t, hd, (hi.has low_construct (by decide)).1 q2, (hi.has low_type (by decide)).1 q3, rfl⟩
    · rintro ⟨k, b, n, s, t, hd, q2, q3, rfl⟩
      obtain ⟨b1, w1, w2⟩ := h.defs k b n hd
      exact ⟨lower n, b1, (h3 _ _).2 w1, n, s, t, w2.name, (w2.has low_construct (by decide)).2 q2, (w2.has low_type (by decide)).2 q3, rfl⟩
  · intro cat
    rw [ca]
    simp only [List.not_mem_nil, false_or]
    constructor
    · rintro ⟨k, b, hm', ho, n, t, q1, q2, q3⟩
      rcases kind k b ((h3 _ _).1 hm') with ⟨rfl, rfl⟩ | ⟨k', b', n', hd, rfl, hi⟩
      · obtain ⟨m', w1, _, _, w4⟩ := hr.dic
        rw [hm] at w1
        injection w1 with w1
        subst w1
        have := ho.1
        rw [w4 categoryAttr (by simp)] at this
        cases this
      · have := Has.unique hi.name q1
        injection this with this
        subst this
        exact ⟨k', b', n', hd, hi.over.1 ho, .inl ⟨hi.over.1 ho, t, q2, q3⟩⟩
    · rintro ⟨k, b, n, hd, ho, hfa⟩
      obtain ⟨b1, w1, w2⟩ := h.defs k b n hd
      rcases hfa with ⟨_, t, q2, q3⟩ | ⟨hno, _⟩
      · exact ⟨lower n, b1, (h3 _ _).2 w1, w2.over.2 ho, n, t, w2.name, q2, q3⟩
      · exact absurd ho hno

/-! ## The third loop -/

/-- The block made up for a category. -/
structure Made (cat : Str) (b : Block) : Prop where
  wf : b.WF
  limit : ∀ m, b.maxName = some m → 75 ≤ m
  over : b.overwrite = true
  category : Has b categoryAttr (.str overview)
  ident : Has b catIdAttr (.str cat)
  type : Has b typeAttr (.str "null".toList)
  rest : ∀ x, x ∉ [categoryAttr, catIdAttr, typeAttr] → dget b.block x = none

theorem Made.unicode {cat : Str} {b : Block} (h : Made cat b) (u : Bool) : Made cat { b with unicode := u } :=
  ⟨Block.wf_settings h.wf _ _ _, h.limit, h.over, h.category, h.ident, h.type, h.rest⟩

theorem newCategory_ok {cat : Str} (hs : Solid cat) : ∃ b, newCategory cat = .ok b ∧ Made cat b := by
  have hw0 : Block.WF { maxName := some 75 } := (Block.reachable_wf (.fresh _ ⟨rfl, rfl, rfl, rfl⟩)).1
  have lim0 : ∀ m, ({ maxName := some 75 } : Block).maxName = some m → 75 ≤ m := by
    intro m hm
    injection hm with hm
    omega
  obtain ⟨b1, e1, k1, g1⟩ := setE_new hw0 (attrOk lim0 (a := categoryAttr) (by simp [setAttrs'])) (.inl rfl)
    (storable_str (s := overview) (by unfold Printable; decide))
  rw [low_category] at k1
  have lim1 : ∀ m, b1.maxName = some m → 75 ≤ m := by rw [k1.max]; exact lim0
  obtain ⟨b2, e2, k2, g2⟩ := setE_new k1.wf (attrOk lim1 (a := catIdAttr) (by simp [setAttrs'])) (.inl k1.over)
    (storable_str (s := cat) hs.printable)
  rw [low_catId] at k2
  have k12 := k1.trans k2
  have lim2 : ∀ m, b2.maxName = some m → 75 ≤ m := by rw [k12.max]; exact lim0
  obtain ⟨b3, e3, k3, g3⟩ := setE_new k2.wf (attrOk lim2 (a := typeAttr) (by simp [setAttrs'])) (.inl k12.over)
    (storable_str (s := "null".toList) (by unfold Printable; decide))
  rw [low_type] at k3
  have k13 := k12.trans k3
  refine ⟨b3, ?_, k3.wf, by rw [k13.max]; exact lim0, k13.over, ?_, ?_, g3, ?_⟩
  · simp only [newCategory, setAllE, e1, e2, e3]
  · refine (has_of_same (b := b1) ?_).2 g1
    rw [low_category, k3.same _ (by decide), k2.same _ (by decide)]
  · refine (has_of_same (b := b2) ?_).2 g2
    rw [low_catId, k3.same _ (by decide)]
  · intro x hx
    rw [k13.same x (by simpa using hx)]
    rfl

theorem madeName_solid {cat : Str} (h : Solid cat) : Solid (madeName cat) := by
  intro ch hc
  simp only [madeName, List.mem_cons, List.mem_append] at hc
  rcases hc with rfl | h1 | h1
  · decide
  · exact h ch h1
  · have : ∀ ch ∈ "_[]".toList, 33 ≤ ch.toNat ∧ ch.toNat ≤ 126 := by decide
    exact this ch h1

theorem Solid.low {s : Str} (h : Solid s) : lower s = asciiLower s := CaseFold.lower_ascii s fun ch hc => by have := h ch hc; omega

theorem madeName_low {cat : Str} (h : Solid cat) : lower (madeName cat) = '_' :: (asciiLower cat ++ "_[]".toList) := by
  rw [(madeName_solid h).low]
  unfold madeName asciiLower
  simp only [List.map_cons, List.map_append]
  rfl

theorem madeName_inj {cat cat' : Str} (h : Solid cat) (h' : Solid cat') (e : lower (madeName cat) = lower (madeName cat')) : lower cat = lower cat' := by
  rw [madeName_low h, madeName_low h'] at e
  injection e with _ e
  rw [h.low, h'.low]
  exact List.append_cancel_right e

theorem madeName_dic {cat : Str} (h : Solid cat) : lower (madeName cat) ≠ dicBlock := by
  rw [madeName_low h]
  intro e
  exact absurd (List.cons.inj e).1 (by decide)

/-- Some block of the list belongs to the category. -/
def UsesIn (c0 : Coll) (ks : List Str) (cat : Str) : Prop := ∃ k b, k ∈ ks ∧ dget c0.dict k = some b ∧ Has b categoryAttr (.str cat)

theorem catFold {c0 : Coll} {G : Str → Prop} (hG : ∀ cat, G cat → Solid cat ∧ cat.length ≤ 71)
    (hinj : ∀ cat cat', G cat → G cat' → lower (madeName cat) = lower (madeName cat') → cat = cat') :
    ∀ (ks : List Str) {c : Coll} (f : Found) (_ : Flat c)
    (_ : ∀ k ∈ ks, ∃ b, dget c0.dict k = some b ∧ dget c.dict k = some b ∧ (b.contains categoryAttr = true → ∃ cat, Has b categoryAttr (.str cat) ∧ G cat))
    (_ : ∀ cat, G cat → cat ∉ f.cats → dget c.dict (lower (madeName cat)) = none),
    ∃ c' f', foldE addCategory (c, f) ks = .ok (c', f') ∧ Flat c' ∧ c'.unicode = c.unicode ∧ f'.types = f.types ∧
      (∀ cat, cat ∈ f'.cats ↔ cat ∈ f.cats ∨ UsesIn c0 ks cat) ∧
      (∀ cat, cat ∉ f.cats → UsesIn c0 ks cat → ∃ b, dget c'.dict (lower (madeName cat)) = some b ∧ Made cat b) ∧
      ∀ x, (∀ cat, cat ∉ f.cats → UsesIn c0 ks cat → x ≠ lower (madeName cat)) → dget c'.dict x = dget c.dict x
  | [], c, f, hf, _, _ => by
    have no : ∀ cat, ¬ UsesIn c0 [] cat := fun cat ⟨k, b, h, _⟩ => by cases h
    exact ⟨c, f, rfl, hf, rfl, rfl, fun cat => by simp [no], fun cat _ h => absurd h (no cat), fun _ _ => rfl⟩
  | k :: r, c, f, hf, h, ha => by
    obtain ⟨b, hb0, hb, hc⟩ := h k (by simp)
    have hget : c.getItem k = .ok b := hf.get (by rw [hf.low hb]; exact hb)
    have split : ∀ cat, UsesIn c0 (k :: r) cat ↔ Has b categoryAttr (.str cat) ∨ UsesIn c0 r cat := by
      intro cat
      constructor
      · rintro ⟨k', b', hm, q1, q2⟩
        rcases List.mem_cons.1 hm with rfl | hm
        · rw [hb0] at q1
          injection q1 with q1
          subst q1
          exact .inl q2
        · exact .inr ⟨k', b', hm, q1, q2⟩
      · rintro (h | ⟨k', b', hm, q1, q2⟩)
        · exact ⟨k, b, by simp, hb0, h⟩
        · exact ⟨k', b', List.mem_cons_of_mem _ hm, q1, q2⟩
    by_cases hnew : ∃ cat, Has b categoryAttr (.str cat) ∧ cat ∉ f.cats
    · obtain ⟨cat, hcat, hnot⟩ := hnew
      obtain ⟨cat', hcat', hg⟩ := hc hcat.1
      have := Has.unique hcat hcat'
      injection this with this
      subst this
      obtain ⟨nb, e1, mk⟩ := newCategory_ok (hG cat hg).1
      have hlen : (madeName cat).length ≤ 75 := by
        have := (hG cat hg).2
        have h3 : "_[]".toList.length = 3 := by decide
        simp only [madeName, List.length_cons, List.length_append, h3]
        omega
      obtain ⟨c1, e2, fl1, u1, d1⟩ := hf.put (madeName_solid (hG cat hg).1) hlen (ha cat hg hnot) nb
      obtain ⟨c', f', e3, fl', u', t', ca', mk', o'⟩ := catFold hG hinj r (c := c1) { f with cats := f.cats ++ [cat] } fl1
        (fun k' hk' => by
          obtain ⟨b', q0, q1, q2⟩ := h k' (List.mem_cons_of_mem _ hk')
          refine ⟨b', q0, ?_, q2⟩
          rw [d1, if_neg, q1]
          rintro rfl
          rw [ha cat hg hnot] at q1
          cases q1)
        (fun cat2 hg2 hn2 => by
          simp only [List.mem_append, List.mem_singleton, not_or] at hn2
          rw [d1, if_neg, ha cat2 hg2 hn2.1]
          intro e
          exact hn2.2 (hinj _ _ hg2 hg e))
      simp only [List.mem_append, List.mem_singleton] at ca' mk' o'
      refine ⟨c', f', ?_, fl', u'.trans u1, t', ?_, ?_, ?_⟩
      · have : addCategory (c, f) k = .ok (c1, { f with cats := f.cats ++ [cat] }) := by
          unfold addCategory
          simp only [hget]
          rw [if_pos hcat.1, hcat.2]
          simp only
          rw [if_neg hnot, e1]
          simp only
          have e2' : putE c (.str ('_' :: (cat ++ "_[]".toList))) nb = .ok c1 := e2
          rw [e2']
        simp only [foldE, this, e3]
      · intro x
        rw [ca', split, or_assoc]
        refine or_congr .rfl (or_congr ⟨?_, ?_⟩ .rfl)
        · rintro rfl; exact hcat
        · intro hx
          have := Has.unique hx hcat
          injection this
      · intro x hx hu
        by_cases e : x = cat
        · subst e
          refine ⟨{ nb with unicode := c.unicode }, ?_, mk.unicode _⟩
          rw [o' _ (fun cat2 hn2 hu2 e => ?_), d1, if_pos rfl]
          obtain ⟨k2, b2, hk2, q1, q2⟩ := hu2
          obtain ⟨b3, q3, _, q4⟩ := h k2 (List.mem_cons_of_mem _ hk2)
          rw [q1] at q3
          injection q3 with q3
          subst q3
          obtain ⟨cat3, q5, q6⟩ := q4 q2.1
          have := Has.unique q2 q5
          injection this with this
          subst this
          exact hn2 (.inr (hinj _ _ hg q6 e).symm)
        · refine mk' x (fun hh => hh.elim hx e) ?_
          rcases (split x).1 hu with h1 | h1
          · have := Has.unique h1 hcat
            injection this with this
            exact absurd this e
          · exact h1
      · intro x hx
        rw [o' x (fun cat2 hn2 hu2 => hx cat2 (fun hm => hn2 (.inl hm)) ((split cat2).2 (.inr hu2))), d1, if_neg (hx cat hnot ((split cat).2 (.inl hcat)))]
    · have hsame : addCategory (c, f) k = .ok (c, f) := by
        unfold addCategory
        simp only [hget]
        cases hcc : b.contains categoryAttr with
        | false => simp
        | true =>
          obtain ⟨cat, hcat, _⟩ := hc hcc
          rw [if_pos rfl, hcat.2]
          simp only
          rw [if_pos (Classical.byContradiction fun hn => hnew ⟨cat, hcat, hn⟩)]
      obtain ⟨c', f', e3, fl', u', t', ca', mk', o'⟩ := catFold hG hinj r (c := c) f hf (fun k' hk' => h k' (List.mem_cons_of_mem _ hk')) ha
      have rest : ∀ cat, cat ∉ f.cats → (UsesIn c0 (k :: r) cat ↔ UsesIn c0 r cat) := by
        intro cat hn
        rw [split]
        exact ⟨fun h => h.elim (fun h => absurd ⟨cat, h, hn⟩ hnew) id, .inr⟩
      refine ⟨c', f', by simp only [foldE, hsame, e3], fl', u', t', ?_, ?_, ?_⟩
      · intro cat
        rw [ca', split]
        by_cases hm : cat ∈ f.cats
        · simp [hm]
        · simp only [hm, false_or]
          exact ⟨.inr, fun h => h.elim (fun h => absurd ⟨cat, h, hm⟩ hnew) id⟩
      · intro cat hn hu
        exact mk' cat hn ((rest cat hn).1 hu)
      · intro x hx
        exact o' x (fun cat hn hu => hx cat hn ((rest cat hn).2 hu))

/-! ## All of it -/

/-- After the blocks have been dealt with. -/
structure Opened (c0 c : Coll) : Prop where
  flat : Flat c
  dic : ∃ m m' m'', dget c0.dict dicBlock = some m ∧ dget c.dict dicBlock = some m'' ∧ Norm m m' ∧ Kin m' m'' [codeAttr, codeConstructAttr, primitiveAttr] ∧
    ∃ rows : List (Str × Str × Str), Has m'' codeAttr (.list (rows.map fun r => .str r.1)) ∧
      Has m'' codeConstructAttr (.list (rows.map fun r => .str r.2.1)) ∧ Has m'' primitiveAttr (.list (rows.map fun r => .str r.2.2)) ∧
      ∀ x y z, (x, y, z) ∈ rows ↔ TypeRow c0 x y z
  defs : ∀ k b n, Defines c0 k b n → ∃ b1 b', dget c.dict (lower n) = some b' ∧ Inst b n b1 ∧ Norm b1 b'
  made : ∀ cat, Missing c0 cat → ∃ b, dget c.dict (lower (madeName cat)) = some b ∧ Made cat b
  only : ∀ x b', dget c.dict x = some b' → x = dicBlock ∨ (∃ k b n, Defines c0 k b n ∧ x = lower n) ∨ ∃ cat, Missing c0 cat ∧ x = lower (madeName cat)

theorem Norm.has {b b' : Block} (h : Norm b b') {a : Str} (hl : lower a = a) (ha : a ∉ [listAttr, condAttr, maxAttr, minAttr, typeAttr, catIdAttr])
    {v : PyVal} : Has b' a v ↔ Has b a v := has_of_same (by rw [hl]; exact h.kin.same a ha)

theorem Norm.contains {b b' : Block} (h : Norm b b') {a : Str} (hl : lower a = a) (ha : a ∉ [listAttr, condAttr, maxAttr, minAttr, typeAttr, catIdAttr]) :
    b'.contains a = b.contains a := contains_of_same (by rw [hl]; exact h.kin.same a ha)

theorem Uses.solid {c : Coll} (hr : Regular c) {cat : Str} (h : Uses c cat) : Solid cat ∧ cat.length ≤ 71 := by
  obtain ⟨k, b, n, hd, hc⟩ := h
  obtain ⟨cat', h1, h2⟩ := (hd.ok hr).1.category hc.1
  have := Has.unique hc h1
  injection this with this
  subst this
  exact h2

theorem categories_ok {c0 c : Coll} {f : Found} (hr : Regular c0) (h : Normed c0 c f) :
    ∃ l c' f', items c = .ok l ∧ foldE addCategory (c, f) (l.map (·.1)) = .ok (c', f') ∧ Flat c' ∧ f'.types = f.types ∧
      (∀ cat, Missing c0 cat → ∃ b, dget c'.dict (lower (madeName cat)) = some b ∧ Made cat b) ∧
      ∀ x, (∀ cat, Missing c0 cat → x ≠ lower (madeName cat)) → dget c'.dict x = dget c.dict x := by
  obtain ⟨l, h1, h2, h3⟩ := h.flat.items
  have uses : ∀ cat, UsesIn c (l.map (·.1)) cat ↔ Uses c0 cat := by
    intro cat
    constructor
    · rintro ⟨k, b, _, hb, hc⟩
      rcases h.only k b hb with rfl | ⟨k', b', n, hd, rfl⟩
      · obtain ⟨m, m', q1, q2, q3⟩ := h.dic
        rw [hb] at q2
        injection q2 with q2
        subst q2
        obtain ⟨m1, w1, _, _, w4⟩ := hr.dic
        rw [q1] at w1
        injection w1 with w1
        subst w1
        have := hc.1
        rw [q3.contains low_category (by decide), w4 categoryAttr (by simp)] at this
        cases this
      · obtain ⟨b1, b2, q1, q2, q3⟩ := h.defs k' b' n hd
        rw [hb] at q1
        injection q1 with q1
        subst q1
        exact ⟨k', b', n, hd, (q2.has low_category (by decide)).1 ((q3.has low_category (by decide)).1 hc)⟩
    · rintro ⟨k, b, n, hd, hc⟩
      obtain ⟨b1, b2, q1, q2, q3⟩ := h.defs k b n hd
      exact ⟨lower n, b2, List.mem_map.2 ⟨_, (h3 _ _).2 q1, rfl⟩, q1, (q3.has low_category (by decide)).2 ((q2.has low_category (by decide)).2 hc)⟩
  have miss : ∀ cat, Missing c0 cat ↔ cat ∉ f.cats ∧ UsesIn c (l.map (·.1)) cat := by
    intro cat
    rw [uses, h.cats]
    exact ⟨fun hh => ⟨hh.2, hh.1⟩, fun hh => ⟨hh.2, hh.1⟩⟩
  obtain ⟨c', f', e, fl, _, t, _, mk, o⟩ := catFold (c0 := c) (G := Uses c0) (fun cat hu => hu.solid hr)
    (fun cat cat' hu hu' e => hr.cats cat cat' hu (.inl hu') (madeName_inj (hu.solid hr).1 (hu'.solid hr).1 e)) (l.map (·.1)) (c := c) f h.flat
    (fun k hk => by
      obtain ⟨⟨k', b⟩, hm, rfl⟩ := List.mem_map.1 hk
      have hb := (h3 _ _).1 hm
      refine ⟨b, hb, hb, fun hc => ?_⟩
      rcases h.only _ b hb with hk' | ⟨k'', b', n, hd, hk'⟩
      · subst hk'
        obtain ⟨m, m', q1, q2, q3⟩ := h.dic
        rw [hb] at q2
        injection q2 with q2
        subst q2
        obtain ⟨m1, w1, _, _, w4⟩ := hr.dic
        rw [q1] at w1
        injection w1 with w1
        subst w1
        rw [q3.contains low_category (by decide), w4 categoryAttr (by simp)] at hc
        cases hc
      · subst hk'
        obtain ⟨b1, b2, q1, q2, q3⟩ := h.defs k'' b' n hd
        rw [hb] at q1
        injection q1 with q1
        subst q1
        rw [q3.contains low_category (by decide), q2.contains low_category (by decide)] at hc
        obtain ⟨cat, w1, w2⟩ := (hd.ok hr).1.category hc
        exact ⟨cat, (q3.has low_category (by decide)).2 ((q2.has low_category (by decide)).2 w1), k'', b', n, hd, w1⟩)
    (fun cat hu hn => by
      have hmiss : Missing c0 cat := ⟨hu, fun hd => hn ((h.cats cat).2 hd)⟩
      cases hb : dget c.dict (lower (madeName cat)) with
      | none => rfl
      | some b =>
        rcases h.only _ b hb with e | ⟨k, b', n, hd, e⟩
        · exact absurd e (madeName_dic (hu.solid hr).1)
        · exact absurd e ((hr.made cat hmiss).2 k b' n hd))
  exact ⟨l, c', f', h1, e, fl, t, fun cat hm => mk cat ((miss cat).1 hm).1 ((miss cat).1 hm).2,
    fun x hx => o x fun cat q1 q2 => hx cat ((miss cat).2 ⟨q1, q2⟩)⟩

theorem normaliseDic_ok {c : Coll} (hr : Regular c) : ∃ c' f, normaliseDic c = .ok (c', f) ∧ Opened c c' := by
  obtain ⟨c1, e1, x1⟩ := expand_ok hr
  obtain ⟨c2, f2, e2, x2⟩ := normaliseAll_ok hr x1
  obtain ⟨l, c3, f3, e3, e4, fl3, t3, mk3, o3⟩ := categories_ok hr x2
  obtain ⟨m, m', hm, hm', hn⟩ := x2.dic
  have hdic3 : dget c3.dict dicBlock = some m' := by
    rw [o3 _ (fun cat hc e => madeName_dic (hc.1.solid hr).1 e.symm), hm']
  obtain ⟨m0, w1, w2, w3, w4⟩ := hr.dic
  rw [hm] at w1
  injection w1 with w1
  subst w1
  have lim : ∀ l, m'.maxName = some l → 75 ≤ l := by rw [hn.kin.max]; exact w3
  have absent : ∀ a ∈ [codeAttr, codeConstructAttr, primitiveAttr], NameOk m' a ∧ m'.contains a = false := by
    intro a ha
    refine ⟨attrOk lim ?_, ?_⟩
    · simp only [List.mem_cons, List.not_mem_nil, or_false] at ha
      rcases ha with rfl | rfl | rfl <;> simp [setAttrs']
    · have hla : lower a = a := by
        simp only [List.mem_cons, List.not_mem_nil, or_false] at ha
        rcases ha with rfl | rfl | rfl
        · exact low_code
        · exact low_codeConstruct
        · exact low_primitive
      rw [hn.contains hla, w4 a]
      · simp only [List.mem_cons, List.not_mem_nil, or_false] at ha ⊢
        rcases ha with rfl | rfl | rfl <;> simp
      · simp only [List.mem_cons, List.not_mem_nil, or_false] at ha
        rcases ha with rfl | rfl | rfl <;> decide
  let rows : List (PyVal × PyVal × PyVal) := baseTypes ++ f3.types
  have hrows : ∀ row ∈ rows, ∃ x y z, row = (.str x, .str y, .str z) ∧ Printable x ∧ Printable y ∧ Printable z ∧ TypeRow c x y z := by
    intro row hrow
    rcases List.mem_append.1 hrow with h | h
    · simp only [baseTypes, List.mem_cons, List.not_mem_nil, or_false] at h
      rcases h with rfl | rfl | rfl
      · exact ⟨_, _, _, rfl, by unfold Printable; decide, by unfold Printable; decide, by unfold Printable; decide, .char⟩
      · exact ⟨_, _, _, rfl, by unfold Printable; decide, by unfold Printable; decide, by unfold Printable; decide, .numb⟩
      · exact ⟨_, _, _, rfl, by unfold Printable; decide, by unfold Printable; decide, by unfold Printable; decide, .null⟩
    · rw [t3, x2.types] at h
      obtain ⟨k, b, n, s, t, hd, q1, q2, rfl⟩ := h
      obtain ⟨hok, hsol, _⟩ := hd.ok hr
      obtain ⟨s', t', p1, p2, p3, p4⟩ := hok.construct q1.1
      have e1 := Has.unique q1 p1
      have e2 := Has.unique q2 p2
      injection e1 with e1
      injection e2 with e2
      subst e1 e2
      exact ⟨_, _, _, rfl, hsol.printable.append (by unfold Printable; decide), p3.append (by unfold Printable; decide), p4, .own hd q1 q2⟩
  have hback : ∀ x y z, TypeRow c x y z → (PyVal.str x, PyVal.str y, PyVal.str z) ∈ rows := by
    intro x y z h
    refine List.mem_append.2 ?_
    cases h with
    | char => exact .inl (by simp [baseTypes])
    | numb => exact .inl (by simp [baseTypes])
    | null => exact .inl (by simp [baseTypes])
    | own hd q1 q2 =>
      refine .inr ?_
      rw [t3, x2.types]
      exact ⟨_, _, _, _, _, hd, q1, q2, rfl⟩
  obtain ⟨m'', e5, k5, g5⟩ := addLoop_new (b := m') hn.kin.wf (names := [codeAttr, codeConstructAttr, primitiveAttr])
    (cols := [rows.map (·.1), rows.map (·.2.1), rows.map (·.2.2)]) rfl absent
    (by
      intro l hl
      simp only [List.mem_cons, List.not_mem_nil, or_false] at hl
      rcases hl with rfl | rfl | rfl
      all_goals
        refine ⟨by simp [rows, baseTypes], ?_⟩
        intro v hv
        obtain ⟨row, hrow, rfl⟩ := List.mem_map.1 hv
        obtain ⟨x, y, z, rfl, p1, p2, p3, _⟩ := hrows row hrow
      · exact .inl ⟨_, rfl, p1⟩
      · exact .inl ⟨_, rfl, p2⟩
      · exact .inl ⟨_, rfl, p3⟩)
    ⟨rows.length, by
      intro l hl
      simp only [List.mem_cons, List.not_mem_nil, or_false] at hl
      rcases hl with rfl | rfl | rfl <;> simp⟩
    (by simp only [List.map_cons, List.map_nil, low_code, low_codeConstruct, low_primitive]; decide)
  simp only [List.map_cons, List.map_nil, low_code, low_codeConstruct, low_primitive] at k5
  obtain ⟨fl4, d4⟩ := fl3.set hdic3 m''
  have texts : ∃ rs : List (Str × Str × Str), rows = rs.map fun r => (PyVal.str r.1, PyVal.str r.2.1, PyVal.str r.2.2) := by
    have : ∀ l : List (PyVal × PyVal × PyVal), (∀ row ∈ l, ∃ x y z : Str, row = (.str x, .str y, .str z)) →
        ∃ rs : List (Str × Str × Str), l = rs.map fun r => (PyVal.str r.1, PyVal.str r.2.1, PyVal.str r.2.2) := by
      intro l
      induction l with
      | nil => intro _; exact ⟨[], rfl⟩
      | cons a r ih =>
        intro h
        obtain ⟨x, y, z, rfl⟩ := h a (by simp)
        obtain ⟨rs, rfl⟩ := ih (fun row hr => h row (List.mem_cons_of_mem _ hr))
        exact ⟨(x, y, z) :: rs, rfl⟩
    exact this rows fun row hr' => by
      obtain ⟨x, y, z, e, _⟩ := hrows row hr'
      exact ⟨x, y, z, e⟩
  obtain ⟨rs, hrs⟩ := texts
  refine ⟨{ c3 with dict := dset c3.dict dicBlock m'' }, f3, ?_, fl4, ?_, ?_, ?_, ?_⟩
  · unfold normaliseDic
    have e6 : writeTypes c3 (baseTypes ++ f3.types) = .ok { c3 with dict := dset c3.dict dicBlock m'' } := by
      unfold writeTypes
      rw [fl3.get (by rw [low_dic]; exact hdic3)]
      have e5' : addLoop m' [codeAttr, codeConstructAttr, primitiveAttr] [(baseTypes ++ f3.types).map (·.1), (baseTypes ++ f3.types).map (·.2.1),
        (baseTypes ++ f3.types).map (·.2.2)] = .ok m'' := e5
      simp only [e5']
    simp only [e1, e2, e3, e4, e6]
  · refine ⟨m, m', m'', hm, ?_, hn, k5, rs, ?_, ?_, ?_, ?_⟩
    · show dget (dset c3.dict dicBlock m'') dicBlock = _
      rw [d4, if_pos rfl]
    · have := g5 (codeAttr, rows.map (·.1)) (by simp)
      rw [hrs, List.map_map] at this
      exact this
    · have := g5 (codeConstructAttr, rows.map (·.2.1)) (by simp)
      rw [hrs, List.map_map] at this
      exact this
    · have := g5 (primitiveAttr, rows.map (·.2.2)) (by simp)
      rw [hrs, List.map_map] at this
      exact this
    · intro x y z
      constructor
      · intro h
        obtain ⟨x', y', z', e, _, _, _, ht⟩ := hrows (.str x, .str y, .str z) (by rw [hrs]; exact List.mem_map.2 ⟨_, h, rfl⟩)
        simp only [Prod.mk.injEq, PyVal.str.injEq] at e
        obtain ⟨rfl, rfl, rfl⟩ := e
        exact ht
      · intro h
        have := hback x y z h
        rw [hrs] at this
        obtain ⟨⟨x', y', z'⟩, hm, e⟩ := List.mem_map.1 this
        simp only [Prod.mk.injEq, PyVal.str.injEq] at e
        obtain ⟨rfl, rfl, rfl⟩ := e
        exact hm
  · intro k b n hd
    obtain ⟨b1, b', q1, q2, q3⟩ := x2.defs k b n hd
    refine ⟨b1, b', ?_, q2, q3⟩
    show dget (dset c3.dict dicBlock m'') (lower n) = _
    rw [d4, if_neg (hd.key hr), o3 _ (fun cat hc e => (hr.made cat hc).2 k b n hd e.symm), q1]
  · intro cat hc
    obtain ⟨b, q1, q2⟩ := mk3 cat hc
    refine ⟨b, ?_, q2⟩
    show dget (dset c3.dict dicBlock m'') _ = _
    rw [d4, if_neg (madeName_dic (hc.1.solid hr).1), q1]
  · intro x b' hb
    change dget (dset c3.dict dicBlock m'') x = _ at hb
    rw [d4] at hb
    split at hb
    · rename_i e
      exact .inl e
    · apply Classical.byContradiction
      intro hno
      simp only [not_or] at hno
      rw [o3 x (fun cat hc e => hno.2.2 ⟨cat, hc, e⟩)] at hb
      rcases x2.only x b' hb with e | e
      · exact hno.1 e
      · exact hno.2.1 e

end Verif.Ddl1
