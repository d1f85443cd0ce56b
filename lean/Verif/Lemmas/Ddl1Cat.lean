import Verif.Lemmas.Ddl1Loops
import Verif.Props.CifDic
/-! Helper lemmas for DDL1 dictionaries: the table of definitions, and the lists of categories. -/
set_option linter.unusedSectionVars false
namespace Verif.Ddl1
open CifDic Validate Spec
variable [CaseFold]

/-! ## The table -/

/-- What the blocks are, and what they are found as. -/
inductive Kind (c0 : Coll) : Str → Str → Prop
  | dic : Kind c0 dicBlock dicBlock
  | defn {k : Str} {b : Block} {n i : Str} : Defines c0 k b n → FoundAs b n i → Kind c0 (lower n) i
  | made {cat : Str} : Missing c0 cat → Kind c0 (lower (madeName cat)) cat

theorem Kind.unique {c0 : Coll} (hr : Regular c0) {q q' s s' : Str} (h : Kind c0 q s) (h' : Kind c0 q' s') (e : lower s = lower s') : q = q' := by
  have dm : ∀ {k b n i cat}, Defines c0 k b n → FoundAs b n i → Missing c0 cat → lower i ≠ lower cat := by
    intro k b n i cat hd hf hm e
    by_cases ho : Overview b
    · have hdec : Declares c0 i := ⟨k, b, n, hd, ho, hf⟩
      have := hr.cats cat i hm.1 (.inr hdec) e.symm
      exact hm.2 (this ▸ hdec)
    · rcases hf with ⟨h1, _⟩ | ⟨_, rfl⟩
      · exact ho h1
      · exact hr.items cat k b i hm.1 hd ho e.symm
  cases h with
  | dic =>
    rw [low_dic] at e
    cases h' with
    | dic => rfl
    | defn hd hf => exact absurd e.symm (hr.reserved _ _ _ _ hd hf)
    | made hm => exact absurd e.symm (hr.made _ hm).1
  | defn hd hf =>
    cases h' with
    | dic => rw [low_dic] at e; exact absurd e (hr.reserved _ _ _ _ hd hf)
    | defn hd' hf' => rw [(hr.idents _ _ _ _ _ _ _ _ hd hf hd' hf' e).2]
    | made hm => exact absurd e (dm hd hf hm)
  | made hm =>
    cases h' with
    | dic => rw [low_dic] at e; exact absurd e (hr.made _ hm).1
    | defn hd hf => exact absurd e.symm (dm hd hf hm)
    | made hm' => rw [hr.cats _ _ hm.1 (.inl hm'.1) e]

theorem FoundAs.unique {b : Block} {n i i' : Str} (h : FoundAs b n i) (h' : FoundAs b n i') : i = i' := by
  rcases h with ⟨ho, t, e, ht⟩ | ⟨ho, e⟩
  · rcases h' with ⟨_, t', e', ht'⟩ | ⟨ho', _⟩
    · have h1 := middle_eq (i := i) ht
      rw [← e, e', middle_eq ht'] at h1
      injection h1 with h1
      exact h1.symm
    · exact absurd ho ho'
  · rcases h' with ⟨ho', _⟩ | ⟨_, e'⟩
    · exact absurd ho' ho
    · rw [e, e']

/-- The attributes that tell what a block is found as. -/
def Tells (b : Block) (q s : Str) : Prop :=
  Has b catIdAttr (.str s) ∨ (b.contains catIdAttr = false ∧ (Has b nameAttr (.str s) ∨ (b.contains nameAttr = false ∧ s = q)))

theorem Tells.unique {b : Block} {q s s' : Str} (h : Tells b q s) (h' : Tells b q s') : s = s' := by
  rcases h with h | ⟨h0, h⟩
  · rcases h' with h' | ⟨h0', _⟩
    · have := Has.unique h h'
      injection this
    · rw [h.1] at h0'; cases h0'
  · rcases h' with h' | ⟨_, h'⟩
    · rw [h'.1] at h0; cases h0
    · rcases h with h | ⟨h1, h⟩
      · rcases h' with h' | ⟨h1', _⟩
        · have := Has.unique h h'
          injection this
        · rw [h.1] at h1'; cases h1'
      · rcases h' with h' | ⟨_, h'⟩
        · rw [h'.1] at h1; cases h1
        · rw [h, h']

theorem Norm.isDef {c0 : Coll} (hr : Regular c0) {k : Str} {b : Block} {n : Str} (hd : Defines c0 k b n) {b1 b' : Block} (hi : Inst b n b1)
    (hn : Norm b1 b') {i : Str} (hf : FoundAs b n i) (q : Str) : Tells b' q i := by
  rcases hf with ⟨ho, t, e, ht⟩ | ⟨ho, rfl⟩
  · exact .inl (hn.ident.1 (hi.over.2 ho) n i t hi.name e ht)
  · refine .inr ⟨?_, .inl ((hn.has low_name (by decide)).2 hi.name)⟩
    have := hn.ident.2 (fun h => ho (hi.over.1 h))
    rw [contains_of_same (b := b1) (by rw [low_catId]; exact this), hi.contains low_catId (by decide)]
    exact (hd.ok hr).1.fresh _ (by simp)

theorem Opened.tells {c0 c : Coll} (hr : Regular c0) (h : Opened c0 c) {q : Str} {b : Block} (hb : dget c.dict q = some b) :
    ∃ s, Kind c0 q s ∧ Tells b q s := by
  rcases h.only q b hb with rfl | ⟨k, b0, n, hd, rfl⟩ | ⟨cat, hm, rfl⟩
  · refine ⟨dicBlock, .dic, .inr ?_⟩
    obtain ⟨m, m', m'', h1, h2, h3, h4, _⟩ := h.dic
    rw [hb] at h2
    injection h2 with h2
    subst h2
    obtain ⟨m0, w1, _, _, w4⟩ := hr.dic
    rw [h1] at w1
    injection w1 with w1
    subst w1
    have hno : ¬ Overview m := fun ho => by
      have := ho.1
      rw [w4 categoryAttr (by simp)] at this
      cases this
    refine ⟨?_, .inr ⟨?_, rfl⟩⟩
    · rw [contains_of_same (b := m) (by rw [low_catId, h4.same _ (by decide)]; exact h3.ident.2 hno), w4 catIdAttr (by simp)]
    · rw [contains_of_same (b := m) (by rw [low_name, h4.same _ (by decide)]; exact h3.kin.same _ (by decide)), w4 nameAttr (by simp)]
  · obtain ⟨b1, b', q1, q2, q3⟩ := h.defs k b0 n hd
    rw [hb] at q1
    injection q1 with q1
    subst q1
    obtain ⟨i, hi⟩ := (hd.ok hr).2.2.2
    exact ⟨i, .defn hd hi, q3.isDef hr hd q2 hi _⟩
  · obtain ⟨b', q1, q2⟩ := h.made cat hm
    rw [hb] at q1
    injection q1 with q1
    subst q1
    exact ⟨cat, .made hm, .inl q2.ident⟩

theorem Opened.block {c0 c : Coll} (h : Opened c0 c) {q s : Str} (hk : Kind c0 q s) : ∃ b, dget c.dict q = some b := by
  cases hk with
  | dic =>
    obtain ⟨_, _, m'', _, h2, _⟩ := h.dic
    exact ⟨m'', h2⟩
  | defn hd _ =>
    obtain ⟨_, b', h1, _⟩ := h.defs _ _ _ hd
    exact ⟨b', h1⟩
  | made hm =>
    obtain ⟨b', h1, _⟩ := h.made _ hm
    exact ⟨b', h1⟩

theorem Kind.functional {c0 : Coll} (hr : Regular c0) {q s s' : Str} (h : Kind c0 q s) (h' : Kind c0 q s') : s = s' := by
  have dn : ∀ {k b n}, Defines c0 k b n → lower n = dicBlock → False := fun hd e => hd.key hr e
  have gd : ∀ {cat}, Missing c0 cat → lower (madeName cat) = dicBlock → False := fun hm e => madeName_dic (hm.1.solid hr).1 e
  generalize e : q = q' at h'
  cases h with
  | dic =>
    cases h' with
    | dic => rfl
    | defn hd _ => exact (dn hd e.symm).elim
    | made hm => exact (gd hm e.symm).elim
  | defn hd hf =>
    cases h' with
    | dic => exact (dn hd e).elim
    | defn hd' hf' =>
      obtain ⟨rfl, rfl, rfl⟩ := hd.same hr hd' e
      exact hf.unique hf'
    | made hm => exact absurd e.symm ((hr.made _ hm).2 _ _ _ hd)
  | made hm =>
    cases h' with
    | dic => exact (gd hm e).elim
    | defn hd _ => exact absurd e ((hr.made _ hm).2 _ _ _ hd)
    | made hm' => exact hr.cats _ _ hm.1 (.inl hm'.1) (madeName_inj (hm.1.solid hr).1 (hm'.1.solid hr).1 e)

theorem Opened.names {c0 c : Coll} (hr : Regular c0) (h : Opened c0 c) (q s : Str) : Names c .ddl1 q s ↔ Kind c0 q s := by
  have ident : ∀ b, Identifier .ddl1 b q (.str s) ↔ Tells b q s := by
    intro b
    unfold Identifier Tells
    simp only [PyVal.str.injEq]
    rfl
  constructor
  · rintro ⟨hk, b, hb, hi⟩
    obtain ⟨b', hb'⟩ := h.flat.mem.1 (h.flat.visible.1 hk)
    have : c.getItem q = .ok b' := h.flat.get (by rw [h.flat.low hb']; exact hb')
    rw [hb] at this
    injection this with this
    subst this
    obtain ⟨s', h1, h2⟩ := h.tells hr hb'
    rw [((ident b).1 hi).unique h2]
    exact h1
  · intro hk
    obtain ⟨b, hb⟩ := h.block hk
    obtain ⟨s', h1, h2⟩ := h.tells hr hb
    rw [hk.functional hr h1]
    refine ⟨h.flat.visible.2 (h.flat.mem.2 ⟨b, hb⟩), b, h.flat.get (by rw [h.flat.low hb]; exact hb), ?_⟩
    have := ident b
    rw [hk.functional hr h1] at this
    exact this.2 h2

theorem Opened.texts {c0 c : Coll} (hr : Regular c0) (h : Opened c0 c) : Texts c .ddl1 := by
  intro q hq
  obtain ⟨b, hb⟩ := h.flat.mem.1 (h.flat.visible.1 hq)
  refine ⟨b, h.flat.get (by rw [h.flat.low hb]; exact hb), ?_⟩
  have key : ∀ a, a = catIdAttr ∨ a = nameAttr → b.contains a = true → ∃ s, b.getItem a = .ok (.str s) := by
    intro a ha hc
    rcases h.only q b hb with rfl | ⟨k, b0, n, hd, rfl⟩ | ⟨cat, hm, rfl⟩
    · obtain ⟨s, h1, h2⟩ := h.tells hr hb
      rcases ha with rfl | rfl
      · rcases h2 with h2 | ⟨h2, _⟩
        · exact ⟨_, h2.2⟩
        · rw [hc] at h2; cases h2
      · obtain ⟨m, m', m'', w1, w2, w3, w4, _⟩ := h.dic
        rw [hb] at w2
        injection w2 with w2
        subst w2
        obtain ⟨m0, v1, _, _, v4⟩ := hr.dic
        rw [w1] at v1
        injection v1 with v1
        subst v1
        rw [contains_of_same (b := m) (by rw [low_name, w4.same _ (by decide)]; exact w3.kin.same _ (by decide)), v4 nameAttr (by simp)] at hc
        cases hc
    · rcases ha with rfl | rfl
      · obtain ⟨s, h1, h2⟩ := h.tells hr hb
        rcases h2 with h2 | ⟨h2, _⟩
        · exact ⟨_, h2.2⟩
        · rw [hc] at h2; cases h2
      · obtain ⟨b1, b', q1, q2, q3⟩ := h.defs k b0 n hd
        rw [hb] at q1
        injection q1 with q1
        subst q1
        exact ⟨n, ((q3.has low_name (by decide)).2 q2.name).2⟩
    · obtain ⟨b', q1, q2⟩ := h.made cat hm
      rw [hb] at q1
      injection q1 with q1
      subst q1
      rcases ha with rfl | rfl
      · exact ⟨cat, q2.ident.2⟩
      · rw [contains_dget, low_name, q2.rest _ (by decide)] at hc
        cases hc
  intro a ha
  exact key a ha

/-- The table: what each definition is found as. -/
structure Tabled (c0 : Coll) (t : Dict Str Str) : Prop where
  found : ∀ q s, Kind c0 q s → q ≠ dicBlock → dget t (lower s) = some q
  nodup : (dkeys t).Nodup
  only : ∀ x, x ∈ dkeys t ↔ ∃ q s, Kind c0 q s ∧ q ≠ dicBlock ∧ x = lower s

theorem table_ok {c0 c : Coll} (hr : Regular c0) (h : Opened c0 c) : ∃ t, defTable c .ddl1 = .ok t ∧ Tabled c0 t := by
  have ht := h.texts hr
  have hn := h.names hr
  have ok : ∃ t, defTable c .ddl1 = .ok t := by
    rcases C54_duplicates h.flat.cons ht with ⟨⟨k, k', s, hne, h1, h2⟩, _⟩ | ⟨_, hok⟩
    · exact absurd (((hn _ _).1 h1).unique hr ((hn _ _).1 h2) rfl) hne
    · exact hok
  obtain ⟨t, ht'⟩ := ok
  obtain ⟨h1, h2⟩ := C54_keys (i := []) h.flat.cons ht ht'
  refine ⟨t, ht', ?_, h1, ?_⟩
  · intro q s hk hq
    refine table_get h.flat.cons ht ht' ((hn q s).2 hk) hq ?_
    intro k' s' hk' _ e
    exact ((hn _ _).1 hk').unique hr hk e
  · intro x
    refine (h2 x).trans ⟨?_, ?_⟩
    · rintro ⟨k, s, q1, q2, rfl⟩
      exact ⟨k, s, (hn _ _).1 q1, q2, rfl⟩
    · rintro ⟨q, s, q1, q2, rfl⟩
      exact ⟨q, s, (hn _ _).2 q1, q2, rfl⟩

/-! ## Collecting -/

/-- The lists collected: under each category the texts `S` tells of. -/
def Holds (S : Str → Str → Prop) (m : Dict Str (List PyVal)) : Prop :=
  (dkeys m).Nodup ∧ ∀ cat, (∃ l : List Str, dget m cat = some (l.map .str) ∧ l ≠ [] ∧ l.Nodup ∧ ∀ x, x ∈ l ↔ S cat x) ∨
    (dget m cat = none ∧ ∀ x, ¬ S cat x)

theorem Holds.empty : Holds (fun _ _ => False) [] := ⟨by simp [dkeys], fun _ => .inr ⟨rfl, fun _ h => h⟩⟩

theorem Holds.congr {S S' : Str → Str → Prop} {m : Dict Str (List PyVal)} (h : Holds S m) (e : ∀ cat x, S cat x ↔ S' cat x) : Holds S' m := by
  refine ⟨h.1, fun cat => ?_⟩
  rcases h.2 cat with ⟨l, h1, h2, h3, h4⟩ | ⟨h1, h2⟩
  · exact .inl ⟨l, h1, h2, h3, fun x => (h4 x).trans (e cat x)⟩
  · exact .inr ⟨h1, fun x hx => h2 x ((e cat x).2 hx)⟩

/-- A change of the list of one category. -/
theorem Holds.append {S : Str → Str → Prop} {m : Dict Str (List PyVal)} (h : Holds S m) {cat : Str} {f : List PyVal → List PyVal} {R : Str → Prop}
    (hf : ∀ l : List Str, l.Nodup → (∀ x, x ∈ l ↔ S cat x) → ∃ l' : List Str, f (l.map .str) = l'.map .str ∧ l' ≠ [] ∧ l'.Nodup ∧
      ∀ x, x ∈ l' ↔ x ∈ l ∨ R x) : Holds (fun cat' x => S cat' x ∨ (cat' = cat ∧ R x)) (appendTo m cat f) := by
  refine ⟨nodup_dkeys_dset _ _ _ h.1, fun cat' => ?_⟩
  unfold appendTo
  rw [dget_dset]
  by_cases e : cat = cat'
  · subst e
    rw [if_pos rfl]
    rcases h.2 cat with ⟨l, h1, h2, h3, h4⟩ | ⟨h1, h2⟩
    · obtain ⟨l', q1, q2, q3, q4⟩ := hf l h3 h4
      refine .inl ⟨l', by rw [h1]; simp only [q1], q2, q3, fun x => ?_⟩
      rw [q4, h4]
      simp
    · obtain ⟨l', q1, q2, q3, q4⟩ := hf [] (by simp) (fun x => by simp [h2])
      refine .inl ⟨l', ?_, q2, q3, fun x => ?_⟩
      · rw [h1]
        simp only [List.map_nil] at q1
        simp only [q1]
      · rw [q4]
        simp [h2]
  · rw [if_neg e]
    rcases h.2 cat' with ⟨l, h1, h2, h3, h4⟩ | ⟨h1, h2⟩
    · refine .inl ⟨l, h1, h2, h3, fun x => ?_⟩
      rw [h4]
      exact ⟨.inl, fun hx => hx.elim id fun hh => absurd hh.1.symm e⟩
    · refine .inr ⟨h1, fun x hx => hx.elim (h2 x) fun hh => e hh.1.symm⟩

theorem appendNew_map (x : Str) (l : List Str) : appendNew (.str x) (l.map .str) = (if x ∈ l then l else l ++ [x]).map .str := by
  unfold appendNew
  have : PyVal.str x ∈ l.map PyVal.str ↔ x ∈ l := by simp
  by_cases h : x ∈ l
  · rw [if_pos (this.2 h), if_pos h]
  · rw [if_neg (fun h' => h (this.1 h')), if_neg h]
    simp

theorem nodup_new {x : Str} {l : List Str} (h : l.Nodup) : (if x ∈ l then l else l ++ [x]).Nodup := by
  split
  · exact h
  · rename_i hx
    rw [List.nodup_append]
    exact ⟨h, by simp, fun a ha b hb => by
      rw [List.mem_singleton] at hb
      subst hb
      rintro rfl
      exact hx ha⟩

theorem mem_new {x y : Str} {l : List Str} : y ∈ (if x ∈ l then l else l ++ [x]) ↔ y ∈ l ∨ y = x := by
  split
  · rename_i hx
    exact ⟨.inl, fun h => h.elim id (fun e => e ▸ hx)⟩
  · simp

theorem new_ne {x : Str} {l : List Str} : (if x ∈ l then l else l ++ [x]) ≠ [] := by
  split
  · rename_i h
    rintro rfl
    cases h
  · simp

/-! ## Reading definitions through the table -/

theorem found_ok {d : CifDic} (hf : Flat d.coll) {q : Str} {b : Block} {name : Str} (ht : dget d.table (lower name) = some q)
    (hb : dget d.coll.dict q = some b) : d.getItem name = .ok b := by
  have : byId d name = .ok b := by
    unfold byId
    rw [ht]
    exact hf.get (by rw [hf.low hb]; exact hb)
  unfold CifDic.getItem
  rw [this]

/-- What is said about the definition found as `x` in the original file. -/
def Origin (c0 : Coll) (x : Str) (k : Str) (b : Block) (n i : Str) : Prop := Defines c0 k b n ∧ FoundAs b n i ∧ x = lower i

/-- The part of the definition found as `x` in the list of mandatory items. -/
def MandPart (c0 : Coll) (x cat y : Str) : Prop :=
  y = x ∧ ∃ k b n i, Origin c0 x k b n i ∧ Has b categoryAttr (.str cat) ∧ Has b mandatoryAttr (.str "yes".toList)

/-- The part of the definition found as `x` in the keys of categories. -/
def KeyPart (c0 : Coll) (x cat y : Str) : Prop :=
  ∃ k b n i u, Origin c0 x k b n i ∧ Has b categoryAttr (.str cat) ∧ Has b uniqueAttr (.str u) ∧ (y = x ∨ y = u)

theorem Origin.unique {c0 : Coll} (hr : Regular c0) {x k b n i k' b' n' i'} (h : Origin c0 x k b n i) (h' : Origin c0 x k' b' n' i') :
    k = k' ∧ b = b' ∧ n = n' ∧ i = i' := by
  obtain ⟨rfl, rfl⟩ := hr.idents _ _ _ _ _ _ _ _ h.1 h.2.1 h'.1 h'.2.1 (h.2.2.symm.trans h'.2.2)
  have := h.1.1.1.symm.trans h'.1.1.1
  injection this with this
  subst this
  exact ⟨rfl, rfl, rfl, h.2.1.unique h'.2.1⟩

/-- The dictionary while categories are looked at: the table, and the blocks as they were opened. -/
structure Ready2 (c0 c : Coll) (d : CifDic) : Prop where
  coll : d.coll = c
  table : Tabled c0 d.table

/-- What is found under a key of the table. -/
theorem Ready2.key {c0 c : Coll} (hr : Regular c0) (h : Opened c0 c) {d : CifDic} (hd : Ready2 c0 c d) {x : Str} (hx : x ∈ d.keys) :
    ∃ b', d.getItem x = .ok b' ∧ ((∃ k b n i b1, Origin c0 x k b n i ∧ Inst b n b1 ∧ Norm b1 b') ∨
      ((∃ cat, Made cat b') ∧ ∀ k b n i, ¬ Origin c0 x k b n i)) := by
  obtain ⟨q, s, hk, hq, rfl⟩ := (hd.table.only x).1 hx
  have ht := hd.table.found q s hk hq
  have hfl : Flat d.coll := by rw [hd.coll]; exact h.flat
  cases hk with
  | dic => exact absurd rfl hq
  | defn hdf hfa =>
    obtain ⟨b1, b', q1, q2, q3⟩ := h.defs _ _ _ hdf
    refine ⟨b', found_ok hfl (by rw [CaseFold.lower_lower]; exact ht) (by rw [hd.coll]; exact q1), .inl ?_⟩
    exact ⟨_, _, _, _, b1, ⟨hdf, hfa, rfl⟩, q2, q3⟩
  | made hm =>
    obtain ⟨b', q1, q2⟩ := h.made _ hm
    refine ⟨b', found_ok hfl (by rw [CaseFold.lower_lower]; exact ht) (by rw [hd.coll]; exact q1), .inr ⟨⟨_, q2⟩, ?_⟩⟩
    rintro k b n i ⟨h1, h2, h3⟩
    exact (hr.made _ hm).2 _ _ _ h1 (Kind.unique hr (.made hm) (.defn h1 h2) h3)

theorem mandInfo_ok {c0 c : Coll} (hr : Regular c0) (h : Opened c0 c) {d : CifDic} (hd : Ready2 c0 c d) {x : Str} (hx : x ∈ d.keys)
    {S : Str → Str → Prop} {m : Dict Str (List PyVal)} (hm : Holds S m) (hnew : ∀ cat, ¬ S cat x) :
    ∃ m', mandInfo d m x = .ok m' ∧ Holds (fun cat y => S cat y ∨ MandPart c0 x cat y) m' := by
  obtain ⟨b', hb, hcase⟩ := hd.key hr h hx
  have hat : ∀ v, attrD d x mandatoryAttr v = getD b' mandatoryAttr v := fun v => by unfold attrD; rw [hb]
  unfold mandInfo
  rw [hat]
  rcases hcase with ⟨k, b, n, i, b1, ho, q2, q3⟩ | ⟨⟨cat, hmade⟩, hno⟩
  · have hc : b'.contains mandatoryAttr = b.contains mandatoryAttr := by
      rw [q3.contains low_mandatory (by decide), q2.contains low_mandatory (by decide)]
    unfold getD
    rw [hc]
    cases hcm : b.contains mandatoryAttr with
    | false =>
      simp only [Bool.false_eq_true, if_false]
      rw [if_neg nofun]
      refine ⟨m, rfl, hm.congr fun cat y => ⟨.inl, fun hh => hh.elim id ?_⟩⟩
      rintro ⟨_, k', b'', n', i', ho', _, h2⟩
      obtain ⟨_, rfl, _⟩ := ho.unique hr ho'
      rw [h2.1] at hcm
      cases hcm
    | true =>
      obtain ⟨hcat, v, hv⟩ := (ho.1.ok hr).1.mandatory hcm
      obtain ⟨cat, hcat, _⟩ := (ho.1.ok hr).1.category hcat
      have hv' : Has b' mandatoryAttr v := (q3.has low_mandatory (by decide)).2 ((q2.has low_mandatory (by decide)).2 hv)
      have hc' : Has b' categoryAttr (.str cat) := (q3.has low_category (by decide)).2 ((q2.has low_category (by decide)).2 hcat)
      simp only [if_true, hv'.2]
      by_cases hy : v = .str "yes".toList
      · rw [if_pos hy]
        have : catOf d x = .ok cat := by
          unfold catOf attrI
          rw [hb]
          simp only [hc'.2]
        simp only [this]
        refine ⟨_, rfl, (hm.append (R := fun y => y = x) ?_).congr ?_⟩
        · intro l hnd hl
          refine ⟨l ++ [x], by simp, by simp, ?_, by simp⟩
          rw [List.nodup_append]
          exact ⟨hnd, by simp, fun a ha b hb => by
            rw [List.mem_singleton] at hb
            subst hb
            rintro rfl
            exact hnew cat ((hl _).1 ha)⟩
        · intro cat' y
          refine or_congr .rfl ⟨?_, ?_⟩
          · rintro ⟨rfl, rfl⟩
            exact ⟨rfl, k, b, n, i, ho, hcat, hy ▸ hv⟩
          · rintro ⟨rfl, k', b'', n', i', ho', h1, h2⟩
            obtain ⟨_, rfl, _⟩ := ho.unique hr ho'
            have := Has.unique h1 hcat
            injection this with this
            exact ⟨this, rfl⟩
      · rw [if_neg hy]
        refine ⟨m, rfl, hm.congr fun cat y => ⟨.inl, fun hh => hh.elim id ?_⟩⟩
        rintro ⟨_, k', b'', n', i', ho', _, h2⟩
        obtain ⟨_, rfl, _⟩ := ho.unique hr ho'
        exact absurd (Has.unique hv h2) hy
  · have hcm : b'.contains mandatoryAttr = false := by rw [contains_dget, low_mandatory, hmade.rest _ (by decide)]; rfl
    unfold getD
    rw [hcm]
    simp only [Bool.false_eq_true, if_false]
    rw [if_neg nofun]
    refine ⟨m, rfl, hm.congr fun cat y => ⟨.inl, fun hh => hh.elim id ?_⟩⟩
    rintro ⟨_, k', b'', n', i', ho', _⟩
    exact absurd ho' (hno _ _ _ _)

theorem uniqueInfo_ok {c0 c : Coll} (hr : Regular c0) (h : Opened c0 c) {d : CifDic} (hd : Ready2 c0 c d) {x : Str} (hx : x ∈ d.keys)
    {S : Str → Str → Prop} {m : Dict Str (List PyVal)} (hm : Holds S m) :
    ∃ m', uniqueInfo d m x = .ok m' ∧ Holds (fun cat y => S cat y ∨ KeyPart c0 x cat y) m' := by
  obtain ⟨b', hb, hcase⟩ := hd.key hr h hx
  have hat : ∀ v, attrD d x uniqueAttr v = getD b' uniqueAttr v := fun v => by unfold attrD; rw [hb]
  unfold uniqueInfo
  rw [hat]
  rcases hcase with ⟨k, b, n, i, b1, ho, q2, q3⟩ | ⟨⟨cat, hmade⟩, hno⟩
  · have hc : b'.contains uniqueAttr = b.contains uniqueAttr := by
      rw [q3.contains low_unique (by decide), q2.contains low_unique (by decide)]
    unfold getD
    rw [hc]
    cases hcm : b.contains uniqueAttr with
    | false =>
      simp only [Bool.false_eq_true, if_false]
      refine ⟨m, rfl, hm.congr fun cat y => ⟨.inl, fun hh => hh.elim id ?_⟩⟩
      rintro ⟨k', b'', n', i', u, ho', _, h2, _⟩
      obtain ⟨_, rfl, _⟩ := ho.unique hr ho'
      rw [h2.1] at hcm
      cases hcm
    | true =>
      obtain ⟨hcat, u, hu, _⟩ := (ho.1.ok hr).1.unique hcm
      obtain ⟨cat, hcat, _⟩ := (ho.1.ok hr).1.category hcat
      have hv' : Has b' uniqueAttr (.str u) := (q3.has low_unique (by decide)).2 ((q2.has low_unique (by decide)).2 hu)
      have hc' : Has b' categoryAttr (.str cat) := (q3.has low_category (by decide)).2 ((q2.has low_category (by decide)).2 hcat)
      simp only [if_true, hv'.2]
      have : catOf d x = .ok cat := by
        unfold catOf attrI
        rw [hb]
        simp only [hc'.2]
      simp only [this]
      refine ⟨_, rfl, (hm.append (R := fun y => y = x ∨ y = u) ?_).congr ?_⟩
      · intro l hnd _
        refine ⟨_, by rw [appendNew_map, appendNew_map], new_ne, nodup_new (nodup_new hnd), fun y => ?_⟩
        rw [mem_new, mem_new, or_assoc]
      · intro cat' y
        refine or_congr .rfl ⟨?_, ?_⟩
        · rintro ⟨rfl, hy⟩
          exact ⟨k, b, n, i, u, ho, hcat, hu, hy⟩
        · rintro ⟨k', b'', n', i', u', ho', h1, h2, hy⟩
          obtain ⟨_, rfl, _⟩ := ho.unique hr ho'
          have e1 := Has.unique h1 hcat
          have e2 := Has.unique h2 hu
          injection e1 with e1
          injection e2 with e2
          subst e2
          exact ⟨e1, hy⟩
  · have hcm : b'.contains uniqueAttr = false := by rw [contains_dget, low_unique, hmade.rest _ (by decide)]; rfl
    unfold getD
    rw [hcm]
    simp only [Bool.false_eq_true, if_false]
    refine ⟨m, rfl, hm.congr fun cat y => ⟨.inl, fun hh => hh.elim id ?_⟩⟩
    rintro ⟨k', b'', n', i', u, ho', _⟩
    exact absurd ho' (hno _ _ _ _)

theorem collect_ok {c0 c : Coll} (hr : Regular c0) (h : Opened c0 c) {d : CifDic} (hd : Ready2 c0 c d) :
    ∀ (l : List Str) {S S' : Str → Str → Prop} {m m' : Dict Str (List PyVal)} (_ : l.Nodup) (_ : ∀ x ∈ l, x ∈ d.keys)
    (_ : Holds S m) (_ : Holds S' m') (_ : ∀ x ∈ l, ∀ cat, ¬ S cat x),
    ∃ m1 m2, foldE (catInfo d) (m, m') l = .ok (m1, m2) ∧ Holds (fun cat y => S cat y ∨ ∃ x ∈ l, MandPart c0 x cat y) m1 ∧
      Holds (fun cat y => S' cat y ∨ ∃ x ∈ l, KeyPart c0 x cat y) m2
  | [], S, S', m, m', _, _, h1, h2, _ => ⟨m, m', rfl, h1.congr (by simp), h2.congr (by simp)⟩
  | x :: r, S, S', m, m', hn, hk, h1, h2, hnew => by
    rw [List.nodup_cons] at hn
    obtain ⟨m1, e1, w1⟩ := mandInfo_ok hr h hd (hk x (by simp)) h1 (hnew x (by simp))
    obtain ⟨m2, e2, w2⟩ := uniqueInfo_ok hr h hd (hk x (by simp)) h2
    obtain ⟨m3, m4, e3, w3, w4⟩ := collect_ok hr h hd r hn.2 (fun y hy => hk y (List.mem_cons_of_mem _ hy)) w1 w2 (by
      rintro y hy cat (hs | ⟨rfl, _⟩)
      · exact hnew y (List.mem_cons_of_mem _ hy) cat hs
      · exact hn.1 hy)
    refine ⟨m3, m4, ?_, w3.congr ?_, w4.congr ?_⟩
    · have : catInfo d (m, m') x = .ok (m1, m2) := by
        unfold catInfo
        simp only [e1, e2]
      simp only [foldE, this, e3]
    · intro cat y
      simp only [List.mem_cons, exists_eq_or_imp, or_assoc]
    · intro cat y
      simp only [List.mem_cons, exists_eq_or_imp, or_assoc]

/-! ## Writing -/

theorem writeCats {attr : Str} (ha : attr ∈ setAttrs') (hlow : lower attr = attr) (loc : Str → Str) :
    ∀ (m : Dict Str (List PyVal)) {d : CifDic} (_ : Flat d.coll) (_ : (m.map fun e => loc e.1).Nodup)
    (_ : ∀ e ∈ m, e.2 ≠ [] ∧ (∀ v ∈ e.2, Atom v) ∧ dget d.table (lower e.1) = some (loc e.1) ∧
      ∃ b, dget d.coll.dict (loc e.1) = some b ∧ b.WF ∧ (∀ l, b.maxName = some l → 75 ≤ l) ∧ b.contains attr = false),
    ∃ d', foldE (writeCat attr) d m = .ok d' ∧ d'.table = d.table ∧ d'.lang = d.lang ∧ d'.imports = d.imports ∧ Flat d'.coll ∧
      (∀ e ∈ m, ∃ b b', dget d.coll.dict (loc e.1) = some b ∧ dget d'.coll.dict (loc e.1) = some b' ∧ Kin b b' [attr] ∧ Has b' attr (.list e.2)) ∧
      ∀ x, x ∉ m.map (fun e => loc e.1) → dget d'.coll.dict x = dget d.coll.dict x
  | [], d, hf, _, _ => ⟨d, rfl, rfl, rfl, rfl, hf, by simp, fun _ _ => rfl⟩
  | (cat, l) :: r, d, hf, hn, h => by
    rw [List.map_cons, List.nodup_cons] at hn
    obtain ⟨h1, h2, h3, b, h4, h5, h6, h7⟩ := h (cat, l) (by simp)
    simp only at h1 h2 h3 h4
    obtain ⟨b', e1, k1, g1⟩ := setE_new h5 (attrOk h6 ha) (.inr h7) (storable_list (u := b.unicode) h1 h2)
    rw [hlow] at k1
    have hget := found_ok hf h3 h4
    obtain ⟨fl, d1⟩ := hf.set h4 b'
    have hset : b.setItem attr (.list l) = (b', .ok ()) := by
      unfold setE at e1
      split at e1
      · cases e1
      · rename_i b2 hb2
        injection e1 with e1
        rw [hb2, e1]
    have hloc : locate d cat = some (loc cat) := by
      have : byId d cat = .ok b := by
        unfold byId
        rw [h3]
        exact hf.get (by rw [hf.low h4]; exact h4)
      unfold locate
      rw [this]
      simp only [h3, Option.map_some, hf.low h4]
    have hstep : writeCat attr d (cat, l) = .ok { d with coll := { d.coll with dict := dset d.coll.dict (loc cat) b' } } := by
      unfold writeCat setAttr
      simp only [hget, hset]
      unfold putBlock
      rw [hloc]
    have hne : ∀ e ∈ r, loc e.1 ≠ loc cat := fun e he heq => hn.1 (List.mem_map.2 ⟨e, he, heq⟩)
    obtain ⟨d', e2, t2, la2, i2, f2, w2, o2⟩ := writeCats ha hlow loc r (d := { d with coll := { d.coll with dict := dset d.coll.dict (loc cat) b' } }) fl hn.2
      (fun e he => by
        obtain ⟨q1, q2, q3, b2, q4, q5⟩ := h e (List.mem_cons_of_mem _ he)
        refine ⟨q1, q2, q3, b2, ?_, q5⟩
        show dget (dset d.coll.dict (loc cat) b') _ = _
        rw [d1, if_neg (hne e he), q4])
    refine ⟨d', by simp only [foldE, hstep, e2], t2, la2, i2, f2, ?_, ?_⟩
    · intro e he
      rcases List.mem_cons.1 he with rfl | he
      · refine ⟨b, b', h4, ?_, k1, g1⟩
        rw [o2 _ hn.1]
        show dget (dset d.coll.dict (loc cat) b') _ = _
        rw [d1, if_pos rfl]
      · obtain ⟨b2, b3, q1, q2, q3⟩ := w2 e he
        refine ⟨b2, b3, ?_, q2, q3⟩
        change dget (dset d.coll.dict (loc cat) b') _ = _ at q1
        rw [d1, if_neg (hne e he)] at q1
        exact q1
    · intro x hx
      simp only [List.map_cons, List.mem_cons, not_or] at hx
      rw [o2 x hx.2]
      show dget (dset d.coll.dict (loc cat) b') _ = _
      rw [d1, if_neg hx.1]

/-! ## All of it -/

theorem printable_lower {s : Str} (h : Solid s) : Printable (lower s) := by
  rw [h.low]
  intro ch hc
  obtain ⟨c0, h0, rfl⟩ := List.mem_map.1 hc
  have := h c0 h0
  unfold asciiLowerChar
  split
  · rename_i hr
    have h1 : 65 ≤ c0.toNat := hr.1
    have h2 : c0.toNat ≤ 90 := hr.2
    have hv : (c0.toNat + 32).isValidChar := .inl (by omega)
    have e : (Char.ofNat (c0.toNat + 32)).toNat = c0.toNat + 32 := by
      have key : ∀ n : Nat, n.isValidChar → (Char.ofNat n).toNat = n := by
        intro n hn
        simp [Char.ofNat, hn, Char.ofNatAux, Char.toNat]
      exact key _ hv
    rw [e]
    omega
  · omega

theorem FoundAs.solid {b : Block} {n i : Str} (h : FoundAs b n i) (hn : Solid n) : Solid i := by
  rcases h with ⟨_, t, e, _⟩ | ⟨_, rfl⟩
  · intro ch hc
    exact hn ch (by rw [e]; simp [hc])
  · exact hn

/-- The category has a block. -/
theorem catKind {c0 : Coll} (hr : Regular c0) {cat : Str} (h : Uses c0 cat ∨ Declares c0 cat) : ∃ q, Kind c0 q cat ∧ q ≠ dicBlock := by
  by_cases hd : Declares c0 cat
  · obtain ⟨k, b, n, hd, ho, hf⟩ := hd
    exact ⟨lower n, .defn hd hf, hd.key hr⟩
  · have hm : Missing c0 cat := ⟨h.resolve_right hd, hd⟩
    exact ⟨lower (madeName cat), .made hm, madeName_dic (hm.1.solid hr).1⟩

/-- A block that belongs to a definition or a category, as the table is made. -/
structure Fine (b : Block) : Prop where
  wf : b.WF
  limit : ∀ l, b.maxName = some l → 75 ≤ l
  mand : b.contains catMandatoryAttr = false
  key : b.contains catKeyAttr = false

theorem Opened.fine {c0 c : Coll} (hr : Regular c0) (h : Opened c0 c) {q s : Str} (hk : Kind c0 q s) (hq : q ≠ dicBlock) {b : Block}
    (hb : dget c.dict q = some b) : Fine b := by
  cases hk with
  | dic => exact absurd rfl hq
  | defn hd hf =>
    obtain ⟨b1, b', q1, q2, q3⟩ := h.defs _ _ _ hd
    rw [hb] at q1
    injection q1 with q1
    subst q1
    refine ⟨q3.kin.wf, by rw [q3.kin.max]; exact q2.limit, ?_, ?_⟩
    · rw [q3.contains low_catMandatory (by decide), q2.contains low_catMandatory (by decide)]
      exact (hd.ok hr).1.fresh _ (by simp)
    · rw [q3.contains low_catKey (by decide), q2.contains low_catKey (by decide)]
      exact (hd.ok hr).1.fresh _ (by simp)
  | made hm =>
    obtain ⟨b', q1, q2⟩ := h.made _ hm
    rw [hb] at q1
    injection q1 with q1
    subst q1
    refine ⟨q2.wf, q2.limit, ?_, ?_⟩
    · rw [contains_dget, low_catMandatory, q2.rest _ (by decide)]; rfl
    · rw [contains_dget, low_catKey, q2.rest _ (by decide)]; rfl

/-- One of the two rounds of writing. -/
theorem write_ok {c0 : Coll} (hr : Regular c0) {attr : Str} (ha : attr ∈ setAttrs') (hlow : lower attr = attr) {d : CifDic}
    (ht : Tabled c0 d.table) (hf : Flat d.coll)
    (hb : ∀ q s, Kind c0 q s → q ≠ dicBlock → ∃ b, dget d.coll.dict q = some b ∧ b.WF ∧ (∀ l, b.maxName = some l → 75 ≤ l) ∧ b.contains attr = false)
    {S : Str → Str → Prop} {m : Dict Str (List PyVal)} (hm : Holds S m) (hS : ∀ cat x, S cat x → Uses c0 cat ∧ Printable x) :
    ∃ d', foldE (writeCat attr) d m = .ok d' ∧ d'.table = d.table ∧ d'.lang = d.lang ∧ d'.imports = d.imports ∧ Flat d'.coll ∧
      dget d'.coll.dict dicBlock = dget d.coll.dict dicBlock ∧
      (∀ q s, Kind c0 q s → q ≠ dicBlock → ∃ b b', dget d.coll.dict q = some b ∧ dget d'.coll.dict q = some b' ∧ Kin b b' [attr]) ∧
      ∀ cat q, Uses c0 cat ∨ Declares c0 cat → Kind c0 q cat → q ≠ dicBlock → ∃ b', dget d'.coll.dict q = some b' ∧ Lists b' attr (S cat) := by
  let loc : Str → Str := fun cat => match dget d.table (lower cat) with
    | some q => q
    | none => []
  have hloc : ∀ q s, Kind c0 q s → q ≠ dicBlock → loc s = q := by
    intro q s hk hq
    simp only [loc, ht.found q s hk hq]
  have hent : ∀ e ∈ m, ∃ l : List Str, e.2 = l.map .str ∧ l ≠ [] ∧ l.Nodup ∧ (∀ x, x ∈ l ↔ S e.1 x) ∧ Uses c0 e.1 := by
    intro e he
    have hg := dget_of_mem hm.1 he
    rcases hm.2 e.1 with ⟨l, h1, h2, h3, h4⟩ | ⟨h1, _⟩
    · rw [hg] at h1
      injection h1 with h1
      refine ⟨l, h1, h2, h3, h4, ?_⟩
      obtain ⟨x, hx⟩ := List.exists_mem_of_ne_nil l h2
      exact (hS _ _ ((h4 x).1 hx)).1
    · rw [hg] at h1
      cases h1
  have hinj : ∀ e ∈ m, ∀ cat q, Kind c0 q cat → q ≠ dicBlock → loc e.1 = q → e.1 = cat := by
    intro e he cat q hk hq heq
    obtain ⟨_, _, _, _, _, hu⟩ := hent e he
    obtain ⟨q', hk', hq'⟩ := catKind hr (.inl hu)
    rw [hloc q' _ hk' hq'] at heq
    subst heq
    exact hk'.functional hr hk
  obtain ⟨d', e1, t1, l1, i1, f1, w1, o1⟩ := writeCats ha hlow loc m hf (by
    have : m.map (fun e => loc e.1) = (dkeys m).map loc := by simp [dkeys]
    rw [this, nodup_map_iff hm.1]
    intro a ha' a' ha'' e
    obtain ⟨⟨a1, l1⟩, hm1, rfl⟩ := List.mem_map.1 ha'
    obtain ⟨⟨a2, l2⟩, hm2, rfl⟩ := List.mem_map.1 ha''
    obtain ⟨_, _, _, _, _, hu⟩ := hent _ hm2
    obtain ⟨q', hk', hq'⟩ := catKind hr (.inl hu)
    exact hinj _ hm1 _ q' hk' hq' (e.trans (hloc q' _ hk' hq')))
    (fun e he => by
      obtain ⟨l, q1, q2, q3, q4, hu⟩ := hent e he
      obtain ⟨q', hk', hq'⟩ := catKind hr (.inl hu)
      refine ⟨?_, ?_, ?_, ?_⟩
      · rw [q1]; simpa using q2
      · intro v hv
        rw [q1] at hv
        obtain ⟨x, hx, rfl⟩ := List.mem_map.1 hv
        exact .inl ⟨x, rfl, (hS _ _ ((q4 x).1 hx)).2⟩
      · rw [hloc q' _ hk' hq']
        exact ht.found q' _ hk' hq'
      · rw [hloc q' _ hk' hq']
        exact hb q' _ hk' hq')
  refine ⟨d', e1, t1, l1, i1, f1, ?_, ?_, ?_⟩
  · refine o1 _ (fun hm' => ?_)
    obtain ⟨e, he, heq⟩ := List.mem_map.1 hm'
    obtain ⟨_, _, _, _, _, hu⟩ := hent e he
    obtain ⟨q', hk', hq'⟩ := catKind hr (.inl hu)
    rw [hloc q' _ hk' hq'] at heq
    exact hq' heq
  · intro q s hk hq
    obtain ⟨b, h1, h2, _⟩ := hb q s hk hq
    by_cases hx : q ∈ m.map (fun e => loc e.1)
    · obtain ⟨e, he, rfl⟩ := List.mem_map.1 hx
      obtain ⟨b1, b', w2, w3, w4, _⟩ := w1 e he
      exact ⟨b1, b', w2, w3, w4⟩
    · exact ⟨b, b, h1, by rw [o1 q hx, h1], Kin.refl h2 _⟩
  · intro cat q hc hk hq
    rcases hm.2 cat with ⟨l, h1, h2, h3, h4⟩ | ⟨h1, h2⟩
    · obtain ⟨b1, b', w2, w3, w4, w5⟩ := w1 (cat, l.map .str) (dget_mem h1)
      rw [hloc q _ hk hq] at w3
      exact ⟨b', w3, .inl ⟨l, w5, h2, h3, h4⟩⟩
    · obtain ⟨b, q1, _, _, q4⟩ := hb q cat hk hq
      refine ⟨b, ?_, .inr ⟨q4, h2⟩⟩
      rw [o1 q, q1]
      intro hx
      obtain ⟨e, he, heq⟩ := List.mem_map.1 hx
      have := hinj e he cat q hk hq heq
      have hg := dget_of_mem hm.1 he
      rw [this, h1] at hg
      cases hg

/-- The dictionary that was opened. -/
structure Loaded (c0 : Coll) (d : CifDic) : Prop where
  flat : Flat d.coll
  table : Tabled c0 d.table
  dic : ∃ m, dget d.coll.dict dicBlock = some m ∧
    ∃ rows : List (Str × Str × Str), Has m codeAttr (.list (rows.map fun r => .str r.1)) ∧
      Has m codeConstructAttr (.list (rows.map fun r => .str r.2.1)) ∧ Has m primitiveAttr (.list (rows.map fun r => .str r.2.2)) ∧
      ∀ x y z, (x, y, z) ∈ rows ↔ TypeRow c0 x y z
  defs : ∀ k b n, Defines c0 k b n → ∃ b1 b2 b', dget d.coll.dict (lower n) = some b' ∧ Inst b n b1 ∧ Norm b1 b2 ∧ Kin b2 b' [catMandatoryAttr, catKeyAttr]
  made : ∀ cat, Missing c0 cat → ∃ b b', dget d.coll.dict (lower (madeName cat)) = some b' ∧ Made cat b ∧ Kin b b' [catMandatoryAttr, catKeyAttr]
  cats : ∀ cat q, Uses c0 cat ∨ Declares c0 cat → Kind c0 q cat → q ≠ dicBlock → ∃ b', dget d.coll.dict q = some b' ∧
    Lists b' catMandatoryAttr (Obliged c0 cat) ∧ Lists b' catKeyAttr (Identifying c0 cat)

theorem Lists.congr {b : Block} {a : Str} {P Q : Str → Prop} (h : Lists b a P) (e : ∀ x, P x ↔ Q x) : Lists b a Q := by
  have : P = Q := funext fun x => propext (e x)
  exact this ▸ h

theorem Lists.same {b b' : Block} {a : Str} {P : Str → Prop} (h : Lists b a P) (e : dget b'.block (lower a) = dget b.block (lower a)) : Lists b' a P := by
  unfold Lists at *
  rw [contains_of_same e]
  simpa only [has_of_same e] using h

theorem load_ok {c0 : Coll} (hr : Regular c0) : ∃ d, load c0 = .ok d ∧ Loaded c0 d := by
  obtain ⟨c, f, e1, ho⟩ := normaliseDic_ok hr
  obtain ⟨t, e2, ht⟩ := table_ok hr ho
  have hd : Ready2 c0 c { coll := c, table := t, lang := .ddl1 } := ⟨rfl, ht⟩
  obtain ⟨m1, m2, e3, w1, w2⟩ := collect_ok hr ho hd (dkeys t) ht.nodup (fun x hx => hx) Holds.empty Holds.empty (fun _ _ _ h => h)
  have origin : ∀ {x k b n i}, Origin c0 x k b n i → x ∈ dkeys t := by
    intro x k b n i h
    exact (ht.only x).2 ⟨lower n, i, .defn h.1 h.2.1, h.1.key hr, h.2.2⟩
  have w1' : Holds (Obliged c0) m1 := w1.congr fun cat y => by
    simp only [false_or]
    constructor
    · rintro ⟨x, _, rfl, k, b, n, i, h1, h2, h3⟩
      exact ⟨k, b, n, i, h1.1, h1.2.1, h1.2.2, h2, h3⟩
    · rintro ⟨k, b, n, i, h1, h2, h3, h4, h5⟩
      have ho : Origin c0 y k b n i := ⟨h1, h2, h3⟩
      exact ⟨y, origin ho, rfl, k, b, n, i, ho, h4, h5⟩
  have w2' : Holds (Identifying c0) m2 := w2.congr fun cat y => by
    simp only [false_or]
    constructor
    · rintro ⟨x, _, k, b, n, i, u, h1, h2, h3, h4⟩
      exact ⟨k, b, n, i, u, h1.1, h1.2.1, h2, h3, by rw [← h1.2.2]; exact h4⟩
    · rintro ⟨k, b, n, i, u, h1, h2, h3, h4, h5⟩
      have ho : Origin c0 (lower i) k b n i := ⟨h1, h2, rfl⟩
      exact ⟨lower i, origin ho, k, b, n, i, u, ho, h3, h4, h5⟩
  have hb0 : ∀ q s, Kind c0 q s → q ≠ dicBlock → ∃ b, dget c.dict q = some b ∧ Fine b := by
    intro q s hk hq
    obtain ⟨b, hb⟩ := ho.block hk
    exact ⟨b, hb, ho.fine hr hk hq hb⟩
  obtain ⟨d1, e4, t1, la1, i1, f1, dic1, k1, c1⟩ := write_ok hr (attr := catMandatoryAttr) (by simp [setAttrs']) low_catMandatory
    (d := { coll := c, table := t, lang := .ddl1 }) ht ho.flat (fun q s hk hq => by
      obtain ⟨b, h1, h2⟩ := hb0 q s hk hq
      exact ⟨b, h1, h2.wf, h2.limit, h2.mand⟩) w1' (by
      rintro cat x ⟨k, b, n, i, h1, h2, rfl, h4, h5⟩
      exact ⟨⟨k, b, n, h1, h4⟩, printable_lower (h2.solid (h1.ok hr).2.1)⟩)
  have hb1 : ∀ q s, Kind c0 q s → q ≠ dicBlock → ∃ b b', dget c.dict q = some b ∧ dget d1.coll.dict q = some b' ∧ Fine b ∧ Kin b b' [catMandatoryAttr] := by
    intro q s hk hq
    obtain ⟨b, b', h1, h2, h3⟩ := k1 q s hk hq
    exact ⟨b, b', h1, h2, ho.fine hr hk hq h1, h3⟩
  obtain ⟨d2, e5, t2, la2, i2, f2, dic2, k2, c2⟩ := write_ok hr (attr := catKeyAttr) (by simp [setAttrs']) low_catKey
    (d := d1) (by rw [t1]; exact ht) f1 (fun q s hk hq => by
      obtain ⟨b, b', h1, h2, h3, h4⟩ := hb1 q s hk hq
      refine ⟨b', h2, h4.wf, by rw [h4.max]; exact h3.limit, ?_⟩
      rw [contains_of_same (b := b) (by rw [low_catKey]; exact h4.same _ (by decide))]
      exact h3.key) w2' (by
      rintro cat x ⟨k, b, n, i, u, h1, h2, h3, h4, h5⟩
      refine ⟨⟨k, b, n, h1, h3⟩, ?_⟩
      rcases h5 with rfl | rfl
      · exact printable_lower (h2.solid (h1.ok hr).2.1)
      · obtain ⟨_, u', q1, q2⟩ := (h1.ok hr).1.unique h4.1
        have := Has.unique h4 q1
        injection this with this
        subst this
        exact q2)
  have hb2 : ∀ q s, Kind c0 q s → q ≠ dicBlock → ∃ b b', dget c.dict q = some b ∧ dget d2.coll.dict q = some b' ∧ Kin b b' [catMandatoryAttr, catKeyAttr] := by
    intro q s hk hq
    obtain ⟨b, b', h1, h2, _, h3⟩ := hb1 q s hk hq
    obtain ⟨b2, b3, h4, h5, h6⟩ := k2 q s hk hq
    rw [h2] at h4
    injection h4 with h4
    subst h4
    exact ⟨b, b3, h1, h5, h3.trans h6⟩
  refine ⟨d2, ?_, f2, by rw [t2, t1]; exact ht, ?_, ?_, ?_, ?_⟩
  · unfold load
    simp only [e1, e2]
    unfold catLoad
    have e3' : foldE (catInfo { coll := c, table := t, lang := .ddl1 }) ([], []) (CifDic.keys { coll := c, table := t, lang := .ddl1 }) = .ok (m1, m2) := e3
    simp only [e3', e4, e5]
  · obtain ⟨_, _, m'', _, h2, _, _, hrows⟩ := ho.dic
    refine ⟨m'', ?_, hrows⟩
    rw [dic2, dic1]
    exact h2
  · intro k b n hd
    obtain ⟨b1, b2, q1, q2, q3⟩ := ho.defs k b n hd
    obtain ⟨i, hi⟩ := (hd.ok hr).2.2.2
    obtain ⟨b3, b', w3, w4, w5⟩ := hb2 _ _ (.defn hd hi) (hd.key hr)
    rw [q1] at w3
    injection w3 with w3
    subst w3
    exact ⟨b1, b2, b', w4, q2, q3, w5⟩
  · intro cat hm
    obtain ⟨b, q1, q2⟩ := ho.made cat hm
    obtain ⟨b3, b', w3, w4, w5⟩ := hb2 _ _ (.made hm) (madeName_dic (hm.1.solid hr).1)
    rw [q1] at w3
    injection w3 with w3
    subst w3
    exact ⟨b, b', w4, q2, w5⟩
  · intro cat q hc hk hq
    obtain ⟨b1, h1, h2⟩ := c1 cat q hc hk hq
    obtain ⟨b2, h3, h4⟩ := c2 cat q hc hk hq
    obtain ⟨b3, b4, h5, h6, h7⟩ := k2 q _ hk hq
    rw [h1] at h5
    injection h5 with h5
    subst h5
    rw [h3] at h6
    injection h6 with h6
    subst h6
    exact ⟨b2, h3, h2.same (by rw [low_catMandatory]; exact h7.same _ (by decide)), h4⟩

end Verif.Ddl1
