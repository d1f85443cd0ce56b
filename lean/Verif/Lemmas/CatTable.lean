import Verif.Spec.CatTable
import Verif.Lemmas.CifDicTree
import Verif.Lemmas.ValidateLoop
/-! Helper lemmas about the tables of a dictionary. -/
set_option linter.unusedSectionVars false
namespace Verif.CifDic
open Validate

section
variable {α β : Type} [DecidableEq α]

theorem dset_mem' : ∀ {d : Dict α β} {k : α} {v : β} {p : α × β}, p ∈ dset d k v → p = (k, v) ∨ p ∈ d
  | [], k, v, p, h => by simp [dset] at h; exact .inl h
  | (a, b) :: r, k, v, p, h => by
    rw [dset] at h
    split at h
    · rename_i e
      rcases List.mem_cons.1 h with h | h
      · first
          | (left; rw [h, e])
          | (left; rw [h])
      · exact .inr (List.mem_cons_of_mem _ h)
    · rcases List.mem_cons.1 h with h | h
      · exact .inr (by rw [h]; exact List.mem_cons_self)
      · rcases dset_mem' h with h | h
        · exact .inl h
        · exact .inr (List.mem_cons_of_mem _ h)

theorem dup_mem : ∀ {e d : Dict α β} {p : α × β}, p ∈ dupdate d e → p ∈ e ∨ p ∈ d
  | [], d, p, h => .inr h
  | (k, v) :: e, d, p, h => by
    have : p ∈ dupdate (dset d k v) e := h
    rcases dup_mem this with h | h
    · exact .inl (List.mem_cons_of_mem _ h)
    · rcases dset_mem' h with h | h
      · exact .inl (by rw [h]; exact List.mem_cons_self)
      · exact .inr h

theorem dup_keys : ∀ {e d : Dict α β} {k : α}, k ∈ dkeys (dupdate d e) ↔ k ∈ dkeys e ∨ k ∈ dkeys d
  | [], d, k => by simp [dupdate, dkeys]
  | (k', v) :: e, d, k => by
    have : dupdate d ((k', v) :: e) = dupdate (dset d k' v) e := rfl
    rw [this, dup_keys, mem_dkeys_dset]
    simp only [dkeys, List.map_cons, List.mem_cons]
    constructor
    · rintro (h | h | h)
      · exact .inl (.inr h)
      · exact .inl (.inl h)
      · exact .inr h
    · rintro ((h | h) | h)
      · exact .inr (.inl h)
      · exact .inl h
      · exact .inr (.inr h)

theorem dup_get : ∀ {e d : Dict α β} {k : α} {v : β}, dget (dupdate d e) k = some v → (k, v) ∈ e ∨ dget d k = some v
  | [], d, k, v, h => .inr h
  | (k', v') :: e, d, k, v, h => by
    have : dget (dupdate (dset d k' v') e) k = some v := h
    rcases dup_get this with h | h
    · exact .inl (List.mem_cons_of_mem _ h)
    · rw [dget_dset] at h
      split at h
      · rename_i e'
        left
        injection h with h
        rw [← h, ← e']
        exact List.mem_cons_self
      · exact .inr h

theorem dup_old : ∀ {e d : Dict α β} {k : α}, k ∉ dkeys e → dget (dupdate d e) k = dget d k
  | [], d, k, _ => rfl
  | (k', v') :: e, d, k, h => by
    simp only [dkeys, List.map_cons, List.mem_cons, not_or] at h
    have : dupdate d ((k', v') :: e) = dupdate (dset d k' v') e := rfl
    rw [this, dup_old h.2, dget_dset, if_neg (fun e => h.1 e.symm)]

theorem dup_nodup : ∀ {e d : Dict α β}, (dkeys d).Nodup → (dkeys (dupdate d e)).Nodup
  | [], _, h => h
  | (k, v) :: e, d, h => dup_nodup (e := e) (d := dset d k v) (nodup_dkeys_dset d k v h)

theorem dup_new : ∀ (e d : Dict α β), (dkeys e).Nodup → (∀ k ∈ dkeys e, k ∉ dkeys d) → dupdate d e = d ++ e
  | [], d, _, _ => by simp [dupdate]
  | (k, v) :: e, d, hn, hd => by
    simp only [dkeys, List.map_cons, List.nodup_cons] at hn
    have ih := dup_new e (dset d k v) hn.2 (by
      intro k' hk' hm
      rw [mem_dkeys_dset] at hm
      rcases hm with hm | hm
      · subst hm; exact hn.1 hk'
      · exact hd k' (by simp [dkeys] at hk' ⊢; exact .inr hk') hm)
    have : dupdate d ((k, v) :: e) = dupdate (dset d k v) e := rfl
    rw [this, ih, dset_of_not_mem _ _ _ (hd k (by simp [dkeys]))]
    simp
end

variable [CaseFold]

/-! ## Reading attributes -/

theorem Attr.textI {d : CifDic} {a attr v : Str} (h : Attr d a attr (.str v)) : textI d a attr = .ok v := by
  obtain ⟨b, hb, h1, h2⟩ := h
  unfold CifDic.textI attrI
  simp only [hb, h2]

theorem Attr.textD {d : CifDic} {a attr v : Str} (h : Attr d a attr (.str v)) : textD d a attr = .ok v := by
  obtain ⟨b, hb, h1⟩ := h
  unfold CifDic.textD attrD
  simp only [hb, getD_has h1]

theorem Attr.attrI {d : CifDic} {a attr : Str} {v : PyVal} (h : Attr d a attr v) : attrI d a attr = .ok v := by
  obtain ⟨b, hb, h1, h2⟩ := h
  unfold CifDic.attrI
  simp only [hb, h2]

theorem Attr.unique {d : CifDic} {a attr : Str} {v w : PyVal} (h : Attr d a attr v) (h' : Attr d a attr w) : v = w := by
  have := h.attrI
  rw [h'.attrI] at this
  injection this with this
  exact this.symm

theorem textD_cat {d : CifDic} (h : Readable d) {a : Str} (ha : a ∈ d.keys) : ∃ c, textD d a catAttr = .ok c ∧ lower c = catOf d a := by
  obtain ⟨b, hb, hp⟩ := h.found a ha
  unfold CifDic.textD attrD catOf
  simp only [hb]
  cases hc : b.contains catAttr with
  | false => simp only [getD_not hc]; exact ⟨[], rfl, rfl⟩
  | true =>
    obtain ⟨s, hs⟩ := hp.1 hc
    simp only [getD_has (d := .str []) ⟨hc, hs⟩]
    exact ⟨s, rfl, rfl⟩

theorem item_iff {d : CifDic} (h : Readable d) {a : Str} (ha : a ∈ d.keys) : ItemDef d a ↔ scopeIs d "Item".toList a = true := by
  obtain ⟨b, hb, hp⟩ := h.found a ha
  unfold ItemDef scopeIs
  simp only [hb]
  cases hc : b.contains scopeAttr with
  | false =>
    rw [getD_not hc]
    simp only [decide_true]
    exact ⟨fun _ => trivial, fun _ => ⟨b, rfl, .inl hc⟩⟩
  | true =>
    obtain ⟨v, hv⟩ := hp.2.1 hc
    rw [getD_has ⟨hc, hv⟩]
    simp only [decide_eq_true_eq]
    constructor
    · rintro ⟨b', e, h'⟩
      injection e with e
      subst e
      rcases h' with h' | h'
      · rw [hc] at h'; cases h'
      · have := h'.2
        rw [hv] at this
        injection this
    · intro e
      subst e
      exact ⟨b, rfl, .inr ⟨hc, hv⟩⟩

/-- Whether a definition is of class `Loop`. -/
def loopIs (d : CifDic) (a : Str) : Bool :=
  match d.getItem a with
  | .error _ => false
  | .ok b =>
    match getD b classAttr (.str []) with
    | .ok v => decide (v = .str "Loop".toList)
    | _ => false

theorem loopClass {d : CifDic} {a : Str} {b : Block} (dflt : Str) (hdf : dflt ≠ "Loop".toList) (hb : d.getItem a = .ok b) (hp : Plain b) :
    isClass d dflt "Loop".toList a = .ok (loopIs d a) ∧ (Attr d a classAttr (.str "Loop".toList) ↔ loopIs d a = true) := by
  unfold isClass attrD loopIs Attr
  simp only [hb]
  cases hc : b.contains classAttr with
  | false =>
    simp only [getD_not hc]
    refine ⟨?_, ?_⟩
    · rw [decide_eq_false (by intro e; injection e with e; exact hdf e), decide_eq_false (by decide)]
    · constructor
      · rintro ⟨b', e, h', _⟩
        injection e with e
        subst e
        rw [hc] at h'
        cases h'
      · intro e
        exact absurd e (by decide)
  | true =>
    obtain ⟨v, hv⟩ := hp.2.2 hc
    simp only [getD_has ⟨hc, hv⟩, true_and, decide_eq_true_eq]
    constructor
    · rintro ⟨b', e, h'⟩
      injection e with e
      subst e
      have := h'.2
      rw [hv] at this
      injection this
    · intro e
      subst e
      exact ⟨b, rfl, hc, hv⟩

theorem loopCat_iff {d : CifDic} (h : Readable d) {a : Str} : LoopCat d a ↔ a ∈ d.keys ∧ loopIs d a = true := by
  unfold LoopCat
  constructor
  · rintro ⟨ha, h2⟩
    obtain ⟨b, hb, hp⟩ := h.found a ha
    exact ⟨ha, ((loopClass [] (by decide) hb hp).2).1 h2⟩
  · rintro ⟨ha, h2⟩
    obtain ⟨b, hb, hp⟩ := h.found a ha
    exact ⟨ha, ((loopClass [] (by decide) hb hp).2).2 h2⟩

theorem map_low {l : List Str} (h : ∀ a ∈ l, lower a = a) : l.map lower = l := by
  induction l with
  | nil => rfl
  | cons a r ih => rw [List.map_cons, h a (by simp), ih fun b hb => h b (by simp [hb])]

theorem loopable_eq {d : CifDic} (h : Readable d) : loopable d = .ok (d.keys.filter (loopIs d)) := by
  unfold loopable
  rw [select_ok (p := loopIs d) (fun a ha => by
    obtain ⟨b, hb, hp⟩ := h.found a ha
    exact (loopClass [] (by decide) hb hp).1)]
  simp only
  rw [map_low fun a ha => h.low a (List.mem_filter.1 ha).1]

/-- The looped categories in a looped category. -/
def loopKids (d : CifDic) (c : Str) : List Str := (kids d c).filter fun b => decide (b ∈ d.keys.filter (loopIs d))

theorem mem_loopKids {d : CifDic} (h : Readable d) {p c : Str} (hp : LoopCat d p) : c ∈ loopKids d p ↔ LoopChild d p c := by
  have hk := hp.1
  unfold loopKids LoopChild
  rw [List.mem_filter, decide_eq_true_eq, List.mem_filter, mem_kids h (h.low p hk) (h.named p hk), loopCat_iff (a := c) h]
  constructor
  · rintro ⟨⟨h1, h2⟩, h3⟩; exact ⟨hp, h3, h2⟩
  · rintro ⟨_, h3, h2⟩; exact ⟨⟨h3.1, h2⟩, h3⟩

/-- The list of looped categories to expand. -/
def loopTree (d : CifDic) : Dict Str (List Str) :=
  ((d.keys.filter (loopIs d)).map fun p => (p, loopKids d p)).filter fun p => decide (p.2 ≠ [])

theorem nodup_loopTree {d : CifDic} (h : Readable d) : (dkeys (loopTree d)).Nodup := by
  have hs : (dkeys (loopTree d)).Sublist (d.keys.filter (loopIs d)) := by
    unfold loopTree dkeys
    have := (List.filter_sublist (l := (d.keys.filter (loopIs d)).map fun p => (p, loopKids d p)) (p := fun p => decide (p.2 ≠ []))).map Prod.fst
    refine this.trans ?_
    rw [List.map_map]
    have : (Prod.fst ∘ fun p => (p, loopKids d p)) = id := rfl
    rw [this, List.map_id]
    exact List.Sublist.refl _
  exact hs.nodup (h.nodup.filter _)

theorem expandList_eq {d : CifDic} (h : Readable d) : expandList d = .ok (loopTree d) := by
  unfold expandList
  rw [loopable_eq h]
  simp only
  rw [mapE_ok (g := kids d) (fun a ha => by
    rw [immediate_eq h, h.low a (List.mem_filter.1 ha).1])]
  simp only
  have e : ∀ l : List Str, (l.zip ((l.map (kids d)).map fun l => l.filter fun b => decide (lower b ∈ d.keys.filter (loopIs d)))) =
      l.map fun p => (p, loopKids d p) := by
    intro l
    induction l with
    | nil => rfl
    | cons a r ih =>
      simp only [List.map_cons, List.zip_cons_cons, ih]
      congr 2
      unfold loopKids
      apply List.filter_congr
      intro x hx
      have : x ∈ d.keys := by
        unfold kids at hx
        split at hx
        · exact (List.mem_filter.1 hx).1
        · cases hx
      rw [h.low x this]
  rw [e]
  have := dup_new (loopTree d) [] (nodup_loopTree h) (by simp [dkeys])
  rw [List.nil_append] at this
  exact congrArg Except.ok this

theorem mem_loopTree {d : CifDic} (h : Readable d) {p : Str} {ch : List Str} :
    (p, ch) ∈ loopTree d ↔ LoopCat d p ∧ ch = loopKids d p ∧ ch ≠ [] := by
  unfold loopTree
  rw [List.mem_filter, List.mem_map, decide_eq_true_eq]
  constructor
  · rintro ⟨⟨a, ha, e⟩, hne⟩
    injection e with e1 e2
    subst e1
    exact ⟨(loopCat_iff h).2 (List.mem_filter.1 ha), e2.symm, hne⟩
  · rintro ⟨h1, h2, h3⟩
    exact ⟨⟨p, List.mem_filter.2 ((loopCat_iff h).1 h1), by rw [h2]⟩, h3⟩

theorem mem_keys_loopTree {d : CifDic} (h : Readable d) {p : Str} : p ∈ dkeys (loopTree d) ↔ ∃ c, LoopChild d p c := by
  unfold dkeys
  rw [List.mem_map]
  constructor
  · rintro ⟨⟨p', ch⟩, hm, e⟩
    have e : p' = p := e
    subst e
    obtain ⟨h1, h2, h3⟩ := (mem_loopTree h).1 hm
    obtain ⟨c, r, hc⟩ := List.exists_cons_of_ne_nil h3
    exact ⟨c, (mem_loopKids h h1).1 (by rw [← h2, hc]; exact List.mem_cons_self)⟩
  · rintro ⟨c, hc⟩
    exact ⟨(p, loopKids d p), (mem_loopTree h).2 ⟨hc.1, rfl, List.ne_nil_of_mem ((mem_loopKids h hc.1).2 hc)⟩, rfl⟩

/-! ## Names by category and object -/

theorem baseTable_ok {d : CifDic} (h : Readable d) (hd : Described d) : ∃ base, baseTable d = .ok base ∧
    (∀ c o l, ((c, o), l) ∈ base → ∃ a n s, a ∈ d.keys ∧ ItemDef d a ∧ catOf d a = c ∧ Attr d a objAttr (.str s) ∧ lower s = o ∧
      Attr d a defIdAttr (.str n) ∧ l = [n]) ∧
    (∀ a s, a ∈ d.keys → ItemDef d a → Attr d a objAttr (.str s) → (catOf d a, lower s) ∈ dkeys base) ∧ (dkeys base).Nodup := by
  have hent : ∀ a ∈ d.keys, ItemDef d a → ∀ s n, Attr d a objAttr (.str s) → Attr d a defIdAttr (.str n) →
      baseEntry d a = .ok ((catOf d a, lower s), [n]) := by
    intro a ha hi s n hs hn
    obtain ⟨c, hc, e⟩ := textD_cat h ha
    unfold baseEntry
    simp only [hc, hs.textD, hn.textD, e]
  have hall : ∀ a ∈ d.keys.filter (scopeIs d "Item".toList), ∃ y, baseEntry d a = .ok y := by
    intro a ha
    obtain ⟨ha, hi⟩ := List.mem_filter.1 ha
    have hi := (item_iff h ha).2 hi
    obtain ⟨s, hs, _⟩ := hd.objects a ha hi
    obtain ⟨n, hn⟩ := hd.ids a ha hi
    exact ⟨_, hent a ha hi s n hs hn⟩
  obtain ⟨es, h1, h2⟩ := mapE_exists hall
  refine ⟨dupdate [] es, ?_, ?_, ?_, dup_nodup (by simp [dkeys])⟩
  · unfold baseTable
    rw [cats_eq h (fun _ h => h)]
    simp only [h1]
  · intro c o l hm
    rcases dup_mem hm with hm | hm
    · obtain ⟨a, ha, he⟩ := (h2 _).1 hm
      obtain ⟨ha, hi⟩ := List.mem_filter.1 ha
      have hi := (item_iff h ha).2 hi
      obtain ⟨s, hs, _⟩ := hd.objects a ha hi
      obtain ⟨n, hn⟩ := hd.ids a ha hi
      rw [hent a ha hi s n hs hn] at he
      injection he with he
      injection he with he1 he2
      injection he1 with he1 he3
      exact ⟨a, n, s, ha, hi, he1, hs, he3, hn, he2.symm⟩
    · cases hm
  · intro a s ha hi hs
    obtain ⟨n, hn⟩ := hd.ids a ha hi
    rw [dup_keys]
    left
    exact mem_dkeys ((h2 _).2 ⟨a, List.mem_filter.2 ⟨ha, (item_iff h ha).1 hi⟩, hent a ha hi s n hs hn⟩)

theorem notKey_ok {d : CifDic} (h : Readable d) (hd : Described d) {a : Str} (ha : a ∈ d.keys) :
    ∃ t, notKey d a = .ok t ∧ (t = true ↔ ¬ IsKey d a) := by
  obtain ⟨b, hb, _⟩ := h.found a ha
  unfold notKey attrD IsKey Attr
  simp only [hb]
  cases hc : b.contains purposeAttr with
  | false =>
    simp only [getD_not hc]
    refine ⟨_, rfl, ?_⟩
    simp only [decide_eq_true_eq]
    constructor
    · rintro - ⟨b', e, h', _⟩
      injection e with e
      subst e
      rw [hc] at h'
      cases h'
    · intro _
      decide
  | true =>
    obtain ⟨v, hv⟩ := hd.purposes a ha b hb hc
    simp only [getD_has ⟨hc, hv⟩]
    refine ⟨_, rfl, ?_⟩
    simp only [decide_eq_true_eq]
    constructor
    · rintro hn ⟨b', e, h'⟩
      injection e with e
      subst e
      have := h'.2
      rw [hv] at this
      injection this with this
      exact hn this
    · rintro hn e
      subst e
      exact hn ⟨b, rfl, hc, hv⟩

theorem objNames_ok {d : CifDic} (h : Readable d) (hd : Described d) {c : Str} (hc : c ∈ d.keys) : ∃ own, objNames d c = .ok own ∧
    ∀ o n, (o, n) ∈ own ↔ ∃ a s, a ∈ d.keys ∧ ItemDef d a ∧ InCategory d c a ∧ ¬ IsKey d a ∧ Attr d a objAttr (.str s) ∧ lower s = o ∧
      Attr d a defIdAttr (.str n) := by
  have hlow := h.low c hc
  have hsub : ∀ a ∈ kids d c, a ∈ d.keys := fun a ha => ((mem_kids h hlow (h.named c hc)).1 ha).1
  let p : Str → Bool := fun a => match notKey d a with | .ok t => t | .error _ => false
  have hp : ∀ a ∈ d.keys, notKey d a = .ok (p a) ∧ (p a = true ↔ ¬ IsKey d a) := by
    intro a ha
    obtain ⟨t, h1, h2⟩ := notKey_ok h hd ha
    have : p a = t := by show (match notKey d a with | .ok t => t | .error _ => false) = t; rw [h1]
    rw [this]
    exact ⟨h1, h2⟩
  have hname : ∀ a ∈ d.keys, ∀ s n, Attr d a objAttr (.str s) → Attr d a defIdAttr (.str n) → objName d a = .ok (lower s, n) := by
    intro a ha s n hs hn
    unfold objName
    simp only [hs.textI, hn.textI]
  have hin : ∀ a, a ∈ (((kids d c).filter (scopeIs d "Item".toList)).filter p) ↔ a ∈ d.keys ∧ ItemDef d a ∧ InCategory d c a ∧ ¬ IsKey d a := by
    intro a
    rw [List.mem_filter, List.mem_filter, mem_kids h hlow (h.named c hc)]
    constructor
    · rintro ⟨⟨⟨h1, h2⟩, h3⟩, h4⟩
      exact ⟨h1, (item_iff h h1).2 h3, h2, (hp a h1).2.1 h4⟩
    · rintro ⟨h1, h2, h3, h4⟩
      exact ⟨⟨⟨h1, h3⟩, (item_iff h h1).1 h2⟩, (hp a h1).2.2 h4⟩
  obtain ⟨own, h1, h2⟩ := mapE_exists (f := objName d) (l := ((kids d c).filter (scopeIs d "Item".toList)).filter p) (by
    intro a ha
    obtain ⟨h1, h2, h3, h4⟩ := (hin a).1 ha
    obtain ⟨s, hs, _⟩ := hd.objects a h1 h2
    obtain ⟨n, hn⟩ := hd.ids a h1 h2
    exact ⟨_, hname a h1 s n hs hn⟩)
  refine ⟨own, ?_, ?_⟩
  · unfold objNames namesInCat
    rw [immediate_eq h, hlow]
    simp only
    rw [cats_eq h hsub]
    simp only
    rw [select_ok (p := p) (fun a ha => (hp a (hsub a (List.mem_filter.1 ha).1)).1)]
    exact h1
  · intro o n
    rw [h2]
    constructor
    · rintro ⟨a, ha, he⟩
      obtain ⟨h1, h2, h3, h4⟩ := (hin a).1 ha
      obtain ⟨s, hs, _⟩ := hd.objects a h1 h2
      obtain ⟨n', hn⟩ := hd.ids a h1 h2
      rw [hname a h1 s n' hs hn] at he
      injection he with he
      injection he with he1 he2
      subst he2
      exact ⟨a, s, h1, h2, h3, h4, hs, he1, hn⟩
    · rintro ⟨a, s, h1, h2, h3, h4, hs, e, hn⟩
      subst e
      exact ⟨a, (hin a).2 ⟨h1, h2, h3, h4⟩, hname a h1 s n hs hn⟩

/-- What the additional table holds. -/
def Extra (d : CifDic) (t : NameTable) : Prop :=
  ∀ p o l, ((p, o), l) ∈ t → ∃ c a s n, LoopChild d p c ∧ a ∈ d.keys ∧ ItemDef d a ∧ InCategory d c a ∧ ¬ IsKey d a ∧ Attr d a objAttr (.str s) ∧
    lower s = o ∧ Attr d a defIdAttr (.str n) ∧ l = [n]

/-- The objects of the items of `c` are in the table of `p`. -/
def Covers (d : CifDic) (t : NameTable) (p c : Str) : Prop :=
  ∀ a s, a ∈ d.keys → ItemDef d a → InCategory d c a → ¬ IsKey d a → Attr d a objAttr (.str s) → (p, lower s) ∈ dkeys t

theorem childLoop_ok {d : CifDic} (h : Readable d) (hd : Described d) (hs : Shallow d)
    (f : Str → List Str → NameTable → Except PyErr (List (Str × Str) × NameTable)) {p : Str} :
    ∀ (cs : List Str) (last : Option (List (Str × Str))) (t : NameTable), (∀ c ∈ cs, LoopChild d p c) → Extra d t →
    (cs ≠ [] ∨ last ≠ none) → (∀ names, last = some names → ∀ o n, (o, n) ∈ names → ∃ a ∈ d.keys, Attr d a defIdAttr (.str n)) →
    ∃ names t', childLoop d (loopTree d) f p cs [] last t = .ok (some names, t') ∧ Extra d t' ∧
      (∀ k ∈ dkeys t, k ∈ dkeys t') ∧ (∀ c ∈ cs, Covers d t' p c) ∧ ∀ o n, (o, n) ∈ names → ∃ a ∈ d.keys, Attr d a defIdAttr (.str n)
  | [], last, t, _, hx, hl, hln => by
    cases last with
    | none => rcases hl with hl | hl <;> exact absurd rfl hl
    | some names => exact ⟨names, t, rfl, hx, fun _ h => h, by simp, hln names rfl⟩
  | c :: cs, last, t, hc, hx, _, _ => by
    have hpc := hc c (by simp)
    have hno : dget (loopTree d) c = none := by
      rw [dget_eq_none, mem_keys_loopTree h]
      rintro ⟨c', hc'⟩
      exact hs p c c' hpc hc'
    obtain ⟨own, h1, h2⟩ := objNames_ok h hd hpc.2.1.1
    have hnew : newEntries t p own = own.map fun a => ((p, a.1), [a.2]) := by
      unfold newEntries
      rw [List.filter_eq_self.2]
      rintro ⟨o, n⟩ ha
      rw [decide_eq_true_eq]
      intro hk
      obtain ⟨l, hl⟩ := dget_isSome.2 hk
      obtain ⟨_, a', s', _, _, ha', _, _, _, hs', e', _⟩ := hx _ _ _ (dget_mem hl)
      obtain ⟨a, s, ha1, _, _, _, _, _, hn⟩ := (h2 o n).1 ha
      exact hd.apart a' ha' a ha1 s' n hs' hn e'
    have hx' : Extra d (dupdate t (own.map fun a => ((p, a.1), [a.2]))) := by
      intro q o l hm
      rcases dup_mem hm with hm | hm
      · obtain ⟨⟨o', n⟩, ha, e⟩ := List.mem_map.1 hm
        injection e with e1 e2
        injection e1 with e1 e3
        subst e1 e3
        obtain ⟨a, s, i1, i2, i3, i4, i5, i6, i7⟩ := (h2 o' n).1 ha
        exact ⟨c, a, s, n, hpc, i1, i2, i3, i4, i5, i6, i7, e2.symm⟩
      · exact hx q o l hm
    have hids : ∀ o n, (o, n) ∈ own → ∃ a ∈ d.keys, Attr d a defIdAttr (.str n) := by
      intro o n hm
      obtain ⟨a, s, i1, _, _, _, _, _, i7⟩ := (h2 o n).1 hm
      exact ⟨a, i1, i7⟩
    obtain ⟨names, t', g1, g2, g3, g4, g5⟩ := childLoop_ok h hd hs f cs (some own) _ (fun x hx => hc x (by simp [hx])) hx' (.inr nofun)
      (fun names e => by injection e with e; subst e; exact hids)
    refine ⟨names, t', ?_, g2, ?_, ?_, g5⟩
    · rw [childLoop]
      unfold nested
      simp only [hno, h1, List.append_nil, hnew]
      exact g1
    · intro k hk
      exact g3 k (dup_keys.2 (.inr hk))
    · intro x hx
      rcases List.mem_cons.1 hx with rfl | hx
      · intro a s i1 i2 i3 i4 i5
        obtain ⟨n, hn⟩ := hd.ids a i1 i2
        refine g3 _ (dup_keys.2 (.inl (mem_dkeys (v := [n]) (List.mem_map.2 ⟨(lower s, n), ?_, rfl⟩))))
        exact (h2 _ _).2 ⟨a, s, i1, i2, i3, i4, i5, rfl, hn⟩
      · exact g4 x hx

theorem expand_one {d : CifDic} (h : Readable d) (hd : Described d) (hs : Shallow d) (m : Nat) {p : Str} {cs : List Str} {t : NameTable}
    (hc : ∀ c ∈ cs, LoopChild d p c) (hne : cs ≠ []) (hx : Extra d t) :
    ∃ r t', expandFuel d (loopTree d) (m + 1) p cs t = .ok (r, t') ∧ Extra d t' ∧ (∀ k ∈ dkeys t, k ∈ dkeys t') ∧ ∀ c ∈ cs, Covers d t' p c := by
  obtain ⟨names, t', g1, g2, g3, g4, g5⟩ := childLoop_ok h hd hs (expandFuel d (loopTree d) m) cs none t hc hx (.inl hne) nofun
  have hf : (names.filter fun a => decide (a ∈ dkeys t')) = [] := by
    rw [List.filter_eq_nil_iff]
    rintro ⟨o, n⟩ ha
    rw [decide_eq_true_eq]
    intro hk
    obtain ⟨l, hl⟩ := dget_isSome.2 hk
    obtain ⟨_, a', s', _, _, ha', _, _, _, hs', e', _⟩ := g2 _ _ _ (dget_mem hl)
    obtain ⟨a, ha1, hn⟩ := g5 o n ha
    exact hd.apart a' ha' a ha1 s' n hs' hn e'
  obtain ⟨c, r, hcs⟩ := List.exists_cons_of_ne_nil hne
  have hp : p ∈ d.keys := (hc c (by rw [hcs]; exact List.mem_cons_self)).1.1
  obtain ⟨own, h1, _⟩ := objNames_ok h hd hp
  refine ⟨names ++ own, t', ?_, g2, g3, g4⟩
  rw [expandFuel]
  simp only [g1, hf, addRepeats, h1]

theorem expandAll_ok {d : CifDic} (h : Readable d) (hd : Described d) (hs : Shallow d) (m : Nat) : ∀ (l : Dict Str (List Str)) (t : NameTable),
    (∀ q ∈ l, q ∈ loopTree d) → Extra d t →
    ∃ t', expandAll d (loopTree d) (m + 1) l t = .ok t' ∧ Extra d t' ∧ (∀ k ∈ dkeys t, k ∈ dkeys t') ∧
      ∀ q ∈ l, ∀ c ∈ q.2, Covers d t' q.1 c
  | [], t, _, hx => ⟨t, rfl, hx, fun _ h => h, by simp⟩
  | (p, cs) :: l, t, hl, hx => by
    obtain ⟨i1, i2, i3⟩ := (mem_loopTree h).1 (hl (p, cs) (by simp))
    obtain ⟨r, t1, g1, g2, g3, g4⟩ := expand_one h hd hs m (p := p) (cs := cs) (t := t)
      (fun c hc => (mem_loopKids h i1).1 (by rw [← i2]; exact hc)) i3 hx
    obtain ⟨t', k1, k2, k3, k4⟩ := expandAll_ok h hd hs m l t1 (fun q hq => hl q (by simp [hq])) g2
    refine ⟨t', ?_, k2, fun k hk => k3 k (g3 k hk), ?_⟩
    · rw [expandAll]
      simp only [g1]
      exact k1
    · intro q hq
      rcases List.mem_cons.1 hq with rfl | hq
      · intro c hc a s j1 j2 j3 j4 j5
        exact k3 _ (g4 c hc a s j1 j2 j3 j4 j5)
      · exact k4 q hq

theorem join_fold (base : NameTable) (k : Str × Str) : ∀ (l : NameTable) (t : NameTable),
    dget (l.foldl (fun t p => dset t p.1 ((dget base p.1).elim p.2 (· ++ p.2))) t) k = dget t k ∨
    ∃ q ∈ l, q.1 = k ∧ dget (l.foldl (fun t p => dset t p.1 ((dget base p.1).elim p.2 (· ++ p.2))) t) k = some ((dget base k).elim q.2 (· ++ q.2))
  | [], t => .inl rfl
  | q :: l, t => by
    rw [List.foldl_cons]
    rcases join_fold base k l (dset t q.1 ((dget base q.1).elim q.2 (· ++ q.2))) with e | ⟨q', h1, h2, h3⟩
    · rw [dget_dset] at e
      by_cases hk : q.1 = k
      · right
        rw [if_pos hk] at e
        exact ⟨q, by simp, hk, by rw [e, hk]⟩
      · rw [if_neg hk] at e
        exact .inl e
    · exact .inr ⟨q', by simp [h1], h2, h3⟩

theorem join_own {base extra : NameTable} {k : Str × Str} {l : List Str} (hk : dget base k = some l) :
    ∃ r, dget (joinTables base extra) k = some (l ++ r) := by
  unfold joinTables
  have hin : k ∈ dkeys base := dget_isSome.1 ⟨l, hk⟩
  rcases join_fold base k (extra.filter fun p => decide (p.1 ∈ dkeys base)) (dupdate base (extra.filter fun p => decide (p.1 ∉ dkeys base))) with
    e | ⟨q, _, _, e⟩
  · rw [e, dup_old, hk]
    · exact ⟨[], by rw [List.append_nil]⟩
    · intro hm
      obtain ⟨q, hq, e'⟩ := List.mem_map.1 hm
      have := (List.mem_filter.1 hq).2
      rw [decide_eq_true_eq] at this
      exact this (by rw [e']; exact hin)
  · rw [e, hk]
    exact ⟨q.2, rfl⟩

theorem join_extra {base extra : NameTable} {k : Str × Str} (hk : k ∉ dkeys base) :
    (∀ l, dget (joinTables base extra) k = some l → (k, l) ∈ extra) ∧ (k ∈ dkeys extra → ∃ l, dget (joinTables base extra) k = some l) := by
  have hd : dget (joinTables base extra) k = dget (dupdate base (extra.filter fun p => decide (p.1 ∉ dkeys base))) k := by
    unfold joinTables
    rcases join_fold base k (extra.filter fun p => decide (p.1 ∈ dkeys base)) (dupdate base (extra.filter fun p => decide (p.1 ∉ dkeys base))) with
      e | ⟨q, hq, e', _⟩
    · exact e
    · have := (List.mem_filter.1 hq).2
      rw [decide_eq_true_eq, e'] at this
      exact absurd this hk
  constructor
  · intro l hl
    rw [hd] at hl
    rcases dup_get hl with h | h
    · exact (List.mem_filter.1 h).1
    · exact absurd (dget_isSome.1 ⟨l, h⟩) hk
  · intro hm
    rw [hd]
    obtain ⟨q, hq, e⟩ := List.mem_map.1 hm
    refine dget_isSome.2 (dup_keys.2 (.inl (List.mem_map.2 ⟨q, List.mem_filter.2 ⟨hq, ?_⟩, e⟩)))
    rw [decide_eq_true_eq, e]
    exact hk

end Verif.CifDic
