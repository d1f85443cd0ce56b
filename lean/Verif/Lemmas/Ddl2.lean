import Verif.Model.Ddl2
import Verif.Props.CifDic
import Verif.Lemmas.CatTable
/-! Lemmas about opening DDL2 dictionaries. -/
set_option linter.unusedSectionVars false
namespace Verif.Ddl2
open CifDic Validate
variable [CaseFold]

theorem mapE_reached {α β : Type} {f : α → Except PyErr β} : ∀ {l : List α} {r : List β}, mapE f l = .ok r →
    ∀ x ∈ l, ∃ y ∈ r, f x = .ok y
  | [], _, _, _, hx => nomatch hx
  | a :: l, r, h, x, hx => by
    simp only [mapE] at h
    split at h
    · cases h
    · next y hy =>
      split at h
      · cases h
      · next ys hys =>
        injection h with h
        subst h
        rcases List.mem_cons.1 hx with rfl | hx
        · exact ⟨y, by simp, hy⟩
        · obtain ⟨z, hz, e⟩ := mapE_reached hys x hx
          exact ⟨z, by simp [hz], e⟩

theorem each_stay {f : CifDic → Str → CifDic × Except PyErr Unit} {d : CifDic} : ∀ {l : List Str},
    (∀ k ∈ l, f d k = (d, .ok ())) → each f d l = (d, .ok ())
  | [], _ => rfl
  | k :: r, h => by
    rw [each, h k (by simp)]
    exact each_stay fun x hx => h x (List.mem_cons_of_mem _ hx)

/-- A loop that leaves everything as it is or raises, and raises once. -/
theorem each_raise {f : CifDic → Str → CifDic × Except PyErr Unit} {d : CifDic} {k : Str} : ∀ {l : List Str},
    (∀ x ∈ l, f d x = (d, .ok ()) ∨ ∃ d' e, f d x = (d', .error e)) → k ∈ l → (∃ d' e, f d k = (d', .error e)) →
    ∃ d' e, each f d l = (d', .error e)
  | [], _, hk, _ => nomatch hk
  | x :: r, h, hk, he => by
    rcases h x (by simp) with hx | ⟨d', e, hx⟩
    · rw [each, hx]
      rcases List.mem_cons.1 hk with rfl | hk
      · obtain ⟨d', e, he⟩ := he
        rw [hx] at he
        cases he
      · exact each_raise (fun y hy => h y (List.mem_cons_of_mem _ hy)) hk he
    · exact ⟨d', e, by rw [each, hx]; rfl⟩

theorem mem_dset_sub {α β : Type} [DecidableEq α] {k : α} {v : β} : ∀ {d : Dict α β} {p : α × β}, p ∈ dset d k v → p = (k, v) ∨ p ∈ d
  | [], p, h => .inl (by simpa [dset] using h)
  | (a, b) :: r, p, h => by
    unfold dset at h
    split at h
    · rcases List.mem_cons.1 h with e | e
      · exact .inl (by first | exact e | (next hh => rw [e, hh]))
      · exact .inr (List.mem_cons_of_mem _ e)
    · rcases List.mem_cons.1 h with e | e
      · exact .inr (e ▸ List.mem_cons_self ..)
      · rcases mem_dset_sub e with e | e
        · exact .inl e
        · exact .inr (List.mem_cons_of_mem _ e)

/-- No block of the collection holds `_definition.id`. -/
def NoId (c : Coll) : Prop := ∀ p ∈ c.dict, p.2.contains idAttr = false

theorem coll_noId {c : Coll} (h : NoId c) {k : Str} {b : Block} (hb : c.getItem k = .ok b) : b.contains idAttr = false := by
  unfold Coll.getItem at hb
  split at hb
  · split at hb
    · next e he =>
      injection hb with hb
      subst hb
      exact h _ (dget_mem he)
    · cases hb
  · cases hb

theorem dic_noId {d : CifDic} (h : NoId d.coll) (hi : d.imports = []) {k : Str} {b : Block} (hb : d.getItem k = .ok b) :
    b.contains idAttr = false := by
  unfold CifDic.getItem at hb
  split at hb
  · next b' he =>
    injection hb with hb
    subst hb
    unfold byId at he
    split at he
    · cases he
    · exact coll_noId h he
  · split at hb
    · next b' he =>
      injection hb with hb
      subst hb
      exact coll_noId h he
    · rw [hi] at hb; cases hb

theorem block_missing {b : Block} {a : Str} (h : b.contains a = false) : ∃ e, b.getItem a = .error e := by
  unfold Block.getItem
  split
  · exact ⟨_, rfl⟩
  · have : dget b.block (lower a) = none := dget_eq_none.2 (of_decide_eq_false h)
    simp only [Block.getFullItemValue, this]
    exact ⟨_, rfl⟩

theorem setItem_raises {d : CifDic} {s : Str} {b : Block} (h : NoId d.coll) (hi : d.imports = []) (hs : d.coll.standard ≠ none)
    (hb : b.contains idAttr = false) : ∃ d' e, setItem d s b = (d', .error e) := by
  have hm : ∀ (k n : Str) (b' : Block), b'.keys = b.keys → NoId (d.coll.addBlock k n b' none) := by
    intro k n b' hk p hp
    rcases mem_dset_sub hp with e | e
    · subst e
      rw [Block.contains] at hb ⊢
      exact hk ▸ hb
    · exact h p e
  have key : ∃ d' e, newBlock d s b true none = (d', .error e) := by
    unfold newBlock
    have hr : ∀ d' : CifDic, NoId d'.coll → d'.imports = [] → ∀ n, ∃ e, attrI d' n idAttr = .error e := by
      intro d' h1 h2 n
      unfold attrI
      cases hg : d'.getItem n with
      | error e => exact ⟨e, rfl⟩
      | ok b' => exact block_missing (dic_noId h1 h2 hg)
    rcases hn : baseNewBlock d s b true none with ⟨d', r⟩
    cases r with
    | error e => exact ⟨d', e, rfl⟩
    | ok n =>
      have : NoId d'.coll ∧ d'.imports = [] := by
        unfold baseNewBlock at hn
        rcases hp : d.coll.prepare b with ⟨b', r'⟩
        have hk : b'.keys = b.keys := by
          have : b' = (d.coll.prepare b).1 := by rw [hp]
          rw [this]
          unfold Coll.prepare Block.setMaxNameLength
          split <;> (try split) <;> (try dsimp only) <;> (try split) <;> rfl
        rw [hp] at hn
        cases r' with
        | error e => simp at hn
        | ok u =>
          simp only at hn
          split at hn
          · simp at hn
          · unfold basePlace at hn
            simp only [if_true] at hn
            generalize hnm : Coll.fixName s = nm at hn
            by_cases hin : lower nm ∈ d.coll.lowerKeys
            · simp only [if_pos hin] at hn
              cases hst : d.coll.standard with
              | none => exact absurd hst hs
              | some w =>
                simp only [hst] at hn
                split at hn
                · simp only [Prod.mk.injEq] at hn
                  obtain ⟨hn, _⟩ := hn
                  subst hn
                  exact ⟨hm _ _ _ hk, hi⟩
                · simp at hn
            · simp only [if_neg hin, Prod.mk.injEq] at hn
              obtain ⟨hn, _⟩ := hn
              subst hn
              exact ⟨hm _ _ _ hk, hi⟩
      obtain ⟨e, he⟩ := hr d' this.1 this.2 n
      exact ⟨d', e, by simp only [seq, CifDic.read, he]⟩
  obtain ⟨d', e, he⟩ := key
  exact ⟨d', e, by rw [setItem, he]; rfl⟩

theorem aliasOne_raises {d : CifDic} {k : Str} (v : PyVal) (h : NoId d.coll) (hi : d.imports = []) (hs : d.coll.standard ≠ none) :
    ∃ d' e, aliasOne k d v = (d', .error e) := by
  cases v with
  | str s =>
    simp only [aliasOne]
    cases hg : d.getItem k with
    | error e => exact ⟨d, e, rfl⟩
    | ok b =>
      obtain ⟨d', e, he⟩ := setItem_raises (s := s) (b := Ddl1.copied b) h hi hs (by
        have := dic_noId h hi hg
        rw [Block.contains] at this ⊢
        exact this)
      exact ⟨d', e, by simp only [CifDic.read, he, seq]⟩
  | _ => exact ⟨d, .type, rfl⟩

theorem aliasDef_cases {d : CifDic} (k : Str) (h : NoId d.coll) (hi : d.imports = []) (hs : d.coll.standard ≠ none) :
    aliasDef d k = (d, .ok ()) ∨ ∃ d' e, aliasDef d k = (d', .error e) := by
  unfold aliasDef
  cases attrI d k aliasAttr with
  | error e => exact .inr ⟨d, e, rfl⟩
  | ok v =>
    simp only [CifDic.read]
    cases hl : listed v with
    | error e => exact .inr ⟨d, e, rfl⟩
    | ok l =>
      cases l with
      | nil => exact .inl rfl
      | cons a r =>
        obtain ⟨d', e, he⟩ := aliasOne_raises (k := k) a h hi hs
        exact .inr ⟨d', e, by simp only [aliasEach, he, seq]⟩

theorem aliasDef_raises {d : CifDic} {k : Str} {v : PyVal} {l : List PyVal} (h : NoId d.coll) (hi : d.imports = [])
    (hs : d.coll.standard ≠ none) (hv : attrI d k aliasAttr = .ok v) (hl : listed v = .ok l) (hn : l ≠ []) :
    ∃ d' e, aliasDef d k = (d', .error e) := by
  unfold aliasDef
  simp only [hv, CifDic.read, hl]
  cases l with
  | nil => exact absurd rfl hn
  | cons a r =>
    obtain ⟨d', e, he⟩ := aliasOne_raises (k := k) a h hi hs
    exact ⟨d', e, by simp only [aliasEach, he, seq]⟩

/-- Every definition of the table is a block of the collection. -/
theorem key_block {c : Coll} {t : Dict Str Str} (hc : c.Consistent) (ht : Texts c .ddl2) (h : defTable c .ddl2 = .ok t) {x : Str}
    (hx : x ∈ dkeys t) : ∃ k ∈ c.keys, dget t x = some k ∧ lower x = x := by
  have hk := (C54_keys (i := []) hc ht h).2 x
  obtain ⟨_, s, _, _, hs⟩ := hk.1 hx
  obtain ⟨v, hv⟩ := dget_isSome.2 hx
  rw [defTable_eq ht] at h
  split at h
  · injection h with h
    subst h
    rcases dup_get hv with h1 | h1
    · unfold entries at h1
      obtain ⟨k, hk, e⟩ := List.mem_map.1 h1
      injection e with _ e2
      have hkk := (List.mem_filter.1 hk).1
      rw [(keys_low hc hkk).2] at e2
      subst e2
      exact ⟨k, hkk, hv, by rw [← hs, CaseFold.lower_lower]⟩
    · cases h1
  · cases h

theorem key_get {c : Coll} {t : Dict Str Str} (hc : c.Consistent) (ht : Texts c .ddl2) (h : defTable c .ddl2 = .ok t) {x : Str}
    (hx : x ∈ dkeys t) : ∃ k ∈ c.keys, ∃ b, c.getItem k = .ok b ∧ CifDic.getItem ⟨c, t, .ddl2, []⟩ x = .ok b := by
  obtain ⟨k, hk, hg, hl⟩ := key_block hc ht h hx
  obtain ⟨b, hb, _⟩ := ht k hk
  exact ⟨k, hk, b, hb, by simp only [CifDic.getItem, byId, hl, hg, hb]⟩

theorem untangle_stay {c : Coll} {t : Dict Str Str} (hc : c.Consistent) (ht : Texts c .ddl2) (h : defTable c .ddl2 = .ok t) :
    each untangle ⟨c, t, .ddl2, []⟩ (dkeys t) = (⟨c, t, .ddl2, []⟩, .ok ()) := by
  apply each_stay
  intro x hx
  obtain ⟨k, hk, b, hb, hg⟩ := key_get hc ht h hx
  obtain ⟨b', hb', ha⟩ := ht k hk
  rw [hb] at hb'
  injection hb' with hb'
  subst hb'
  have : ∃ v, attrD ⟨c, t, .ddl2, []⟩ x itemAttr .none = .ok v ∧ (v = .none ∨ ∃ s, v = .str s) := by
    unfold attrD
    rw [hg]
    cases hcn : b.contains itemAttr with
    | false => exact ⟨.none, getD_not hcn, .inl rfl⟩
    | true =>
      obtain ⟨s, hs⟩ := ha itemAttr (.inr rfl) hcn
      exact ⟨.str s, getD_has ⟨hcn, hs⟩, .inr ⟨s, rfl⟩⟩
  obtain ⟨v, hv, e⟩ := this
  unfold untangle
  rw [hv]
  rcases e with rfl | ⟨s, rfl⟩ <;> rfl

end Verif.Ddl2
