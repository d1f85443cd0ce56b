import Verif.Spec.ValidCifFile
import Verif.Props.ValidFile
import Verif.Props.Collection
/-! # C104: files of valid blocks -/
namespace Verif
namespace Validate
open Spec Coll
set_option linter.unusedSectionVars false

section
variable [CaseFold]

/-! ## Lemmas -/

theorem dkeys_dset_mem {α β : Type} [DecidableEq α] {d : Dict α β} {k : α} {v : β} (h : k ∈ dkeys d) : dkeys (dset d k v) = dkeys d := by
  induction d with
  | nil => cases h
  | cons p d ih =>
    obtain ⟨x, y⟩ := p
    by_cases hx : x = k
    · subst hx; simp [dset, dkeys]
    · have hm : k ∈ dkeys d := by
        simp only [dkeys, List.map_cons, List.mem_cons] at h
        rcases h with h | h
        · exact absurd h.symm hx
        · exact h
      have := ih hm
      simp only [dkeys] at this
      simp [dset, dkeys, hx, this]

theorem consistent_set {c : Coll} (h : Consistent c) {k : Str} (hk : k ∈ c.lowerKeys) (b : Block) :
    Consistent { c with dict := dset c.dict k b } := by
  have hd : dkeys (dset c.dict k b) = dkeys c.dict := dkeys_dset_mem ((h.mem_dict k).mpr hk)
  have hu : ∀ a x, Under { c with dict := dset c.dict k b } a x → Under c a x := by
    intro a x hx
    induction hx with
    | child hp => exact .child hp
    | deeper _ hp ih => exact .deeper ih hp
  exact { nd_dict := by rw [hd]; exact h.nd_dict
          nd_table := h.nd_table, nd_keys := h.nd_keys, nd_order := h.nd_order, nd_visible := h.nd_visible
          mem_dict := by intro x; rw [hd]; exact h.mem_dict x
          mem_table := h.mem_table, mem_order := h.mem_order, lower_keys := h.lower_keys, parents := h.parents
          acyclic := fun x hx => h.acyclic x (hu _ _ hx), visible_all := h.visible_all, visible_top := h.visible_top }

theorem keys_lower {c : Coll} (h : Consistent c) {k : Str} (hk : k ∈ c.keys) : k ∈ c.lowerKeys := by
  cases hs : c.scoping with
  | dictionary => exact (h.visible_all hs k).mp hk
  | «instance» => exact ((h.visible_top hs k).mp hk).1

theorem getItem_key {c : Coll} (h : Consistent c) {k : Str} (hk : k ∈ c.lowerKeys) {b : Block} : c.getItem k = .ok b ↔ dget c.dict k = some b := by
  unfold Coll.getItem
  rw [h.lower_keys k hk, if_pos hk]
  cases dget c.dict k <;> simp

theorem validBlock_iff (C : Checks) (data b : Block) : validBlock C data = .ok b ↔ b = copyOf data ∧ PassedAll C b := by
  constructor
  · intro h
    have hb : b = copyOf data := by
      unfold validBlock at h
      cases hr : runDataChecks C (copyOf data) (some {}) with
      | error e => simp only [hr] at h; cases h
      | ok v =>
        obtain ⟨valid, report⟩ := v
        simp only [hr] at h
        cases valid with
        | false => cases h
        | true => injection h with h; exact h.symm
    exact ⟨hb, (C94_valid_partial C data b h).2.2.2.2⟩
  · rintro ⟨rfl, es, h1, h2⟩
    obtain ⟨v, r, h3, h4, -⟩ := C47_verdict C _ _ es h1
    unfold validBlock
    simp only [h3]
    rw [h4.mpr h2]
    rfl

theorem copyOf_stored (c : Coll) (b : Block) : copyOf (stored c b) = copyOf b := rfl

theorem copyOf_copyOf (b : Block) : copyOf (copyOf b) = copyOf b := rfl

theorem wrapBlocks_keeps (C : Checks) : ∀ (ks : List Str) (c : Coll), (∀ k ∈ ks, k ∈ c.lowerKeys) → Consistent c →
    Consistent (wrapBlocks C c ks).1 ∧ (wrapBlocks C c ks).1.lowerKeys = c.lowerKeys ∧ (wrapBlocks C c ks).1.childTable = c.childTable ∧
    (wrapBlocks C c ks).1.visible = c.visible ∧ (∀ x, x ∉ ks → dget (wrapBlocks C c ks).1.dict x = dget c.dict x)
  | [], c, _, h => ⟨h, rfl, rfl, rfl, fun _ _ => rfl⟩
  | k :: ks, c, hm, h => by
    unfold wrapBlocks
    split
    · exact ⟨h, rfl, rfl, rfl, fun _ _ => rfl⟩
    · split
      · exact ⟨h, rfl, rfl, rfl, fun _ _ => rfl⟩
      · rename_i b' _
        obtain ⟨h1, h2, h3, h4, h5⟩ := wrapBlocks_keeps C ks { c with dict := dset c.dict k b' }
          (fun x hx => hm x (List.mem_cons_of_mem _ hx)) (consistent_set h (hm k List.mem_cons_self) b')
        refine ⟨h1, h2, h3, h4, fun x hx => ?_⟩
        rw [h5 x (fun hh => hx (List.mem_cons_of_mem _ hh)), dget_dset, if_neg]
        rintro rfl
        exact hx List.mem_cons_self

theorem wrapBlocks_iff (C : Checks) : ∀ (ks : List Str) (c : Coll), ks.Nodup → (∀ k ∈ ks, k ∈ c.lowerKeys) → Consistent c →
    ((wrapBlocks C c ks).2 = .ok () ↔ ∀ k ∈ ks, ∃ b, dget c.dict k = some b ∧ PassedAll C (copyOf b)) ∧
    ((wrapBlocks C c ks).2 = .ok () → ∀ k ∈ ks, ∃ b, dget c.dict k = some b ∧ dget (wrapBlocks C c ks).1.dict k = some (copyOf b))
  | [], c, _, _, _ => ⟨by simp [wrapBlocks], fun _ k hk => nomatch hk⟩
  | k :: ks, c, hn, hm, h => by
    obtain ⟨hk, hn⟩ := List.nodup_cons.mp hn
    obtain ⟨b, hb⟩ := dget_isSome.mpr ((h.mem_dict k).mpr (hm k List.mem_cons_self))
    unfold wrapBlocks
    simp only [hb]
    cases hv : validBlock C b with
    | error e =>
      refine ⟨⟨fun hh => (nomatch hh), fun hh => ?_⟩, fun hh => (nomatch hh)⟩
      obtain ⟨b1, hb1, hp⟩ := hh k List.mem_cons_self
      rw [hb] at hb1
      injection hb1 with hb1
      subst hb1
      rw [(validBlock_iff C b _).mpr ⟨rfl, hp⟩] at hv
      cases hv
    | ok b' =>
      obtain ⟨rfl, hp⟩ := (validBlock_iff C b b').mp hv
      have hm' : ∀ x ∈ ks, x ∈ ({ c with dict := dset c.dict k (copyOf b) } : Coll).lowerKeys := fun x hx => hm x (List.mem_cons_of_mem _ hx)
      have hc' := consistent_set h (hm k List.mem_cons_self) (copyOf b)
      obtain ⟨i1, i2⟩ := wrapBlocks_iff C ks { c with dict := dset c.dict k (copyOf b) } hn hm' hc'
      have hx : ∀ x ∈ ks, dget (dset c.dict k (copyOf b)) x = dget c.dict x := by
        intro x hx
        rw [dget_dset, if_neg]
        rintro rfl
        exact hk hx
      refine ⟨i1.trans ⟨fun hh x hm => ?_, fun hh x hm => ?_⟩, fun hh x hm => ?_⟩
      · rcases List.mem_cons.mp hm with rfl | hm
        · exact ⟨b, hb, hp⟩
        · have := hh x hm
          simp only [hx x hm] at this
          exact this
      · have := hh x (List.mem_cons_of_mem _ hm)
        simp only [hx x hm]
        exact this
      · rcases List.mem_cons.mp hm with rfl | hm
        · refine ⟨b, hb, ?_⟩
          rw [(wrapBlocks_keeps C ks _ hm' hc').2.2.2.2 x hk]
          exact dget_dset_self _ _ _
        · obtain ⟨b1, h1, h2⟩ := i2 hh x hm
          exact ⟨b1, (hx x hm).symm.trans h1, h2⟩

theorem keys_eq {c c' : Coll} (h : c'.visible = c.visible) : c'.keys = c.keys := h

/-! ## C104 -/

/-- C104: a file of valid blocks can be opened exactly when every block that is shown passes all checks. -/
theorem C104_open_iff (C : Checks) (c : Coll) (hc : Consistent c) :
    (openValid C c).2 = .ok () ↔ ∀ k ∈ c.keys, ∃ b, c.getItem k = .ok b ∧ PassedAll C (copyOf b) := by
  have h := (wrapBlocks_iff C c.keys c hc.nd_visible (fun k hk => keys_lower hc hk) hc).1
  unfold openValid
  rw [h]
  constructor
  · intro hh k hk
    obtain ⟨b, hb, hp⟩ := hh k hk
    exact ⟨b, (getItem_key hc (keys_lower hc hk)).mpr hb, hp⟩
  · intro hh k hk
    obtain ⟨b, hb, hp⟩ := hh k hk
    exact ⟨b, (getItem_key hc (keys_lower hc hk)).mp hb, hp⟩

/-- C104: after opening, the blocks that are shown have the contents they had in the file and have passed all checks; names and nesting are
those of the file. Missing: the blocks that are not shown, see `C104_hidden_fails`. -/
theorem C104_open_partial (C : Checks) (c c' : Coll) (hc : Consistent c) (h : openValid C c = (c', .ok ())) :
    c'.keys = c.keys ∧ c'.lowerKeys = c.lowerKeys ∧ c'.childTable = c.childTable ∧
    ∀ k ∈ c'.keys, ∃ b b', c.getItem k = .ok b ∧ c'.getItem k = .ok b' ∧ SameContents b b' ∧ PassedAll C b' := by
  have hm : ∀ k ∈ c.keys, k ∈ c.lowerKeys := fun k hk => keys_lower hc hk
  have hk := wrapBlocks_keeps C c.keys c hm hc
  have hi := wrapBlocks_iff C c.keys c hc.nd_visible hm hc
  unfold openValid at h
  rw [h] at hk hi
  obtain ⟨k1, k2, k3, k4, k5⟩ := hk
  refine ⟨k4, k2, k3, fun k hk => ?_⟩
  have hk' : k ∈ c.keys := by rw [← keys_eq k4]; exact hk
  obtain ⟨b, hb, hb'⟩ := hi.2 rfl k hk'
  obtain ⟨b1, hb1, hp⟩ := hi.1.mp rfl k hk'
  rw [hb] at hb1
  injection hb1 with hb1
  subst hb1
  exact ⟨b, copyOf b, (getItem_key hc (hm k hk')).mpr hb, (getItem_key k1 (keys_lower k1 hk)).mpr hb', ⟨rfl, rfl, rfl, rfl⟩, hp⟩

/-- C104 fails for blocks that are not shown when the file is opened, such as save frames: they are not looked at, whatever the checks
say. -/
theorem C104_hidden_fails (C : Checks) (c c' : Coll) (hc : Consistent c) (h : openValid C c = (c', .ok ())) (k : Str)
    (hk : k ∈ c.lowerKeys) (hv : k ∉ c.keys) : c'.getItem k = c.getItem k := by
  have hk' := wrapBlocks_keeps C c.keys c (fun k hk => keys_lower hc hk) hc
  unfold openValid at h
  rw [h] at hk'
  obtain ⟨k1, k2, -, -, k5⟩ := hk'
  have := k5 k hv
  unfold Coll.getItem
  rw [hc.lower_keys k hk, show c'.lowerKeys = c.lowerKeys from k2, this]

theorem wrapNew_consistent (C : Checks) {c : Coll} (h : Consistent c) (n : Str) : Consistent (wrapNew C c n).1 := by
  unfold wrapNew
  split
  · exact h
  · rename_i b hb
    split
    · exact h
    · refine consistent_set h ?_ _
      exact (h.mem_dict n).mp (dget_isSome.mp ⟨_, hb⟩)

theorem vstep_consistent (C : Checks) {c : Coll} (h : Consistent c) (op : VOp) (hf : op.Fair C c) : Consistent (vstep C c op) := by
  cases op with
  | new n b f p =>
    have h1 := newBlock_consistent h n b f p hf.1
    show Consistent (vNewBlock C c n b f p).1
    unfold vNewBlock
    generalize c.newBlock n b f p = q at h1
    obtain ⟨c', r⟩ := q
    cases r with
    | error e => exact h1
    | ok k => exact wrapNew_consistent C h1 n
  | del k => exact delItem_consistent h k hf
  | scoping s => exact setScoping_consistent h s
  | setParent p k => exact setParent_consistent h p k hf
  | clear => exact clear_consistent c

theorem copyOf_passed {C : Checks} {b : Block} (h : PassedAll C (copyOf b)) : validBlock C b = .ok (copyOf b) :=
  (validBlock_iff C b _).mpr ⟨rfl, h⟩

/-- What `NewBlock` of a file of valid blocks does for a name that is a key and is not in use. -/
theorem vNewBlock_plain {C : Checks} {c : Coll} (h : Consistent c) {n : Str} {b : Block} {f : Bool} {p : Option Str}
    (hp : ∀ q, p = some q → lower q ∈ c.lowerKeys) (hn : wantedKey n f = n) (hk : n ∉ c.lowerKeys)
    (hf : (Op.new n b f p).Fair c) :
    (∃ e, c.newBlock n b f p = (c, .error e) ∧ vNewBlock C c n b f p = (c, .error e)) ∨
    ∃ name, c.newBlock n b f p = (added c n ⟨stored c b, name, p.map lower⟩, .ok n) ∧
      vNewBlock C c n b f p = wrapNew C (added c n ⟨stored c b, name, p.map lower⟩) n := by
  have key : (∃ e, c.newBlock n b f p = (c, .error e)) ∨
      ∃ name, c.newBlock n b f p = (added c n ⟨stored c b, name, p.map lower⟩, .ok n) := by
    by_cases hs : c.standard = none
    · rcases newBlock_replace h hs n b f p hp (hf.2 hs).1 (hf.2 hs).2 with he | hr
      · exact Or.inl he
      · have := hr (fun _ => true) (fun x => ⟨fun _ hh => hk (hn ▸ hh.1), fun _ => rfl⟩)
        have hft : ∀ {α : Type} (l : List α), l.filter (fun _ => true) = l := fun l => List.filter_eq_self.mpr (fun _ _ => rfl)
        have hrc : restrict c (fun _ => true) = c := by simp only [restrict, hft]
        rw [hrc, hn] at this
        exact Or.inr ⟨_, this⟩
    · have hr := newBlock_result h hs n b f p hp
      rw [hn] at hr
      generalize c.newBlock n b f p = q at hr
      cases hr with
      | refused e => exact Or.inl ⟨e, rfl⟩
      | plain _ => exact Or.inr ⟨_, rfl⟩
      | newKey hm => exact absurd hm hk
      | moved _ _ _ hm => exact absurd hm hk
  rcases key with ⟨e, he⟩ | ⟨name, he⟩
  · exact Or.inl ⟨e, he, by unfold vNewBlock; rw [he]⟩
  · exact Or.inr ⟨name, he, by unfold vNewBlock; rw [he]⟩

theorem dget_added {c : Coll} (h : Consistent c) {n : Str} (hk : n ∉ c.lowerKeys) (e : Coll.Entry) :
    dget (added c n e).dict n = some e.block := by
  have : dget c.dict n = none := dget_eq_none.mpr (fun hm => hk ((h.mem_dict n).mp hm))
  simp only [added, dget_append, this, Option.none_or]
  simp [dget]

theorem dget_added_other {c : Coll} {n k : Str} (hk : k ≠ n) (e : Coll.Entry) :
    dget (added c n e).dict k = dget c.dict k := by
  simp only [added, dget_append]
  cases dget c.dict k with
  | some v => rfl
  | none => simp [dget, Ne.symm hk]

theorem vstep_allPassed (C : Checks) {c : Coll} (h : Consistent c) (ha : AllPassed C c) (op : VOp) (hf : op.Fair C c) :
    AllPassed C (vstep C c op) := by
  have hc' := vstep_consistent C h op hf
  suffices hd : ∀ k ∈ (vstep C c op).lowerKeys, parentOf (vstep C c op) k = none →
      (∃ b, dget (vstep C c op).dict k = some b ∧ PassedAll C b) by
    intro k hk hp
    obtain ⟨b, hb, hpa⟩ := hd k hk hp
    exact ⟨b, (getItem_key hc' hk).mpr hb, hpa⟩
  have ha' : ∀ k ∈ c.lowerKeys, parentOf c k = none → ∃ b, dget c.dict k = some b ∧ PassedAll C b := by
    intro k hk hp
    obtain ⟨b, hb, hpa⟩ := ha k hk hp
    exact ⟨b, (getItem_key h hk).mp hb, hpa⟩
  cases op with
  | new n b f p =>
    obtain ⟨hf1, hn, hk, hpass⟩ := hf
    rcases vNewBlock_plain (C := C) h hf1.1 hn hk hf1 with ⟨e, -, he⟩ | ⟨name, hadd, he⟩
    · show ∀ k ∈ (vNewBlock C c n b f p).1.lowerKeys, parentOf (vNewBlock C c n b f p).1 k = none →
        ∃ b', dget (vNewBlock C c n b f p).1.dict k = some b' ∧ PassedAll C b'
      rw [he]
      exact ha'
    · show ∀ k ∈ (vNewBlock C c n b f p).1.lowerKeys, parentOf (vNewBlock C c n b f p).1 k = none →
        ∃ b', dget (vNewBlock C c n b f p).1.dict k = some b' ∧ PassedAll C b'
      have hw : wrapNew C (added c n ⟨stored c b, name, p.map lower⟩) n =
          ({ added c n ⟨stored c b, name, p.map lower⟩ with
             dict := dset (added c n ⟨stored c b, name, p.map lower⟩).dict n (copyOf b) }, .ok ()) := by
        unfold wrapNew
        rw [dget_added h hk]
        simp only [copyOf_passed (C := C) (b := stored c b) (by rw [copyOf_stored]; exact hpass), copyOf_stored]
      rw [he, hw]
      intro k hm hpar
      by_cases hkn : k = n
      · subst hkn
        exact ⟨copyOf b, dget_dset_self _ _ _, hpass⟩
      · have hm' : k ∈ c.lowerKeys := by
          have : k ∈ c.lowerKeys ++ [n] := hm
          rcases List.mem_append.mp this with hm | hm
          · exact hm
          · exact absurd (List.mem_singleton.mp hm) hkn
        have hpar' : parentOf c k = none := by
          have hpa := parentOf_added (c := c) (key := n) (e := ⟨stored c b, name, p.map lower⟩)
            (fun hh => hk ((h.mem_table n).mp hh)) k
          rw [if_neg hkn] at hpa
          rw [← hpa]
          exact hpar
        obtain ⟨b1, hb1, hp1⟩ := ha' k hm' hpar'
        refine ⟨b1, ?_, hp1⟩
        show dget (dset _ n (copyOf b)) k = _
        rw [dget_dset, if_neg (Ne.symm hkn), dget_added_other hkn]
        exact hb1
  | del key =>
    show ∀ k ∈ (c.delItem key).1.lowerKeys, parentOf (c.delItem key).1 k = none →
        ∃ b', dget (c.delItem key).1.dict k = some b' ∧ PassedAll C b'
    by_cases hk : lower key ∈ c.lowerKeys
    · classical
      rw [delItem_eq h.keyed hk (fun x hx => hf x hx (by
        rcases hx with rfl | hx
        · exact hk
        · exact (h.mem_table x).mp (under_mem hx)))]
      intro k hm hpar
      obtain ⟨hm, hP⟩ := List.mem_filter.mp hm
      rw [parentOf_restrict, if_pos hP] at hpar
      obtain ⟨b1, hb1, hp1⟩ := ha' k hm hpar
      refine ⟨b1, ?_, hp1⟩
      have := dget_filter c.dict (fun x => decide (¬ Within c (lower key) x)) k
      rw [if_pos hP] at this
      exact this.trans hb1
    · rw [C32_missing hk]
      exact ha'
  | scoping s => exact ha'
  | setParent p key =>
    show ∀ k ∈ (c.setParent p key).1.lowerKeys, parentOf (c.setParent p key).1 k = none →
        ∃ b', dget (c.setParent p key).1.dict k = some b' ∧ PassedAll C b'
    unfold setParent
    split
    · exact ha'
    split
    · exact ha'
    split
    · exact ha'
    · intro k hm hpar
      refine ha' k hm ?_
      unfold parentOf at hpar ⊢
      simp only [setScoping, dget_dset] at hpar
      by_cases hkk : lower key = k
      · rw [if_pos hkk] at hpar
        cases hpar
      · rw [if_neg hkk] at hpar
        exact hpar
  | clear => intro k hk; cases hk

/-- C104: whatever is done to a file of valid blocks after it has been opened, every top-level block has passed all checks. Missing: new
blocks with a name that is in use or is not spelt as its key, new blocks that fail, and changing blocks in place (see C94). -/
theorem C104_history_partial (C : Checks) (c : Coll) (h : VReachable C c) : Consistent c ∧
    ∀ k ∈ c.lowerKeys, parentOf c k = none → ∃ b, c.getItem k = .ok b ∧ PassedAll C b := by
  induction h with
  | opened hc ho =>
    rename_i c c'
    have hk := wrapBlocks_keeps C c.keys c (fun k hk => keys_lower hc hk) hc
    have ho' := ho
    unfold openValid at ho
    rw [ho] at hk
    refine ⟨hk.1, fun k hm hp => ?_⟩
    obtain ⟨-, -, -, h4⟩ := C104_open_partial C c c' hc ho'
    obtain ⟨b, b', -, h2, -, h3⟩ := h4 k (top_visible hk.1 hm hp)
    exact ⟨b', h2, h3⟩
  | step op _ hf ih => exact ⟨vstep_consistent C ih.1 op hf, vstep_allPassed C ih.1 ih.2 op hf⟩

/-- C104 fails for a new block that is not valid: `ValidCifError` is raised, and the block is in the file. -/
theorem C104_invalid_fails (C : Checks) (c : Coll) (hc : Consistent c) (n : Str) (b : Block) (f : Bool)
    (hn : wantedKey n f = n) (hk : n ∉ c.lowerKeys) (es : List Event) (hr : BlockRun C (copyOf b) (some {}) es)
    (hbad : ∃ e ∈ es, Fails e.outcome) (hnew : ∃ k, (c.newBlock n b f).2 = .ok k) (hs : c.standard ≠ none) :
    (vNewBlock C c n b f).2 = .error .valid ∧ ∃ b', (vNewBlock C c n b f).1.getItem n = .ok b' ∧ SameContents b b' ∧
      parentOf (vNewBlock C c n b f).1 n = none := by
  have hf : (Op.new n b f none).Fair c := ⟨fun q hq => (nomatch hq), fun hh => absurd hh hs⟩
  have hcons := newBlock_consistent hc n b f none hf
  rcases vNewBlock_plain (C := C) (b := b) (p := none) hc (fun q hq => (nomatch hq)) hn hk hf with ⟨e, he, -⟩ | ⟨name, hadd, he⟩
  · obtain ⟨k, hk'⟩ := hnew
    rw [he] at hk'
    cases hk'
  · rw [he]
    rw [hadd] at hcons
    have hw : wrapNew C (added c n ⟨stored c b, name, none⟩) n = (added c n ⟨stored c b, name, none⟩, .error .valid) := by
      unfold wrapNew
      rw [dget_added hc hk]
      simp only [C94_invalid C (stored c b) es (by rw [copyOf_stored]; exact hr) hbad]
    have hmem : n ∈ (added c n ⟨stored c b, name, none⟩).lowerKeys := List.mem_append_right _ List.mem_cons_self
    simp only [Option.map_none] at hcons ⊢
    rw [hw]
    refine ⟨rfl, stored c b, (getItem_key hcons hmem).mpr (dget_added hc hk _), ⟨rfl, rfl, rfl, rfl⟩, ?_⟩
    rw [parentOf_added (fun hh => hk ((hc.mem_table n).mp hh)), if_pos rfl]

/-- C104 fails for a new block whose name has capitals or blanks: `KeyError` is raised, and the block is in the file, whatever the checks
say. -/
theorem C104_spelling_fails (C : Checks) (c : Coll) (hc : Consistent c) (n : Str) (b : Block) (f : Bool) (k : Str)
    (hn : wantedKey n f ≠ n) (hk : wantedKey n f ∉ c.lowerKeys) (hno : n ∉ c.lowerKeys) (hnew : (c.newBlock n b f).2 = .ok k)
    (hs : c.standard ≠ none) :
    (vNewBlock C c n b f).2 = .error .key ∧ ∃ b', (vNewBlock C c n b f).1.getItem (wantedKey n f) = .ok b' ∧ SameContents b b' ∧
      parentOf (vNewBlock C c n b f).1 (wantedKey n f) = none := by
  have hcons := newBlock_consistent hc n b f none ⟨fun q hq => (nomatch hq), fun hh => absurd hh hs⟩
  have hr := newBlock_result hc hs n b f none (fun q hq => (nomatch hq))
  unfold vNewBlock
  generalize c.newBlock n b f none = q at hr hcons hnew
  cases hr with
  | refused e => cases hnew
  | newKey hm => exact absurd hm hk
  | moved _ _ _ hm => exact absurd hm hk
  | plain _ =>
    simp only [Option.map_none] at hcons ⊢
    have hw : ∀ e, wrapNew C (added c (wantedKey n f) e) n = (added c (wantedKey n f) e, .error .key) := by
      intro e
      unfold wrapNew
      rw [dget_added_other (Ne.symm hn), dget_eq_none.mpr (fun hm => hno ((hc.mem_dict n).mp hm))]
    simp only [hw]
    have hmem : ∀ e, wantedKey n f ∈ (added c (wantedKey n f) e).lowerKeys := fun e => List.mem_append_right _ List.mem_cons_self
    refine ⟨trivial, stored c b, (getItem_key hcons (hmem _)).mpr (dget_added hc hk _), ⟨rfl, rfl, rfl, rfl⟩, ?_⟩
    rw [parentOf_added (fun hh => hk ((hc.mem_table _).mp hh)), if_pos rfl]

/-- C104 fails for a new top-level block with the name of a nested block: the nested block is checked in its place, and the new one is
accepted under another key, whatever the checks say of it. -/
theorem C104_nested_fails (C : Checks) (c : Coll) (hc : Consistent c) (n : Str) (b bn : Block) (f : Bool) (k : Str)
    (hn : wantedKey n f = n) (hk : n ∈ c.lowerKeys) (hb : c.getItem n = .ok bn) (hpass : PassedAll C (copyOf bn))
    (hnew : (c.newBlock n b f).2 = .ok k) (hs : c.standard ≠ none) :
    (vNewBlock C c n b f).2 = .ok () ∧ k ≠ n ∧ ∃ b', (vNewBlock C c n b f).1.getItem k = .ok b' ∧ SameContents b b' ∧
      parentOf (vNewBlock C c n b f).1 k = none := by
  have hcons := newBlock_consistent hc n b f none ⟨fun q hq => (nomatch hq), fun hh => absurd hh hs⟩
  have hr := newBlock_result hc hs n b f none (fun q hq => (nomatch hq))
  rw [hn] at hr
  have hfresh := freshKey_fresh c.lowerKeys n
  unfold vNewBlock
  generalize c.newBlock n b f none = q at hr hcons hnew
  cases hr with
  | refused e => cases hnew
  | plain hm => exact absurd hk hm
  | moved _ _ _ _ _ hpar => cases hpar
  | newKey _ _ _ =>
    simp only [Except.ok.injEq] at hnew
    subst hnew
    generalize freshKey c.lowerKeys (c.lowerKeys.length + 1) n = m at hfresh hcons
    have hmn : n ≠ m := by rintro rfl; exact hfresh hk
    have hd : dget c.dict n = some bn := (getItem_key hc hk).mp hb
    have hw : ∀ e, wrapNew C (added c m e) n = ({ added c m e with dict := dset (added c m e).dict n (copyOf bn) }, .ok ()) := by
      intro e
      unfold wrapNew
      rw [dget_added_other hmn, hd]
      simp only [copyOf_passed hpass]
    simp only [hw]
    have hmem : ∀ e, m ∈ (added c m e).lowerKeys := fun e => List.mem_append_right _ List.mem_cons_self
    have hnm : ∀ e, n ∈ (added c m e).lowerKeys := fun e => List.mem_append_left _ hk
    have hcons' := consistent_set hcons (hnm ⟨stored c b, (if f then fixName n else n), none⟩) (copyOf bn)
    refine ⟨trivial, Ne.symm hmn, stored c b, (getItem_key hcons' (hmem ⟨stored c b, (if f then fixName n else n), none⟩)).mpr ?_, ⟨rfl, rfl, rfl, rfl⟩, ?_⟩
    · show dget (dset _ n (copyOf bn)) m = _
      rw [dget_dset, if_neg hmn, dget_added hc hfresh]
    · have := parentOf_added (c := c) (key := m) (e := ⟨stored c b, (if f then fixName n else n), none⟩)
        (fun hh => hfresh ((hc.mem_table _).mp hh)) m
      rw [if_pos rfl] at this
      exact this

end

/-! ## Examples -/
section
attribute [local instance] asciiFold

/-- A block with one value; `1` is valid and `3` is not. -/
def oneP (v : String) : Block := (({} : Block).addItem "_p_id".toList (.str v.toList)).1

/-- A file with a valid block. -/
def oneFile : Coll := (({} : Coll).newBlock "main".toList (oneP "1")).1

theorem oneFile_consistent : Coll.Consistent oneFile := by
  refine newBlock_consistent (empty_consistent .instance (some "CIF".toList) false) _ _ _ _ ?_
  exact ⟨fun q hq => (nomatch hq), fun h => (nomatch h)⟩

/-- The same file with an invalid block inside. -/
def nestedFile : Coll := (oneFile.newBlock "inner".toList (oneP "3") true (some "main".toList)).1

theorem nestedFile_consistent : Coll.Consistent nestedFile := by
  refine newBlock_consistent oneFile_consistent _ _ _ _ ?_
  refine ⟨fun q hq => ?_, fun h => absurd h (by decide +kernel)⟩
  injection hq with hq
  subst hq
  decide +kernel

/-- The hypotheses of `C104_open_iff`, `C104_open_partial` and `C104_hidden_fails` can be met; the file with an invalid block on top is
refused. -/
example : (openValid (checks12 runDic) nestedFile).2 = .ok () ∧ "inner".toList ∈ nestedFile.lowerKeys ∧ "inner".toList ∉ nestedFile.keys ∧
    ((openValid (checks12 runDic) nestedFile).1.getItem "inner".toList).toOption.map (·.lookup "_p_id".toList) = some (some (.str "3".toList)) ∧
    (openValid (checks12 runDic) (oneFile.newBlock "z".toList (oneP "3")).1).2 = .error .valid := by decide +kernel

/-- A history of a file of valid blocks. -/
example : VReachable (checks12 runDic) (vstep (checks12 runDic) (openValid (checks12 runDic) oneFile).1 (.new "more".toList (oneP "1") true none)) ∧
    (vstep (checks12 runDic) (openValid (checks12 runDic) oneFile).1 (.new "more".toList (oneP "1") true none)).keys = ["main".toList, "more".toList] := by
  refine ⟨.step _ (.opened oneFile_consistent ?_) ⟨?_, by decide +kernel, by decide +kernel, ?_⟩, by decide +kernel⟩
  · have h : (openValid (checks12 runDic) oneFile).2 = .ok () := by decide +kernel
    rw [← h]
  · exact ⟨fun q hq => (nomatch hq), fun h => absurd h (by decide +kernel)⟩
  · have h : (validBlock (checks12 runDic) (oneP "1")).toOption.map (fun b => decide (b = copyOf (oneP "1"))) = some true := by decide +kernel
    cases hv : validBlock (checks12 runDic) (oneP "1") with
    | error e => rw [hv] at h; cases h
    | ok b =>
      obtain ⟨rfl, hp⟩ := (validBlock_iff _ _ _).mp hv
      exact hp

/-- The hypotheses of `C104_invalid_fails` and `C104_spelling_fails` can be met: an invalid block is refused and kept. -/
example : (vNewBlock (checks12 runDic) oneFile "more".toList (oneP "3")).2 = .error .valid ∧
    (vNewBlock (checks12 runDic) oneFile "more".toList (oneP "3")).1.keys = ["main".toList, "more".toList] ∧
    (vNewBlock (checks12 runDic) oneFile "More".toList (oneP "1")).2 = .error .key ∧
    (vNewBlock (checks12 runDic) oneFile "More".toList (oneP "3")).1.keys = ["main".toList, "more".toList] := by decide +kernel

/-- The hypotheses of `C104_nested_fails` can be met: an invalid block is accepted. -/
example :
    let c := (oneFile.newBlock "inner".toList (oneP "1") true (some "main".toList)).1
    (vNewBlock (checks12 runDic) c "inner".toList (oneP "3")).2 = .ok () ∧
    (c.newBlock "inner".toList (oneP "3")).2 = .ok "inner+".toList ∧
    ((vNewBlock (checks12 runDic) c "inner".toList (oneP "3")).1.getItem "inner+".toList).toOption.map (·.lookup "_p_id".toList) =
      some (some (.str "3".toList)) := by decide +kernel

end

end Validate
end Verif
