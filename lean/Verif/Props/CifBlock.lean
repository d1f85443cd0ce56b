import Verif.Model.CifBlock
import Verif.Props.BlockLoop
/-! # C95: the older ways to fill a block -/
namespace Verif.Block
set_option linter.unusedSectionVars false

section
variable [CaseFold]

/-- In the block, the names are the names of one loop, in this order, and each has its column. -/
def Table (b : Block) (names : List Str) (columns : List (List PyVal)) : Prop :=
  (∃ n, dget b.loops n = some (names.map lower)) ∧ ∀ p ∈ names.zip columns, b.lookup p.1 = some (.list p.2)

/-- A call of `AddItem` would be accepted. -/
def Accepts (b : Block) (name : Str) (v : PyVal) : Prop := ∃ b', b.addItem name v = (b', .ok ())

theorem not_saves {k : Str} (h : lower k ≠ saves) : k ≠ saves := by
  rintro rfl
  exact h (CaseFold.lower_ascii _ (by decide +kernel))

theorem accepts_iff {b : Block} {n : Str} {v : PyVal} : Accepts b n v ↔ ∃ sv, b.addItemCheck n v false = .ok sv := by
  unfold Accepts addItem
  cases b.addItemCheck n v false with
  | error e => simp
  | ok sv => simp

/-- What is accepted does not depend on other items. -/
theorem accepts_store {b : Block} {n m : Str} {v : PyVal} (sv : PyVal × PyVal) (hne : lower n ≠ lower m) (h : Accepts b n v) :
    Accepts (b.store m sv) n v := by
  rw [accepts_iff] at h ⊢
  obtain ⟨s, hs⟩ := h
  refine ⟨s, ?_⟩
  have hc : (b.store m sv).contains n = b.contains n := by
    unfold contains keys store
    simp only
    rw [Bool.eq_iff_iff]
    simp only [decide_eq_true_eq, mem_dkeys_dset]
    exact ⟨fun hh => hh.resolve_left hne, .inr⟩
  unfold addItemCheck at hs ⊢
  rw [hc]
  exact hs

theorem reachable_add {b b' : Block} {n : Str} {v : PyVal} (hr : Reachable b) (hn : lower n ≠ saves) (h : b.addItem n v = (b', .ok ())) :
    Reachable b' := by
  have := Reachable.step b (.add n v false) hr hn
  simp only [step, h] at this
  exact this

/-- Adding distinct items one after the other. -/
theorem update_all : ∀ (kvs : List (Str × PyVal)) (b : Block), Reachable b → (kvs.map fun p => lower p.1).Nodup →
    (∀ p ∈ kvs, lower p.1 ≠ saves) → (∀ p ∈ kvs, Accepts b p.1 p.2) →
    ∃ b', b.update kvs = (b', .ok ()) ∧ Reachable b' ∧ b'.loops = b.loops ∧
      (∀ p ∈ kvs, b'.val (lower p.1) = some p.2) ∧ ∀ x, (∀ p ∈ kvs, x ≠ lower p.1) → b'.val x = b.val x
  | [], b, hr, _, _, _ => ⟨b, rfl, hr, rfl, nofun, fun _ _ => rfl⟩
  | (k, v) :: r, b, hr, hn, hs, ha => by
    obtain ⟨b1, h1⟩ := ha (k, v) List.mem_cons_self
    obtain ⟨hk, hr'⟩ := List.nodup_cons.mp hn
    have hsk := hs (k, v) List.mem_cons_self
    obtain ⟨sv, -, -, rfl⟩ := addItem_ok h1 (by simp)
    have hne : ∀ p ∈ r, lower p.1 ≠ lower k := fun p hp hh => hk (hh ▸ List.mem_map_of_mem (f := fun p : Str × PyVal => lower p.1) hp :
      lower k ∈ r.map fun p => lower p.1)
    obtain ⟨b', e1, e2, e3, e4, e5⟩ := update_all r (b.store k sv) (reachable_add hr hsk h1) hr'
      (fun p hp => hs p (List.mem_cons_of_mem _ hp)) (fun p hp => accepts_store sv (hne p hp) (ha p (List.mem_cons_of_mem _ hp)))
    refine ⟨b', ?_, e2, e3.trans rfl, ?_, ?_⟩
    · rw [update, h1]; exact e1
    · intro p hp
      rcases List.mem_cons.mp hp with rfl | hp
      · rw [e5 _ (fun q hq => (hne q hq).symm), val_addItem h1 (by simp), if_pos rfl]
      · exact e4 p hp
    · intro x hx
      rw [e5 x (fun p hp => hx p (List.mem_cons_of_mem _ hp)), val_addItem h1 (by simp), if_neg (hx (k, v) List.mem_cons_self)]

theorem getAll_cols {b : Block} {len : Nat} : ∀ (ns : List Str), (∀ d ∈ ns, ∃ l, b.getItem d = .ok (.list l) ∧ l.length = len) →
    ∃ vs, b.getAll ns = .ok vs ∧ vs.length = ns.length ∧ ∀ v ∈ vs, ∃ l, v = .list l ∧ l.length = len
  | [], _ => ⟨[], rfl, rfl, nofun⟩
  | d :: ds, h => by
    obtain ⟨l, h1, h2⟩ := h d List.mem_cons_self
    obtain ⟨vs, e1, e2, e3⟩ := getAll_cols ds (fun x hx => h x (List.mem_cons_of_mem _ hx))
    refine ⟨.list l :: vs, ?_, by simp [e2], ?_⟩
    · simp only [getAll, h1, e1]
    · intro v hv
      rcases List.mem_cons.mp hv with rfl | hv
      · exact ⟨l, rfl, h2⟩
      · exact e3 v hv

/-- `CreateLoop` accepts columns of one length. -/
theorem createLoop_cols {b : Block} (hr : Reachable b) {ns : List Str} {len : Nat}
    (h : ∀ d ∈ ns, ∃ l, b.getItem d = .ok (.list l) ∧ l.length = len) :
    ∃ b', b.createLoop ns = (b', .ok ()) ∧ b'.block = b.block := by
  obtain ⟨vs, e1, e2, e3⟩ := getAll_cols ns h
  have hc : b.createLoopCheck ns = (b, .ok ()) := by
    unfold createLoopCheck
    rw [e1]
    simp only
    have hf : vs.filter PyVal.isColumn = vs := by
      rw [List.filter_eq_self]
      intro v hv
      obtain ⟨l, rfl, -⟩ := e3 v hv
      rfl
    rw [hf, if_pos e2, if_neg]
    simp only [List.any_map, List.any_eq_true, Function.comp, not_exists, not_and, decide_eq_true_eq]
    intro v hv w hw
    obtain ⟨l, rfl, h1⟩ := e3 v hv
    obtain ⟨m, rfl, h2⟩ := e3 w hw
    simp [colLen, h1, h2]
  obtain ⟨hw, -⟩ := reachable_wf hr
  obtain ⟨g1, g2⟩ := makeLoop_ok hw ns (-1)
  refine ⟨(b.makeLoop ns (-1)).1, ?_, g2⟩
  simp only [createLoop, if_true, hc]
  rw [← g1]

theorem zip_names {names : List Str} {columns : List (List PyVal)} (h : names.length = columns.length) :
    ((names.zip (columns.map PyVal.list)).map fun p => lower p.1) = names.map lower := by
  have : (names.zip (columns.map PyVal.list)).map (·.1) = names := List.map_fst_zip (by simp [h])
  calc _ = ((names.zip (columns.map PyVal.list)).map (·.1)).map lower := by rw [List.map_map]; rfl
    _ = _ := by rw [this]

/-- C95: a loop given as names with columns of one length is stored as a loop, if each item is one that could be added by itself: the names
belong to one loop, in their order, each has its column, and all other items are unchanged. Missing: too few columns leave the block half filled, further columns are dropped, and two of the three
forms of `AddCifItem` do not work (see the `_fails` theorems). -/
theorem C95_loop_partial (b : Block) (hr : Reachable b) (names : List Str) (columns : List (List PyVal)) (len : Nat)
    (hn : (names.map lower).Nodup) (hl : names.length = columns.length) (hs : ∀ n ∈ names, lower n ≠ saves)
    (hc : ∀ c ∈ columns, c.length = len) (ha : ∀ p ∈ names.zip columns, Accepts b p.1 (.list p.2)) :
    ∃ b', b.addLoopItem (.loop names (columns.map .list)) = (b', .ok ()) ∧ Reachable b' ∧ Table b' names columns ∧
      ∀ x, x ≠ saves → lower x ∉ names.map lower → b'.lookup x = b.lookup x := by
  have hz : names.zip (columns.map PyVal.list) = (names.zip columns).map fun p => (p.1, PyVal.list p.2) := by
    rw [List.zip_map_right]
    rfl
  have hfst : (names.zip columns).map (·.1) = names := List.map_fst_zip (by omega)
  have hmem : ∀ p ∈ names.zip columns, p.1 ∈ names := fun p hp => (List.of_mem_zip hp).1
  obtain ⟨b1, e1, e2, e3, e4, e5⟩ := update_all (names.zip (columns.map PyVal.list)) b hr
    (by rw [zip_names hl]; exact hn)
    (by
      intro p hp
      rw [hz] at hp
      obtain ⟨q, hq, rfl⟩ := List.mem_map.mp hp
      exact hs _ (hmem q hq))
    (by
      intro p hp
      rw [hz] at hp
      obtain ⟨q, hq, rfl⟩ := List.mem_map.mp hp
      exact ha q hq)
  have hcol : ∀ p ∈ names.zip columns, b1.getItem p.1 = .ok (.list p.2) := by
    intro p hp
    rw [← lookup_some, lookup_val _ _ (not_saves (hs _ (hmem p hp)))]
    exact e4 (p.1, .list p.2) (by rw [hz]; exact List.mem_map_of_mem (f := fun p : Str × List PyVal => (p.1, PyVal.list p.2)) hp)
  obtain ⟨b2, g1, g2⟩ := createLoop_cols e2 (ns := names) (len := len) (by
    intro d hd
    rw [← hfst] at hd
    obtain ⟨p, hp, rfl⟩ := List.mem_map.mp hd
    exact ⟨p.2, hcol p hp, hc _ (List.of_mem_zip hp).2⟩)
  have hval := val_congr g2
  refine ⟨b2, ?_, ?_, ⟨?_, ?_⟩, ?_⟩
  · simp only [addLoopItem, e1, g1]
  · have := Reachable.step b1 (.createLoop names (-1) true) e2 ⟨hn, .inl rfl⟩
    simp only [step, g1] at this
    exact this
  · obtain ⟨n, h1, -⟩ := C19_moves b1 b2 e2 names (-1) true g1
    exact ⟨n, h1⟩
  · intro p hp
    have hps := not_saves (hs _ (hmem p hp))
    rw [lookup_val _ _ hps, hval, ← lookup_val _ _ hps]
    exact lookup_some.mpr (hcol p hp)
  · intro x hx hm
    rw [lookup_val _ _ hx, hval, e5, ← lookup_val _ _ hx]
    intro p hp hh
    rw [hz] at hp
    obtain ⟨q, hq, rfl⟩ := List.mem_map.mp hp
    exact hm (hh ▸ List.mem_map_of_mem (hmem q hq))

/-- Where C95 fails: columns beyond the number of names are dropped without an error. -/
theorem C95_extra_fails (b : Block) (names : List Str) (columns extra : List PyVal) (h : names.length = columns.length) :
    b.addLoopItem (.loop names (columns ++ extra)) = b.addLoopItem (.loop names columns) := by
  have : names.zip (columns ++ extra) = names.zip columns := by
    have := List.zip_append (l₁ := names) (r₁ := []) (l₂ := columns) (r₂ := extra) h
    simpa using this
  simp only [addLoopItem, this]

/-! ## The constructor -/

/-- The names of an entry. -/
def Entry.names : Entry → List Str
  | .item n _ => [n]
  | .loop ns _ => ns

/-- The entry is a single item, or a loop with at least one name and as many columns, all lists. -/
def Entry.Proper : Entry → Prop
  | .item _ v => v.isColumn = false
  | .loop ns cs => ns ≠ [] ∧ ∃ cols : List (List PyVal), cs = cols.map PyVal.list ∧ ns.length = cols.length

/-- The block holds the entry. -/
def Entry.In (b : Block) : Entry → Prop
  | .item n v => b.lookup n = some v
  | .loop ns cs => (∃ n, dget b.loops n = some (ns.map lower)) ∧ ∀ p ∈ ns.zip cs, b.lookup p.1 = some p.2

theorem update_values {kvs : List (Str × PyVal)} : ∀ {b b' : Block}, Reachable b → (kvs.map fun p => lower p.1).Nodup →
    (∀ p ∈ kvs, lower p.1 ≠ saves) → b.update kvs = (b', .ok ()) →
    Reachable b' ∧ b'.loops = b.loops ∧ (∀ p ∈ kvs, b'.val (lower p.1) = some p.2) ∧
      ∀ x, (∀ p ∈ kvs, x ≠ lower p.1) → b'.val x = b.val x := by
  intro b b' hr hn hs h
  have : ∀ p ∈ kvs, Accepts b p.1 p.2 := by
    induction kvs generalizing b with
    | nil => nofun
    | cons p r ih =>
      obtain ⟨k, v⟩ := p
      rw [update] at h
      cases ha : b.addItem k v with
      | mk b1 res =>
        rw [ha] at h
        cases res with
        | error e => simp at h
        | ok u =>
          cases u
          simp only at h
          obtain ⟨hk, hr'⟩ := List.nodup_cons.mp hn
          have hsk := hs (k, v) List.mem_cons_self
          have ih' := ih (reachable_add hr hsk ha) hr' (fun p hp => hs p (List.mem_cons_of_mem _ hp)) h
          obtain ⟨sv, h1, h2, h3⟩ := addItem_ok ha (by simp)
          intro p hp
          rcases List.mem_cons.mp hp with rfl | hp
          · exact ⟨b1, ha⟩
          · have hne : lower p.1 ≠ lower k := fun hh => hk (hh ▸ List.mem_map_of_mem (f := fun p : Str × PyVal => lower p.1) hp :
              lower k ∈ r.map fun p => lower p.1)
            have := ih' p hp
            rw [accepts_iff] at this ⊢
            obtain ⟨s, hs'⟩ := this
            refine ⟨s, ?_⟩
            have hc : b1.contains p.1 = b.contains p.1 := by
              rw [h3]
              unfold contains keys store
              simp only
              rw [Bool.eq_iff_iff]
              simp only [decide_eq_true_eq, mem_dkeys_dset]
              exact ⟨fun hh => hh.resolve_left hne, .inr⟩
            unfold addItemCheck at hs' ⊢
            rw [hc, h3] at hs'
            exact hs'
  obtain ⟨b2, e1, e2, e3, e4, e5⟩ := update_all kvs b hr hn hs this
  rw [h] at e1
  injection e1 with e1
  subst e1
  exact ⟨e2, e3, e4, e5⟩

/-- One entry: it is held afterwards, and entries with other names are still held. -/
theorem addLoopItem_entry {b b' : Block} {x : Entry} (hr : Reachable b) (hp : x.Proper) (hn : (x.names.map lower).Nodup)
    (hs : ∀ n ∈ x.names, lower n ≠ saves) (h : b.addLoopItem x = (b', .ok ())) :
    Reachable b' ∧ x.In b' ∧ ∀ y : Entry, y.Proper → (∀ n ∈ y.names, lower n ≠ saves) →
      (∀ n ∈ y.names, ∀ m ∈ x.names, lower n ≠ lower m) → y.In b → y.In b' := by
  cases x with
  | item n v =>
    have hsn := hs n List.mem_cons_self
    simp only [addLoopItem] at h
    refine ⟨reachable_add hr hsn h, ?_, ?_⟩
    · simp only [Entry.In]
      rw [lookup_val _ _ (not_saves hsn), val_addItem h (by simp), if_pos rfl]
    · intro y hy hys hd hin
      obtain ⟨sv, -, -, rfl⟩ := addItem_ok h (by simp)
      cases y with
      | item m w =>
        simp only [Entry.In] at hin ⊢
        have hms := not_saves (hys m List.mem_cons_self)
        rw [lookup_val _ _ hms] at hin ⊢
        rw [val_addItem h (by simp), if_neg (hd m List.mem_cons_self n List.mem_cons_self)]
        exact hin
      | loop ms cs =>
        refine ⟨hin.1, ?_⟩
        intro p hp'
        have hm := (List.of_mem_zip hp').1
        have hms := not_saves (hys _ hm)
        have := hin.2 p hp'
        rw [lookup_val _ _ hms] at this ⊢
        rw [val_addItem h (by simp), if_neg (hd _ hm n List.mem_cons_self)]
        exact this
  | loop ns cs =>
    obtain ⟨hne, cols, rfl, hlen⟩ := hp
    simp only [addLoopItem] at h
    cases hu : b.update (ns.zip (cols.map PyVal.list)) with
    | mk b1 res =>
      rw [hu] at h
      cases res with
      | error e => simp at h
      | ok u =>
        cases u
        simp only at h
        have hz : ns.zip (cols.map PyVal.list) = (ns.zip cols).map fun p => (p.1, PyVal.list p.2) := by
          rw [List.zip_map_right]
          rfl
        have hfst : (ns.zip cols).map (·.1) = ns := List.map_fst_zip (by omega)
        have hmem : ∀ p ∈ ns.zip (cols.map PyVal.list), p.1 ∈ ns := fun p hp => (List.of_mem_zip hp).1
        obtain ⟨u1, u2, u3, u4⟩ := update_values hr (by rw [zip_names hlen]; exact hn) (fun p hp => hs _ (hmem p hp)) hu
        have hsome : ∀ d ∈ ns, ∃ l, b1.getItem d = .ok (.list l) := by
          intro d hd
          have hd' := hd
          rw [← hfst] at hd'
          obtain ⟨p, hp, rfl⟩ := List.mem_map.mp hd'
          refine ⟨p.2, ?_⟩
          rw [← lookup_some, lookup_val _ _ (not_saves (hs _ hd))]
          exact u3 (p.1, .list p.2) (by rw [hz]; exact List.mem_map_of_mem (f := fun p : Str × List PyVal => (p.1, PyVal.list p.2)) hp)
        have hblk : b'.block = b1.block := by
          simp only [createLoop, if_true] at h
          rcases createLoopCheck_cases b1 ns with ⟨e, h1, -⟩ | ⟨h1, -⟩ | ⟨hne', -, h2⟩
          · rw [h1] at h; simp at h
          · rw [h1] at h
            simp only at h
            have := (makeLoop_ok (reachable_wf u1).1 ns (-1)).2
            rw [h] at this
            exact this
          · exfalso
            obtain ⟨d, hd⟩ := List.exists_mem_of_ne_nil _ hne'
            obtain ⟨l, h3⟩ := hsome d hd
            obtain ⟨v, h4, h5⟩ := h2 d hd
            rw [h3] at h4
            injection h4 with h4
            subst h4
            cases h5
        have hval := val_congr hblk
        obtain ⟨n, m1, m2, -, m3, -⟩ := C19_moves b1 b' u1 ns (-1) true h
        refine ⟨?_, ⟨⟨n, m1⟩, ?_⟩, ?_⟩
        · have := Reachable.step b1 (.createLoop ns (-1) true) u1 ⟨hn, .inl rfl⟩
          simp only [step, h] at this
          exact this
        · intro p hp
          rw [lookup_val _ _ (not_saves (hs _ (hmem p hp))), hval]
          exact u3 p hp
        · intro y hy hys hd hin
          have hkeep : ∀ m ∈ y.names, b'.lookup m = b.lookup m := by
            intro m hm
            have hms := not_saves (hys m hm)
            rw [lookup_val _ _ hms, hval, u4, ← lookup_val _ _ hms]
            exact fun p hp => hd m hm _ (hmem p hp)
          cases y with
          | item m w =>
            simp only [Entry.In] at hin ⊢
            rw [hkeep m List.mem_cons_self]
            exact hin
          | loop ms ds =>
            refine ⟨?_, ?_⟩
            · obtain ⟨k, hk⟩ := hin.1
              refine ⟨k, ?_⟩
              have hkn : k ≠ n := by
                have h1 : Ref.loop k ∈ b1.order := ((C14_one_place b1 u1).2.2.2.1 k).mpr ⟨_, u2 ▸ hk⟩
                have h2 : Ref.loop k ∈ b'.order.filter (fun r => decide (r ≠ .loop n)) := by
                  rw [m3, List.mem_filter]
                  refine ⟨h1, ?_⟩
                  rw [u2]
                  simp only [hk, List.any_eq_true]
                  obtain ⟨m, hm⟩ := List.exists_mem_of_ne_nil _ hy.1
                  refine ⟨lower m, List.mem_map_of_mem hm, ?_⟩
                  simp only [decide_eq_true_eq, List.mem_map, not_exists, not_and]
                  exact fun q hq hh => hd m hm q hq hh.symm
                rintro rfl
                simp at h2
              rw [m2 k hkn, u2, hk]
              have hfl : (ms.map lower).filter (fun s => decide (s ∉ ns.map lower)) = ms.map lower := by
                rw [List.filter_eq_self]
                intro s hs'
                obtain ⟨m, hm, rfl⟩ := List.mem_map.mp hs'
                simp only [decide_eq_true_eq, List.mem_map, not_exists, not_and]
                exact fun q hq hh => hd m hm q hq hh.symm
              simp only [Option.bind_some, hfl]
              rw [if_neg (fun hnil => hy.1 (List.map_eq_nil_iff.mp hnil))]
            · intro p hp
              rw [hkeep _ (List.of_mem_zip hp).1]
              exact hin.2 p hp

theorem addEntries_in : ∀ (data : List Entry) (b b' : Block) (old : List Entry), Reachable b → (∀ x ∈ old ++ data, x.Proper) →
    (∀ x ∈ old ++ data, ∀ n ∈ x.names, lower n ≠ saves) → ((old ++ data).flatMap fun x => x.names.map lower).Nodup →
    (∀ x ∈ old, x.In b) → b.addEntries data = (b', .ok ()) → Reachable b' ∧ ∀ x ∈ old ++ data, x.In b'
  | [], b, b', old, hr, _, _, _, hin, h => by
    simp only [addEntries, Prod.mk.injEq, and_true] at h
    subst h
    exact ⟨hr, by simpa using hin⟩
  | x :: r, b, b', old, hr, hp, hs, hn, hin, h => by
    rw [addEntries] at h
    cases hx : b.addLoopItem x with
    | mk b1 res =>
      rw [hx] at h
      cases res with
      | error e => simp at h
      | ok u =>
        cases u
        simp only at h
        have hxm : x ∈ old ++ x :: r := by simp
        have hn' := hn
        rw [List.flatMap_append, List.flatMap_cons] at hn'
        obtain ⟨n1, n2, n3⟩ := List.nodup_append.mp hn'
        obtain ⟨n4, -, -⟩ := List.nodup_append.mp n2
        obtain ⟨e1, e2, e3⟩ := addLoopItem_entry hr (hp x hxm) n4 (hs x hxm) hx
        have := addEntries_in r b1 b' (old ++ [x]) e1 (by simpa using hp) (by simpa using hs) (by simpa using hn) (by
          intro y hy
          rcases List.mem_append.mp hy with hy | hy
          · refine e3 y (hp y (List.mem_append_left _ hy)) (hs y (List.mem_append_left _ hy)) ?_ (hin y hy)
            intro n hn'' m hm
            exact n3 _ (List.mem_flatMap.mpr ⟨y, hy, List.mem_map_of_mem hn''⟩) _ (List.mem_append_left _ (List.mem_map_of_mem hm))
          · rw [List.mem_singleton.mp hy]; exact e2) h
        simpa using this

/-- C95: a block made from a list of items and loops whose names are all different holds every one of them: each single item has its value,
each loop is a loop of the block with its names in their order, and each name has its column. -/
theorem C95_constructor (strict : Bool) (data : List Entry) (b : Block) (hp : ∀ x ∈ data, x.Proper)
    (hs : ∀ x ∈ data, ∀ n ∈ x.names, lower n ≠ saves) (hn : (data.flatMap fun x => x.names.map lower).Nodup)
    (h : ofEntries strict data = .ok b) : ∀ x ∈ data, x.In b := by
  unfold ofEntries at h
  cases hx : addEntries { maxName := if strict then some 75 else none } data with
  | mk b1 res =>
    rw [hx] at h
    cases res with
    | error e => simp at h
    | ok u =>
      cases u
      injection h with h
      subst h
      have := addEntries_in data _ b1 [] (Reachable.fresh _ ⟨rfl, rfl, rfl, rfl⟩) (by simpa using hp) (by simpa using hs) (by simpa using hn) nofun hx
      simpa using this.2

/-- `CreateLoop` refuses a name that is not in the block. -/
theorem createLoop_missing {b : Block} {ns : List Str} {m : Str} (hm : m ∈ ns) (h : b.lookup m = none) :
    ∃ e, b.createLoop ns = (b, .error e) := by
  have hno : ∀ v, b.getItem m ≠ .ok v := by
    intro v hv
    rw [lookup_some.mpr hv] at h
    cases h
  rcases createLoopCheck_cases b ns with ⟨e, h1, -⟩ | ⟨-, len, h1⟩ | ⟨-, -, h1⟩
  · exact ⟨e, by simp only [createLoop, if_true, h1]⟩
  · obtain ⟨l, h2, -⟩ := h1 m hm
    exact absurd h2 (hno _)
  · obtain ⟨l, h2, -⟩ := h1 m hm
    exact absurd h2 (hno _)

/-- Where C95 fails: a loop with a name that has no column, and is not in the block, is refused, but its other items have been stored. -/
theorem C95_missing_fails (b : Block) (hr : Reachable b) (names rest : List Str) (m : Str) (columns : List (List PyVal))
    (hn : (names.map lower).Nodup) (hl : names.length = columns.length) (hs : ∀ n ∈ names, lower n ≠ saves) (hm : m ≠ saves)
    (hnew : b.lookup m = none) (hmn : lower m ∉ names.map lower) (ha : ∀ p ∈ names.zip columns, Accepts b p.1 (.list p.2)) :
    ∃ b' e, b.addLoopItem (.loop (names ++ m :: rest) (columns.map .list)) = (b', .error e) ∧ b'.loops = b.loops ∧
      ∀ p ∈ names.zip columns, b'.lookup p.1 = some (.list p.2) := by
  have hz : names.zip (columns.map PyVal.list) = (names.zip columns).map fun p => (p.1, PyVal.list p.2) := by
    rw [List.zip_map_right]
    rfl
  have hmem : ∀ p ∈ names.zip columns, p.1 ∈ names := fun p hp => (List.of_mem_zip hp).1
  obtain ⟨b1, e1, e2, e3, e4, e5⟩ := update_all (names.zip (columns.map PyVal.list)) b hr (by rw [zip_names hl]; exact hn)
    (fun p hp => hs _ (List.of_mem_zip hp).1)
    (by
      intro p hp
      rw [hz] at hp
      obtain ⟨q, hq, rfl⟩ := List.mem_map.mp hp
      exact ha q hq)
  have hzip : (names ++ m :: rest).zip (columns.map PyVal.list) = names.zip (columns.map PyVal.list) := by
    have := List.zip_append (l₁ := names) (r₁ := m :: rest) (l₂ := columns.map PyVal.list) (r₂ := []) (by simp [hl])
    simpa using this
  have hmiss : b1.lookup m = none := by
    rw [lookup_val _ _ hm, e5, ← lookup_val _ _ hm]
    · exact hnew
    · exact fun p hp hh => hmn (hh ▸ List.mem_map_of_mem (List.of_mem_zip hp).1)
  obtain ⟨e, he⟩ := createLoop_missing (ns := names ++ m :: rest) (by simp) hmiss
  refine ⟨b1, e, ?_, e3, ?_⟩
  · simp only [addLoopItem, hzip, e1, he]
  · intro p hp
    rw [lookup_val _ _ (not_saves (hs _ (hmem p hp)))]
    exact e4 (p.1, .list p.2) (by rw [hz]; exact List.mem_map_of_mem (f := fun p : Str × List PyVal => (p.1, PyVal.list p.2)) hp)

/-- C95: the nested form of `AddCifItem` adds the loop. -/
theorem C95_nested (b : Block) (names : List Str) (columns : List (List PyVal)) :
    b.addCifItem (.nested names (columns.map .list)) = b.addLoopItem (.loop names (columns.map .list)) := by
  have : ∀ columns : List (List PyVal), lists (columns.map .list) = .ok (columns.map .list) := by
    intro columns
    induction columns with
    | nil => rfl
    | cons c r ih => simp only [List.map_cons, lists, pyIter, ih]
  simp only [addCifItem, addCifLoop, this]

/-- C95: in compatibility mode an item set to a list is a loop with one name. -/
theorem C95_compat (b b' : Block) (hr : Reachable b) (k : Str) (l : List PyVal) (hk : lower k ≠ saves)
    (h : b.cifSetItem true k (.list l) = (b', .ok ())) : Table b' [k] [l] := by
  have : b.addLoopItem (.loop [k] [.list l]) = (b', .ok ()) := by
    simp only [cifSetItem, PyVal.isColumn, Bool.and_self, if_true] at h
    simp only [addLoopItem, List.zip_cons_cons, List.zip_nil_right, update]
    cases ha : b.addItem k (.list l) with
    | mk b1 res =>
      rw [ha] at h
      cases res with
      | error e => simp at h
      | ok u => cases u; simpa using h
  obtain ⟨-, h1, -⟩ := addLoopItem_entry hr (x := .loop [k] [.list l]) ⟨by simp, [l], rfl, rfl⟩ (by simp [Entry.names])
    (by simpa [Entry.names] using hk) this
  refine ⟨h1.1, ?_⟩
  intro p hp
  obtain rfl : p = (k, l) := by simpa using hp
  exact h1.2 (k, .list l) (by simp)

/-- Where C95 fails: a text given to `AddCifItem` is stored as the list of its characters. -/
theorem C95_text_fails (b b' : Block) (k s : Str) (hk : lower k ≠ saves) (h : b.addCifItem (.item k (.str s)) = (b', .ok ())) :
    b'.lookup k = some (.list (s.map fun c => .str [c])) ∧ b'.lookup k ≠ some (.str s) := by
  simp only [addCifItem, pyIter, PyVal.isColumn, Bool.false_eq_true, if_false] at h
  cases ha : b.addItem k (.list (s.map fun c => .str [c])) with
  | mk b1 res =>
    rw [ha] at h
    cases res with
    | error e => simp at h
    | ok u =>
      cases u
      simp only [Prod.mk.injEq, and_true] at h
      subst h
      have : b1.lookup k = some (.list (s.map fun c => .str [c])) := by
        rw [lookup_val _ _ (not_saves hk), val_addItem ha (by simp), if_pos rfl]
      exact ⟨this, by rw [this]; simp⟩

/-- Where C95 fails: the documented form `AddCifItem((names,columns))` is always refused when the first name is an underscore followed by
another character, as the name is taken for a list of names. -/
theorem C95_flat_fails (b : Block) (c : Char) (n : Str) (names : List Str) (columns : List PyVal)
    (hc : lower [c] ≠ lower ['_']) (hnew : b.lookup [c] = none) :
    ∃ b' e, b.addCifItem (.flat (('_' :: c :: n) :: names) columns) = (b', .error e) := by
  have hcs : [c] ≠ saves := by simp [saves]
  have hc' : c ≠ '_' := by rintro rfl; exact hc rfl
  have hbad : ∀ (x : Block) v, ¬ Accepts x [c] v := by
    rintro x v ⟨x', hx⟩
    obtain ⟨sv, h1, h2, h3⟩ := addItem_ok hx (by simp)
    unfold addItem addItemCheck checkDataName at hx
    simp only [Bool.false_eq_true, if_false, hc', ne_eq, not_false_eq_true, if_true] at hx
    by_cases hl : nameTooLong x.maxName [c] = true <;> simp [hl] at hx
  cases columns with
  | nil => exact ⟨b, _, rfl⟩
  | cons col cols =>
    simp only [addCifItem]
    cases pyIter col with
    | error e => exact ⟨b, e, rfl⟩
    | ok l =>
      simp only [addCifLoop]
      cases lists l with
      | error e => exact ⟨b, e, rfl⟩
      | ok ls =>
        simp only [addLoopItem, List.map_cons]
        cases hu : b.update ((['_'] :: [c] :: n.map fun c => [c]).zip ls) with
        | mk b1 res =>
          cases res with
          | error e => exact ⟨b1, e, rfl⟩
          | ok u =>
            cases u
            simp only
            refine ⟨b1, createLoop_missing (m := [c]) (by simp) ?_⟩
            cases ls with
            | nil =>
              simp only [List.zip_nil_right, update, Prod.mk.injEq, and_true] at hu
              rw [← hu]
              exact hnew
            | cons v vs =>
              rw [List.zip_cons_cons, update] at hu
              cases ha : b.addItem ['_'] v with
              | mk b2 res =>
                rw [ha] at hu
                cases res with
                | error e => simp at hu
                | ok u =>
                  cases u
                  simp only at hu
                  cases vs with
                  | nil =>
                    simp only [List.zip_nil_right, update, Prod.mk.injEq, and_true] at hu
                    rw [← hu, lookup_val _ _ hcs, val_addItem ha (by simp), if_neg hc, ← lookup_val _ _ hcs]
                    exact hnew
                  | cons w ws =>
                    rw [List.zip_cons_cons, update] at hu
                    cases ha' : b2.addItem [c] w with
                    | mk b3 res =>
                      rw [ha'] at hu
                      cases res with
                      | error e => simp at hu
                      | ok u => exact absurd ⟨b3, ha'⟩ (hbad b2 w)

end

/-! ## Examples -/
section
attribute [local instance] asciiFold

/-- A block with one item. -/
def cifSample : Block := (({} : Block).addItem "_cell_length_a".toList (.str "5.4".toList)).1

def cifNames : List Str := ["_atom_site_label".toList, "_Atom_Site_x".toList]
def cifColumns : List (List PyVal) := [[.str "C1".toList, .str "O1".toList], [.str "0.1".toList, .str "0.25".toList]]

example : Reachable cifSample := .step {} (.add "_cell_length_a".toList (.str "5.4".toList) false) (.fresh _ ⟨rfl, rfl, rfl, rfl⟩)
  (by show lower "_cell_length_a".toList ≠ saves; decide +kernel)

example : (cifNames.map lower).Nodup ∧ (∀ n ∈ cifNames, lower n ≠ saves) ∧ (∀ c ∈ cifColumns, c.length = 2) := by decide +kernel

example : ∀ p ∈ cifNames.zip cifColumns, ((cifSample.addItem p.1 (.list p.2)).2 = .ok ()) := by decide +kernel

/-- The constructor with an item and a loop. -/
def cifEntries : List Entry :=
  [.item "_cell_length_a".toList (.str "5.4".toList), .loop cifNames (cifColumns.map .list)]

example : (ofEntries true cifEntries).toOption.map (fun b => (b.loops, b.lookup "_cell_length_a".toList)) =
    some ([(1, ["_atom_site_label".toList, "_atom_site_x".toList])], some (.str "5.4".toList)) ∧
    (cifEntries.flatMap fun x => x.names.map lower).Nodup := by decide +kernel

/-- The flat form is refused and leaves an item `_`. -/
example : (cifSample.addCifItem (.flat cifNames (cifColumns.map .list))).2 = .error .star ∧
    (cifSample.addCifItem (.flat cifNames (cifColumns.map .list))).1.keys = ["_cell_length_a".toList, "_".toList] ∧
    cifSample.lookup "a".toList = none ∧ lower "a".toList ≠ lower "_".toList := by decide +kernel

example : (cifSample.addCifItem (.item "_cell_length_b".toList (.str "6.1".toList))).2 = .ok () := by decide +kernel

example : (cifSample.addCifItem (.nested cifNames (cifColumns.map .list))).1.loops =
    [(1, ["_atom_site_label".toList, "_atom_site_x".toList])] := by decide +kernel

example : (cifSample.cifSetItem true "_x".toList (.list [.str "1".toList])).1.loops = [(1, ["_x".toList])] := by decide +kernel

end
end Verif.Block
