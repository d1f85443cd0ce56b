import Verif.Lemmas.BlockPacket
import Verif.Props.BlockLoop
/-! # C22-C24: packets -/
set_option linter.unusedSectionVars false
namespace Verif.Block
variable [CaseFold]

/-- What is known about a loop of a rectangular block. -/
theorem loop_facts {b : Block} (hr : Reachable b) (hrect : b.Rect) {n : Nat} {names : List Str}
    (hn : dget b.loops n = some names) :
    ∃ (cols : Str → List PyVal) (len : Nat), (∀ s ∈ names, b.column s = some (cols s)) ∧
      (∀ s ∈ names, b.getItem s = .ok (.list (cols s))) ∧ (∀ s ∈ names, (cols s).length = len) ∧
      (∀ s ∈ names, lower s = s) ∧ names.Nodup := by
  obtain ⟨hw, hf⟩ := reachable_wf hr
  obtain ⟨len, h⟩ := hrect n names hn
  have hk : ∀ s ∈ names, s ∈ b.keys := fun s hs => hf s (mem_allLooped.mpr ⟨n, names, dget_mem hn, hs⟩)
  refine ⟨fun s => (b.column s).getD [], len, ?_, ?_, ?_, fun s hs => hw.keysLower s (hk s hs), loop_nodup hw.looped (dget_mem hn)⟩
  · intro s hs
    obtain ⟨c, h1, _⟩ := h s hs
    simp [h1]
  · intro s hs
    obtain ⟨c, h1, _⟩ := h s hs
    simp only [h1, Option.getD_some]
    unfold column at h1
    split at h1
    · rename_i l hl; simp at h1; subst h1; exact lookup_some.mp hl
    · simp at h1
  · intro s hs
    obtain ⟨c, h1, h2⟩ := h s hs
    simp [h1, h2]

/-- The packet made of row `i`: the values in the order of the names, and each value as attribute. -/
def IsRow (b : Block) (names : List Str) (i : Nat) (p : Packet) : Prop :=
  p.vals.map some = names.map (fun s => (b.column s).bind (·[i]?)) ∧
  p.attrs = names.zip p.vals

theorem isRow_mk {b : Block} {names : List Str} {cols : Str → List PyVal} {len i : Nat} (hcol : ∀ s ∈ names, b.column s = some (cols s))
    (hl : ∀ s ∈ names, (cols s).length = len) (hlow : ∀ s ∈ names, lower s = s) (hnd : names.Nodup) (hi : i < len) :
    IsRow b names i (mkPacket names (rowOf cols names i)) := by
  refine ⟨?_, mkPacket_attrs hlow hnd (rowOf_length hl hi)⟩
  show (rowOf cols names i).map some = _
  rw [rowOf_eq hl hi]
  apply List.map_congr_left
  intro s hs
  rw [hcol s hs]; rfl

theorem isRow_unique {b : Block} {names : List Str} {i : Nat} {p q : Packet} (hp : IsRow b names i p) (hq : IsRow b names i q) : p = q := by
  obtain ⟨h1, h2⟩ := hp
  obtain ⟨h3, h4⟩ := hq
  have hv : p.vals = q.vals := by
    have := h1.trans h3.symm
    exact (List.map_inj_right (fun _ _ h => by simpa using h)).mp this
  cases p; cases q
  simp at *
  subst hv
  exact ⟨rfl, h2.trans h4.symm⟩

/-- C22: iterating over a loop gives one packet per row, in row order; packet `i` holds the `i`-th value of every
column; `GetPacket` behaves as indexing the list of packets, negative and excessive indices included. -/
theorem C22_rows (b : Block) (hr : Reachable b) (hrect : b.Rect) (n : Nat) (names : List Str)
    (hn : dget b.loops n = some names) (hne : names ≠ []) :
    ∃ ps, b.packets n = .ok ps ∧
      (∀ s ∈ names, ∃ col, b.column s = some col ∧ col.length = ps.length) ∧
      (∀ i p, ps[i]? = some p → IsRow b names i p) ∧
      ∀ i : Int, b.getPacket n i = match pyIndex ps i with
        | some p => .ok p
        | none => .error .index := by
  obtain ⟨cols, len, hcol, hget, hl, hlow, hnd⟩ := loop_facts hr hrect hn
  refine ⟨_, packets_eq hn hne hget hl, ?_, ?_, ?_⟩
  · intro s hs; exact ⟨_, hcol s hs, by simp [hl s hs]⟩
  · intro i p hp
    simp only [List.getElem?_map, Option.map_eq_some_iff] at hp
    obtain ⟨j, h1, rfl⟩ := hp
    have : i < len := by
      by_cases h : i < len
      · exact h
      · rw [List.getElem?_eq_none (by simp; omega)] at h1; simp at h1
    rw [List.getElem?_range this] at h1
    simp at h1; subst h1
    exact isRow_mk hcol hl hlow hnd this
  · intro i
    unfold getPacket
    simp only [hn]
    rw [pyIndex_pos]
    simp only [List.length_map, List.length_range]
    cases hp : pyPos len i with
    | none =>
      simp only [Option.bind_none]
      exact getPacketFrom_err hne hget fun s hs => by rw [pyIndex_pos, hl s hs, hp]; rfl
    | some j =>
      have hj := pyPos_lt hp
      have hrow : (rowOf cols names j).map some = names.map fun s => pyIndex (cols s) i := by
        rw [rowOf_eq hl hj]
        apply List.map_congr_left
        intro s hs
        rw [pyIndex_pos, hl s hs, hp]; rfl
      rw [getPacketFrom_ok hget hrow (by simpa [dkeys] using hnd)]
      simp only [Option.bind_some, List.getElem?_map, List.getElem?_range hj, Option.map_some]
      congr 1
      have := mkPacket_attrs hlow hnd (rowOf_length hl hj)
      unfold mkPacket at this ⊢
      simp only at this
      simp [this]

theorem sample_rect : letI := asciiFold; sample.Rect := by
  letI := asciiFold
  exact (C18_rectangular sample sample_shape)

example : letI := asciiFold
    Reachable sample ∧ sample.Rect ∧ dget sample.loops 1 = some ["_a".toList, "_b".toList] ∧
    (match sample.getPacket 1 (-1) with | .ok p => p.vals | .error _ => []) = [.str "2".toList, .str "4".toList] := by
  letI := asciiFold
  exact ⟨sample_reachable, sample_rect, by decide +kernel, by decide +kernel⟩

/-! ## C23 -/

/-- Equality of key values: exact, or without regard to case (strings only). -/
def SameKey (noCase : Bool) (x y : PyVal) : Prop :=
  if noCase = true then ∃ s t, x = .str s ∧ y = .str t ∧ lower s = lower t else x = y

/-- Caseless lookup is meant for strings. -/
def KeysOk (noCase : Bool) (col : List PyVal) (v : PyVal) : Prop :=
  noCase = true → (∃ s, v = .str s) ∧ ∀ x ∈ col, ∃ s, x = .str s

theorem dget_zip {names : List Str} {vals : List PyVal} {s : Str} (hnd : names.Nodup) (h : s ∈ names) {f : Str → Option PyVal}
    (hv : vals.map some = names.map f) : dget (names.zip vals) s = f s := by
  induction names generalizing vals with
  | nil => simp at h
  | cons a r ih =>
    cases vals with
    | nil => simp at hv
    | cons x vals =>
      simp only [List.map_cons, List.cons.injEq] at hv
      simp only [List.zip_cons_cons, dget]
      rw [List.nodup_cons] at hnd
      by_cases e : a = s
      · rw [if_pos e, ← e]; exact hv.1
      · rw [if_neg e]
        exact ih hnd.2 ((List.mem_cons.mp h).resolve_left fun h => e h.symm) hv.2

theorem attr_row {b : Block} {names : List Str} {i : Nat} {p : Packet} (hp : IsRow b names i p) (hnd : names.Nodup)
    (hlow : ∀ s ∈ names, lower s = s) {k : Str} (hk : lower k ∈ names) {v : PyVal}
    (hv : (b.column (lower k)).bind (·[i]?) = some v) : p.attr k = .ok v := by
  have hlen : p.vals.length = names.length := by simpa using congrArg List.length hp.1
  unfold Packet.attr
  rw [hp.2, dget_zip hnd hk hp.1, hv]
  cases hd : dget (names.zip p.vals) k with
  | none => rfl
  | some w =>
    simp only
    have hin : k ∈ names := by
      have := (dget_isSome.mp ⟨w, hd⟩)
      unfold dkeys at this
      rwa [List.map_fst_zip (by omega)] at this
    rw [hlow k hin] at hv hk
    rw [dget_zip hnd hk hp.1, hv] at hd
    simp at hd; rw [hd]

/-- What both lookups do, for any test that is decided by a property of the row number. -/
theorem unique_row {ps : List Packet} {q : Nat → Bool} {f : Packet → Bool}
    (h : ∀ i p, ps[i]? = some p → f p = q i) (p : Packet) :
    ps.filter f = [p] ↔ ∃ i, ps[i]? = some p ∧ q i = true ∧ ∀ j, j < ps.length → q j = true → j = i := by
  have key : ps.filter f = ((List.range ps.length).filter q).filterMap (ps[·]?) := by
    have : ∀ (l : List Packet) (q : Nat → Bool), (∀ i p, l[i]? = some p → f p = q i) →
        l.filter f = ((List.range l.length).filter q).filterMap (l[·]?) := by
      intro l
      induction l with
      | nil => intro q _; rfl
      | cons a r ih =>
        intro q hq
        have h0 := hq 0 a rfl
        rw [List.length_cons, List.range_succ_eq_map, List.filter_cons, List.filter_cons, h0]
        have h1 := ih (fun i => q (i + 1)) (fun i p hp => hq (i + 1) p (by simpa using hp))
        have h2 : (((List.range r.length).map Nat.succ).filter q).filterMap ((a :: r)[·]?) = r.filter f := by
          rw [List.filter_map, List.filterMap_map, h1]
          rfl
        split
        · simp only [List.filterMap_cons]
          rw [h2]; rfl
        · exact h2.symm
    exact this ps q h
  rw [key]
  constructor
  · intro hs
    have hlen : ((List.range ps.length).filter q).length = 1 := by
      have h1 : (((List.range ps.length).filter q).filterMap (ps[·]?)).length = ((List.range ps.length).filter q).length := by
        have : ∀ L : List Nat, (∀ i ∈ L, i < ps.length) → (L.filterMap (ps[·]?)).length = L.length := by
          intro L
          induction L with
          | nil => intro _; rfl
          | cons i r ih =>
            intro hL
            have hi := hL i (by simp)
            simp only [List.filterMap_cons, List.getElem?_eq_getElem hi, List.length_cons]
            rw [ih fun j hj => hL j (by simp [hj])]
        apply this
        intro i hi
        simp only [List.mem_filter, List.mem_range] at hi
        exact hi.1
      rw [hs] at h1; simpa using h1.symm
    match hL : (List.range ps.length).filter q, hlen with
    | [i], _ =>
      rw [hL] at hs
      obtain ⟨h1, h2, h3⟩ := filter_range_singleton.mp hL
      refine ⟨i, ?_, h2, h3⟩
      simp only [List.filterMap_cons, List.filterMap_nil] at hs
      rw [List.getElem?_eq_getElem h1] at hs ⊢
      simpa using hs
  · rintro ⟨i, h1, h2, h3⟩
    have hi : i < ps.length := by
      by_cases hlt : i < ps.length
      · exact hlt
      · rw [List.getElem?_eq_none (by omega)] at h1; simp at h1
    rw [filter_range_singleton.mpr ⟨hi, h2, h3⟩]
    simp [h1]

/-- `SameKey` as a test. -/
def sameKeyB (nc : Bool) (x y : PyVal) : Bool :=
  if nc then match x, y with
    | .str s, .str t => decide (lower s = lower t)
    | _, _ => false
  else decide (x = y)

theorem sameKeyB_iff {nc : Bool} {x y : PyVal} : sameKeyB nc x y = true ↔ SameKey nc x y := by
  unfold sameKeyB SameKey
  cases nc with
  | false => simp
  | true =>
    simp only [if_true]
    constructor
    · intro h
      split at h
      · exact ⟨_, _, rfl, rfl, by simpa using h⟩
      · simp at h
    · rintro ⟨s, t, rfl, rfl, h⟩; simp [h]

/-- The list of packets of a loop with what is needed about keys. -/
theorem loop_packets {b : Block} (hr : Reachable b) (hrect : b.Rect) {n : Nat} {names : List Str}
    (hn : dget b.loops n = some names) (hne : names ≠ []) :
    ∃ ps, b.packets n = .ok ps ∧ (∀ (k : Str), lower k ∈ names → b.getLoop k = .ok n) ∧
      (∀ (i : Nat) p, ps[i]? = some p ↔ b.getPacket n i = .ok p) ∧
      ∀ (k : Str) (col : List PyVal), lower k ∈ names → b.column (lower k) = some col → col.length = ps.length ∧
        ∀ (i : Nat) (p : Packet), ps[i]? = some p → ∃ x, col[i]? = some x ∧ p.attr k = .ok x := by
  obtain ⟨hw, hf⟩ := reachable_wf hr
  obtain ⟨cols, len, hcol', hget, hl, hlow, hnd⟩ := loop_facts hr hrect hn
  obtain ⟨ps, h1, h2, h3, h4⟩ := C22_rows b hr hrect n names hn hne
  refine ⟨ps, h1, ?_, ?_, ?_⟩
  · intro k hk
    unfold getLoop
    rw [findLoop_eq hw (dget_mem hn) hk]
  · intro i p
    rw [h4]
    unfold pyIndex
    rw [if_pos (by omega)]
    simp only [Int.toNat_natCast]
    cases ps[i]? <;> simp
  · intro k col hk hcol
    have hlen : col.length = ps.length := by
      obtain ⟨c, g1, g2⟩ := h2 _ hk
      rw [hcol] at g1; simp at g1; subst g1; exact g2
    refine ⟨hlen, fun i p hp => ?_⟩
    have hi : i < ps.length := by
      by_cases hlt : i < ps.length
      · exact hlt
      · rw [List.getElem?_eq_none (by omega)] at hp; simp at hp
    refine ⟨col[i]'(by omega), List.getElem?_eq_getElem _, ?_⟩
    apply attr_row (h3 i p hp) hnd hlow hk
    rw [hcol]
    simp [hlen, hi]

/-- The test of one packet. -/
theorem keyMatches_row {k : Str} {v x : PyVal} {nc : Bool} {p : Packet} (h : p.attr k = .ok x)
    (hs : nc = true → (∃ s, v = .str s) ∧ ∃ s, x = .str s) : keyMatches k v nc p = .ok (sameKeyB nc x v) := by
  unfold keyMatches sameKeyB
  rw [h]
  cases nc with
  | false => rfl
  | true =>
    obtain ⟨⟨s, rfl⟩, t, rfl⟩ := hs rfl
    simp [valLower]

/-- The test of one packet in the compound lookup. -/
theorem keyMatches2_row {k : Str} {v x : PyVal} {nc : Bool} {p : Packet} (h : p.attr k = .ok x)
    (hs : nc = true → (∃ s, v = .str s) ∧ ∃ s, x = .str s) : keyMatches2 k v nc p = .ok (sameKeyB nc x v) := by
  unfold keyMatches2 sameKeyB
  rw [h]
  cases nc with
  | false => rfl
  | true =>
    obtain ⟨⟨s, rfl⟩, t, rfl⟩ := hs rfl
    simp [strOf]

/-- The lookup once the test is known to be decided by the row number. -/
theorem keyed_core {ps : List Packet} {q : Nat → Bool} {f : Packet → Except PyErr Bool}
    (h : ∀ i p, ps[i]? = some p → f p = .ok (q i)) :
    (∃ L, filterE f ps = .ok L ∧ ∀ p, L = [p] ↔ ∃ i, ps[i]? = some p ∧ q i = true ∧ ∀ j, j < ps.length → q j = true → j = i) := by
  refine ⟨ps.filter fun p => (match f p with | .ok t => t | .error _ => false), ?_, ?_⟩
  · apply filterE_ok
    intro p hp
    obtain ⟨i, hi⟩ := List.mem_iff_getElem?.mp hp
    rw [h i p hi]
  · intro p
    exact unique_row (fun i p hp => by rw [h i p hp]) p

/-- One element or `ValueError`. -/
def one : List Packet → Except PyErr Packet
  | [p] => .ok p
  | _ => .error .value

theorem one_ok {L : List Packet} {p : Packet} : one L = .ok p ↔ L = [p] := by
  cases L with
  | nil => simp [one]
  | cons a r => cases r <;> simp [one]

theorem one_error {L : List Packet} {e : PyErr} (h : one L = .error e) : e = .value := by
  cases L with
  | nil => simpa [one] using h.symm
  | cons a r => cases r <;> simp [one] at h; exact h.symm

/-- C23: `GetKeyedPacket` returns a packet exactly when precisely one row has the key value, and then it is the
packet of that row. -/
theorem C23_keyed (b : Block) (hr : Reachable b) (hrect : b.Rect) (n : Nat) (names : List Str)
    (hn : dget b.loops n = some names) (k : Str) (hk : lower k ∈ names) (col : List PyVal) (hcol : b.column (lower k) = some col)
    (v : PyVal) (nc : Bool) (hs : KeysOk nc col v) :
    (∀ p, b.getKeyedPacket k v nc = .ok p ↔
      ∃ i : Nat, (∃ x, col[i]? = some x ∧ SameKey nc x v) ∧ (∀ (j : Nat) x, col[j]? = some x → SameKey nc x v → j = i) ∧
        b.getPacket n i = .ok p) ∧
    ∀ e, b.getKeyedPacket k v nc = .error e → e = .value := by
  obtain ⟨ps, h1, h2, h3, h4⟩ := loop_packets hr hrect hn (by intro e; rw [e] at hk; simp at hk)
  obtain ⟨hlen, hrow⟩ := h4 k col hk hcol
  let q : Nat → Bool := fun i => match col[i]? with | some x => sameKeyB nc x v | none => false
  obtain ⟨L, hL, hiff⟩ := keyed_core (q := q) (f := keyMatches k v nc) (ps := ps) (by
    intro i p hp
    obtain ⟨x, g1, g2⟩ := hrow i p hp
    rw [keyMatches_row g2 (fun hnc => ⟨(hs hnc).1, (hs hnc).2 x (List.mem_of_getElem? g1)⟩)]
    simp [q, g1])
  have heq : b.getKeyedPacket k v nc = one L := by
    unfold getKeyedPacket
    rw [h2 k hk]
    simp only [h1, hL]
    cases L with
    | nil => rfl
    | cons a r => cases r <;> rfl
  have hq : ∀ i, q i = true ↔ ∃ x, col[i]? = some x ∧ SameKey nc x v := by
    intro i
    simp only [q]
    cases col[i]? with
    | none => simp
    | some x => simp [sameKeyB_iff]
  constructor
  · intro p
    rw [heq]
    rw [one_ok, hiff p]
    constructor
    · rintro ⟨i, g1, g2, g3⟩
      refine ⟨i, (hq i).mp g2, fun j x hx hxs => ?_, (h3 i p).mp g1⟩
      refine g3 j ?_ ((hq j).mpr ⟨x, hx, hxs⟩)
      rw [← hlen]
      exact (List.getElem?_eq_some_iff.mp hx).1
    · rintro ⟨i, g1, g2, g3⟩
      refine ⟨i, (h3 i p).mpr g3, (hq i).mpr g1, fun j _ hj => ?_⟩
      obtain ⟨x, hx, hxs⟩ := (hq j).mp hj
      exact g2 j x hx hxs
  · intro e he
    rw [heq] at he
    exact one_error he

/-- C23, compound keys: the same for rows that match all the given keys. -/
theorem C23_compound (b : Block) (hr : Reachable b) (hrect : b.Rect) (n : Nat) (names : List Str)
    (hn : dget b.loops n = some names) (kd : List (Str × PyVal × Bool)) (hne : kd ≠ [])
    (hk : ∀ t ∈ kd, lower t.1 ∈ names)
    (hs : ∀ t ∈ kd, ∀ col, b.column (lower t.1) = some col → KeysOk t.2.2 col t.2.1) :
    let hit : Nat → Prop := fun i => ∀ t ∈ kd, ∃ x, (b.column (lower t.1)).bind (·[i]?) = some x ∧ SameKey t.2.2 x t.2.1
    (∀ p, b.getCompoundKeyedPacket kd = .ok p ↔
      ∃ i : Nat, hit i ∧ (∀ j, hit j → j = i) ∧ b.getPacket n i = .ok p) ∧
    ∀ e, b.getCompoundKeyedPacket kd = .error e → e = .value := by
  intro hit
  have hnn : names ≠ [] := by
    obtain ⟨t, r, rfl⟩ := List.exists_cons_of_ne_nil hne
    intro e; have := hk t (by simp); rw [e] at this; simp at this
  obtain ⟨ps, h1, h2, h3, h4⟩ := loop_packets hr hrect hn hnn
  have hcols : ∀ t ∈ kd, ∃ col, b.column (lower t.1) = some col := by
    intro t ht
    obtain ⟨len, h⟩ := hrect n names hn
    obtain ⟨c, hc, _⟩ := h _ (hk t ht)
    exact ⟨c, hc⟩
  let g : Str × PyVal × Bool → Packet → Bool := fun t p => match keyMatches2 t.1 t.2.1 t.2.2 p with | .ok r => r | .error _ => false
  let qt : Str × PyVal × Bool → Nat → Bool := fun t i => match (b.column (lower t.1)).bind (·[i]?) with | some x => sameKeyB t.2.2 x t.2.1 | none => false
  have hmatch : ∀ t ∈ kd, ∀ i p, ps[i]? = some p → keyMatches2 t.1 t.2.1 t.2.2 p = .ok (qt t i) := by
    intro t ht i p hp
    obtain ⟨col, hc⟩ := hcols t ht
    obtain ⟨_, hrow⟩ := h4 t.1 col (hk t ht) hc
    obtain ⟨x, g1, g2⟩ := hrow i p hp
    rw [keyMatches2_row g2 (fun hnc => ⟨(hs t ht col hc hnc).1, (hs t ht col hc hnc).2 x (List.mem_of_getElem? g1)⟩)]
    simp [qt, hc, g1]
  have hfk : ∀ (l : List (Str × PyVal × Bool)) (qs : List Packet), (∀ t ∈ l, t ∈ kd) → (∀ p ∈ qs, p ∈ ps) →
      filterKeys qs l = .ok (qs.filter fun p => l.all fun t => g t p) := by
    intro l
    induction l with
    | nil => intro qs _ _; simp only [filterKeys, List.all_nil]; rw [List.filter_eq_self.mpr (fun _ _ => rfl)]
    | cons t r ih =>
      intro qs hl hqs
      obtain ⟨k, v, nc⟩ := t
      unfold filterKeys
      have : filterE (keyMatches2 k v nc) qs = .ok (qs.filter (g (k, v, nc))) := by
        apply filterE_ok
        intro p hp
        obtain ⟨i, hi⟩ := List.mem_iff_getElem?.mp (hqs p hp)
        have hm := hmatch (k, v, nc) (hl _ (by simp)) i p hi
        simp only at hm
        simp only [g, hm]
      rw [this]
      simp only
      rw [ih _ (fun t ht => hl t (by simp [ht])) (fun p hp => hqs p (List.mem_filter.mp hp).1), List.filter_filter]
      congr 1
      apply List.filter_congr
      intro p _
      simp [Bool.and_comm]
  have hu := fun p => unique_row (ps := ps) (q := fun i => kd.all fun t => qt t i) (f := fun p => kd.all fun t => g t p) (by
    intro i p hp
    have : ∀ l : List (Str × PyVal × Bool), (∀ t ∈ l, t ∈ kd) → (l.all fun t => g t p) = l.all fun t => qt t i := by
      intro l
      induction l with
      | nil => intro _; rfl
      | cons t r ih =>
        intro hl
        simp only [List.all_cons]
        rw [ih fun t ht => hl t (by simp [ht])]
        congr 1
        simp only [g, hmatch t (hl t (by simp)) i p hp]
    exact this kd fun t ht => ht) p
  have hq : ∀ i, (kd.all fun t => qt t i) = true ↔ hit i := by
    intro i
    rw [List.all_eq_true]
    simp only [hit, qt]
    constructor
    · intro h t ht
      have := h t ht
      cases hc : (b.column (lower t.1)).bind (·[i]?) with
      | none => rw [hc] at this; simp at this
      | some x => rw [hc] at this; exact ⟨x, rfl, sameKeyB_iff.mp this⟩
    · intro h t ht
      obtain ⟨x, g1, g2⟩ := h t ht
      rw [g1]; exact sameKeyB_iff.mpr g2
  have heq : b.getCompoundKeyedPacket kd = one (ps.filter fun p => kd.all fun t => g t p) := by
    have hF := hfk kd ps (fun t ht => ht) (fun p hp => hp)
    obtain ⟨t, r, hkd⟩ := List.exists_cons_of_ne_nil hne
    obtain ⟨k, v, nc⟩ := t
    unfold getCompoundKeyedPacket
    have hk0 := h2 k (by have := hk (k, v, nc) (by rw [hkd]; simp); exact this)
    rw [hkd] at hF ⊢
    simp only [hk0, h1, hF]
    cases ps.filter (fun p => ((k, v, nc) :: r).all fun t => g t p) with
    | nil => rfl
    | cons a r => cases r <;> rfl
  constructor
  · intro p
    rw [heq]
    rw [one_ok, hu p]
    constructor
    · rintro ⟨i, g1, g2, g3⟩
      refine ⟨i, (hq i).mp g2, fun j hj => g3 j ?_ ((hq j).mpr hj), (h3 i p).mp g1⟩
      obtain ⟨t, r, hkd⟩ := List.exists_cons_of_ne_nil hne
      obtain ⟨x, hx, _⟩ := hj t (by rw [hkd]; simp)
      obtain ⟨col, hc⟩ := hcols t (by rw [hkd]; simp)
      rw [hc] at hx
      rw [← (h4 t.1 col (hk t (by rw [hkd]; simp)) hc).1]
      exact (List.getElem?_eq_some_iff.mp hx).1
    · rintro ⟨i, g1, g2, g3⟩
      exact ⟨i, (h3 i p).mpr g3, (hq i).mpr g1, fun j _ hj => g2 j ((hq j).mp hj)⟩
  · intro e he
    rw [heq] at he
    exact one_error he

example : letI := asciiFold
    lower "_A".toList ∈ ["_a".toList, "_b".toList] ∧ sample.column (lower "_A".toList) = some [.str "1".toList, .str "2".toList] ∧
    (sample.getKeyedPacket "_A".toList (.str "2".toList) true).isOk = true ∧
    (sample.getCompoundKeyedPacket [("_A".toList, .str "2".toList, false), ("_B".toList, .str "4".toList, true)]).isOk = true ∧
    (sample.getKeyedPacket "_A".toList (.str "3".toList)) = .error .value := by decide +kernel

/-- A finding beside C23: a caseless lookup raises `AttributeError` as soon as one row of the key column is a number,
even when another row matches. -/
theorem C23_caseless_number_raises : letI := asciiFold
    let b := ({} : Block).run [.add "_k".toList (.list [.str "a".toList, .num "1".toList]) false, .createLoop ["_k".toList] (-1) true]
    b.getKeyedPacket "_k".toList (.str "A".toList) true = .error .attribute := by decide +kernel

/-! ## C24 -/

theorem val_loop {b : Block} (hr : Reachable b) {s : Str} (hs : s ∈ b.keys) {l : List PyVal} :
    b.val s = some (.list l) ↔ b.column s = some l := by
  rw [column_loop hr hs, colv_some]

theorem idxOf_first {l : List PyVal} {v : PyVal} (h : v ∈ l) : l[l.idxOf v]? = some v ∧ ∀ j < l.idxOf v, l[j]? ≠ some v := by
  induction l with
  | nil => simp at h
  | cons a r ih =>
    rw [List.idxOf_cons]
    by_cases e : a = v
    · subst e; simp
    · have h' : v ∈ r := (List.mem_cons.mp h).resolve_left (fun h => e h.symm)
      have hb : (a == v) = false := by simpa using e
      obtain ⟨h1, h2⟩ := ih h'
      rw [hb]
      simp only [cond_false]
      refine ⟨by simpa using h1, fun j hj => ?_⟩
      cases j with
      | zero => simpa using e
      | succ j => simpa using h2 j (by omega)

/-- C24: when `RemoveKeyedPacket` succeeds, exactly the first row with the key value has gone from every column of the
loop; all other items, the loops and the print order are as before. -/
theorem C24_remove (b b' : Block) (hh : ShapeHistory b) (k : Str) (v : PyVal) (n : Nat) (names : List Str)
    (hn : dget b.loops n = some names) (hk : lower k ∈ names) (h : b.removeKeyedPacket k v = (b', .ok ())) :
    ∃ i col, b.column (lower k) = some col ∧ col[i]? = some v ∧ (∀ j < i, col[j]? ≠ some v) ∧
      (∀ s ∈ names, ∃ c, b.column s = some c ∧ b'.column s = some (c.eraseIdx i)) ∧
      (∀ s ∈ b.keys, s ∉ names → b'.lookup s = b.lookup s) ∧
      b'.keys = b.keys ∧ b'.loops = b.loops ∧ b'.order = b.order := by
  obtain ⟨hr, he, hrect⟩ := shape_inv b hh
  have hr' : Reachable b' := by
    have := Reachable.step b (.removePacket k v) hr trivial
    simp only [step] at this
    rwa [h] at this
  obtain ⟨hw, hf⟩ := reachable_wf hr
  have hmemk : ∀ s ∈ names, s ∈ b.keys := fun s hs => hf s (mem_allLooped.mpr ⟨n, names, dget_mem hn, hs⟩)
  obtain ⟨blk, hblk, hfr⟩ := removeKeyedPacket_frame b k v
  rw [h] at hfr
  simp only at hfr
  have hkeys : b'.keys = b.keys := by rw [hfr]; exact hblk
  unfold removeKeyedPacket at h
  split at h
  · simp at h
  · rename_i colv' hget
    split at h
    · simp at h
    · rename_i l hl
      split at h
      · rename_i hin
        rw [findLoop_eq hw (dget_mem hn) hk] at h
        simp only [hn] at h
        obtain ⟨len, hcols⟩ := hrect n names (dget_mem hn)
        obtain ⟨r1, r2, r3⟩ := removeRow_ok hw he (loop_nodup hw.looped (dget_mem hn)) (fun s hs => (hcols s hs).imp fun _ h => h.1) h
        obtain ⟨col, q1, q2⟩ := hcols _ hk
        have hcl : b.column (lower k) = some col := (val_loop hr (hmemk _ hk)).mp q1
        have hlc : l = col := by
          have := val_of_getItem hget
          rw [q1] at this; simp at this; subst this
          simpa [pyIter] using hl.symm
        subst hlc
        obtain ⟨g1, g2⟩ := idxOf_first hin
        refine ⟨_, l, hcl, g1, g2, ?_, ?_, hkeys, by rw [hfr], by rw [hfr]⟩
        · intro s hs
          obtain ⟨c, e1, _, e2⟩ := r3 s hs
          exact ⟨c, (val_loop hr (hmemk s hs)).mp e1, (val_loop hr' (hkeys ▸ hmemk s hs)).mp e2⟩
        · intro s hs hsn
          have hsv : s ≠ saves := fun e => reachable_nosaves hr (e ▸ hs)
          rw [lookup_val _ _ hsv, lookup_val _ _ hsv, hw.keysLower s hs, r2 s hsn]
      · simp at h

/-- The column was stored by `AddItem` with its checks (as opposed to by the file reader, which skips them). -/
def StoredChecked (b : Block) (s : Str) : Prop := ∃ a c, dget b.block s = some (.list a, .list c)

theorem addItem_storedChecked {b b' : Block} {k : Str} {l : List PyVal} (h : b.addItem k (.list l) = (b', .ok ())) :
    StoredChecked b' (lower k) := by
  unfold addItem at h
  split at h
  · simp at h
  · rename_i sv hc
    simp at h; subst h
    unfold addItemCheck at hc
    simp only [Bool.false_eq_true, if_false] at hc
    unfold StoredChecked
    simp only [store, dget_dset_self]
    split at hc
    · simp at hc
    · split at hc
      · simp at hc
      · split at hc
        · simp at hc
        · rename_i w p hr
          obtain ⟨_, rfl, q, rfl, _, _⟩ := regularise_list l _ _ hr
          split at hc
          · split at hc <;> (simp at hc; subst hc; exact ⟨_, _, rfl⟩)
          · simp at hc

theorem removeRow_succeeds {b : Block} (he : Entries b) {i : Nat} {ds : List Str} (hn : ds.Nodup)
    (hst : ∀ s ∈ ds, StoredChecked b s) (hi : ∀ s ∈ ds, ∃ col, b.val s = some (.list col) ∧ i < col.length) :
    ∃ b', b.removeRow i ds = (b', .ok ()) := by
  induction ds generalizing b with
  | nil => exact ⟨b, rfl⟩
  | cons d ds ih =>
    rw [List.nodup_cons] at hn
    obtain ⟨a, c, hd⟩ := hst d (by simp)
    obtain ⟨col, hcd, hlt⟩ := hi d (by simp)
    have hge := he d _ (dget_mem hd)
    rcases hge with h | h | ⟨la, lc, h1, h2, h3, h4⟩
    · simp at h
    · simp at h
    · simp at h1 h2
      subst h1 h2
      have hla : i < a.length := by
        unfold val at hcd
        rw [hd] at hcd
        simp only [Option.bind_some, readEntry] at hcd
        split at hcd
        · simp [Except.toOption] at hcd; subst hcd; exact hlt
        · simp [Except.toOption] at hcd; subst hcd; omega
      unfold removeRow
      simp only [hd, delAt_list, if_pos hla, if_pos (h3 ▸ hla)]
      apply ih
      · intro x e hx
        have hx' : (x, e) = (d, (PyVal.list (a.eraseIdx i), PyVal.list (c.eraseIdx i))) ∨ (x, e) ∈ b.block := by
          have : ∀ (D : Dict Str (PyVal × PyVal)) w, (x, e) ∈ dset D d w → (x, e) = (d, w) ∨ (x, e) ∈ D := by
            intro D w
            induction D with
            | nil => simp [dset]
            | cons p r ih =>
              obtain ⟨y, z⟩ := p
              simp only [dset]
              split
              · rename_i hyd; intro hm
                rcases List.mem_cons.mp hm with hm | hm
                · left; rw [hm, hyd]
                · right; simp [hm]
              · intro hm
                rcases List.mem_cons.mp hm with hm | hm
                · right; simp [hm]
                · rcases ih hm with h | h
                  · exact Or.inl h
                  · right; simp [h]
          exact this _ _ hx
        rcases hx' with hx' | hx'
        · simp at hx'; rw [hx'.2]
          refine Or.inr (Or.inr ⟨_, _, rfl, rfl, ?_, ?_⟩)
          · rw [List.length_eraseIdx, List.length_eraseIdx, h3]
          · rcases h4 with h4 | h4
            · exact Or.inl (notNoneAll_eraseIdx h4 i)
            · exact Or.inr fun y hy => h4 y (List.mem_of_mem_eraseIdx hy)
        · exact he x e hx'
      · exact hn.2
      · intro s hs
        obtain ⟨a', c', hs'⟩ := hst s (by simp [hs])
        refine ⟨a', c', ?_⟩
        simp only [dget_dset]
        rw [if_neg (fun e => hn.1 (by rw [e]; exact hs))]; exact hs'
      · intro s hs
        obtain ⟨cl, e1, e2⟩ := hi s (by simp [hs])
        refine ⟨cl, ?_, e2⟩
        unfold val at e1 ⊢
        simp only [dget_dset]
        rw [if_neg (fun e => hn.1 (by rw [e]; exact hs))]; exact e1

/-- C24: `RemoveKeyedPacket` succeeds when the value occurs and the columns were stored with checks. Missing from the full
property: columns read from a file, see `C24_remove_read_fails`. -/
theorem C24_remove_succeeds_partial (b : Block) (hh : ShapeHistory b) (k : Str) (v : PyVal) (n : Nat) (names : List Str)
    (hn : dget b.loops n = some names) (hk : lower k ∈ names) (hks : k ≠ saves) (col : List PyVal) (hcol : b.column (lower k) = some col) (hv : v ∈ col)
    (hst : ∀ s ∈ names, StoredChecked b s) : ∃ b', b.removeKeyedPacket k v = (b', .ok ()) := by
  obtain ⟨hr, he, hrect⟩ := shape_inv b hh
  obtain ⟨hw, hf⟩ := reachable_wf hr
  have hmemk : ∀ s ∈ names, s ∈ b.keys := fun s hs => hf s (mem_allLooped.mpr ⟨n, names, dget_mem hn, hs⟩)
  have hval := (val_loop hr (hmemk _ hk)).mpr hcol
  have hget : b.getItem k = .ok (.list col) := by
    apply lookup_some.mp
    rw [lookup_val b k hks]; exact hval
  unfold removeKeyedPacket
  simp only [hget, pyIter, if_pos hv, findLoop_eq hw (dget_mem hn) hk, hn]
  apply removeRow_succeeds he (loop_nodup hw.looped (dget_mem hn)) hst
  intro s hs
  obtain ⟨len, hcols⟩ := hrect n names (dget_mem hn)
  obtain ⟨c, h1, h2⟩ := hcols s hs
  obtain ⟨c', h3, h4⟩ := hcols _ hk
  rw [hval] at h3; simp at h3; subst h3
  exact ⟨c, h1, by rw [h2, ← h4]; exact List.idxOf_lt_length_of_mem hv⟩

example : letI := asciiFold
    (sample.removeKeyedPacket "_A".toList (.str "1".toList)).2 = .ok () ∧
    (sample.removeKeyedPacket "_A".toList (.str "1".toList)).1.column "_b".toList = some [.str "4".toList] ∧
    ∀ s ∈ ["_a".toList, "_b".toList], StoredChecked sample s := by
  letI := asciiFold
  refine ⟨by decide +kernel, by decide +kernel, ?_⟩
  intro s hs
  simp at hs
  rcases hs with rfl | rfl
  · exact ⟨_, _, by rfl⟩
  · exact ⟨_, _, by rfl⟩

/-- C24 fails for a loop read from a file: the reader stores columns without the placeholder half, and
`RemoveKeyedPacket` then raises `TypeError` after it has already cut the first column. -/
theorem C24_remove_read_fails : letI := asciiFold
    let b := ({} : Block).run [.add "_a".toList (.list [.str "1".toList, .str "2".toList]) true,
      .add "_b".toList (.list [.str "3".toList, .str "4".toList]) true, .createLoop ["_a".toList, "_b".toList] (-1) false]
    (b.removeKeyedPacket "_a".toList (.str "1".toList)).2 = .error .type ∧
    (b.removeKeyedPacket "_a".toList (.str "1".toList)).1.column "_a".toList = some [.str "2".toList] ∧
    (b.removeKeyedPacket "_a".toList (.str "1".toList)).1.column "_b".toList = some [.str "3".toList, .str "4".toList] := by
  decide +kernel

theorem order_addPacketFrom {b : Block} (p : Packet) (ds : List Str) (hk : ∀ s ∈ ds, lower s ∈ b.keys) :
    (b.addPacketFrom p ds).1.order = b.order := by
  induction ds generalizing b with
  | nil => rfl
  | cons d ds ih =>
    unfold addPacketFrom
    split
    · rfl
    · split
      · rfl
      · rename_i x hx
        obtain ⟨blk, hb1, hb2⟩ := appendInPlace_frame b d x
        split
        · rename_i hap; rw [hap] at hb2; simp only at hb2; rw [hb2]
        · rename_i b1 l' hap
          rw [hap] at hb2
          simp only at hb2
          have hkd : lower d ∈ b1.keys := by
            rw [hb2]; show lower d ∈ dkeys blk
            rw [hb1]; exact hk d (by simp)
          split
          · rename_i hset; rw [(setItem_frame hset hkd).1, hb2]
          · rename_i b2 hset
            have hfr := setItem_frame hset hkd
            have hkk : b2.keys = b.keys := by rw [hfr.2.2.1, hb2]; exact hb1
            rw [ih fun s hs => by rw [hkk]; exact hk s (by simp [hs]), hfr.1, hb2]

/-- C24: when `AddPacket` succeeds every column of the loop has got the packet's value at its end; all other items,
the loops and the print order are as before. -/
theorem C24_add (b b' : Block) (hh : ShapeHistory b) (k : Str) (p : Packet) (n : Nat) (names : List Str)
    (hn : dget b.loops n = some names) (hk : lower k ∈ names) (h : b.step (.addPacket k p) = (b', .ok ())) :
    (∀ s ∈ names, ∃ c y, b.column s = some c ∧ dget p.attrs s = some y ∧ b'.column s = some (c ++ [y])) ∧
      (∀ s ∈ b.keys, s ∉ names → b'.lookup s = b.lookup s) ∧
      b'.keys = b.keys ∧ b'.loops = b.loops ∧ b'.order = b.order := by
  obtain ⟨hr, he, hrect⟩ := shape_inv b hh
  have hr' : Reachable b' := by
    have := Reachable.step b (.addPacket k p) hr trivial
    rwa [h] at this
  obtain ⟨hw, hf⟩ := reachable_wf hr
  have hmemk : ∀ s ∈ names, s ∈ b.keys := fun s hs => hf s (mem_allLooped.mpr ⟨n, names, dget_mem hn, hs⟩)
  have hgl : b.getLoop k = .ok n := by
    unfold getLoop; rw [findLoop_eq hw (dget_mem hn) hk]
  simp only [step, hgl, addPacket, hn] at h
  obtain ⟨len, h1⟩ := hrect n names (dget_mem hn)
  have hlow : ∀ s ∈ names, lower s = s := fun s hs => hw.keysLower s (hmemk s hs)
  obtain ⟨r1, r2, r3, r4⟩ := addPacketFrom_ok hw he (loop_nodup hw.looped (dget_mem hn)) hlow
    (fun hs => reachable_nosaves hr (hmemk _ hs)) (fun s hs => (h1 s hs).imp fun _ h => h.1) h
  have hkeys : b'.keys = b.keys := by
    have := keys_addPacketFrom (b := b) p names
    rwa [h] at this
  have hord : b'.order = b.order := by
    have := order_addPacketFrom (b := b) p names fun s hs => by rw [hlow s hs]; exact hmemk s hs
    rwa [h] at this
  refine ⟨?_, ?_, hkeys, r3, hord⟩
  · intro s hs
    obtain ⟨c, y, e1, e2, e3⟩ := r4 s hs
    exact ⟨c, y, (val_loop hr (hmemk s hs)).mp e1, e2, (val_loop hr' (hkeys ▸ hmemk s hs)).mp e3⟩
  · intro s hs hsn
    have hsv : s ≠ saves := fun e => reachable_nosaves hr (e ▸ hs)
    rw [lookup_val _ _ hsv, lookup_val _ _ hsv, hw.keysLower s hs, r2 s hsn]

/-- A string of permitted characters. -/
def GoodString (u : Bool) (x : PyVal) : Prop := ∃ t, x = .str t ∧ t.all (okValueChar u) = true

theorem regulariseAll_strings {u : Bool} (l : List PyVal) (h : ∀ x ∈ l, GoodString u x) : ∃ r, regulariseAll l = .ok (l, r) := by
  induction l with
  | nil => exact ⟨[], rfl⟩
  | cons x l ih =>
    obtain ⟨r, hr⟩ := ih fun y hy => h y (by simp [hy])
    obtain ⟨t, rfl, _⟩ := h x (by simp)
    exact ⟨.none :: r, by simp [regulariseAll, regularise, hr]⟩

theorem setItem_strings {b : Block} {k : Str} {l : List PyVal} (hk : k ≠ saves) (ho : b.overwrite = true)
    (hn : checkDataName b.unicode b.maxName k = .ok ()) (hne : l ≠ []) (hl : ∀ x ∈ l, GoodString b.unicode x) :
    ∃ b', b.setItem k (.list l) = (b', .ok ()) := by
  have hreg : ∃ r, regularise (.list l) = .ok (.list l, r) := by
    obtain ⟨x, r, rfl⟩ := List.exists_cons_of_ne_nil hne
    obtain ⟨q, hq⟩ := regulariseAll_strings r fun y hy => hl y (by simp [hy])
    obtain ⟨t, rfl, _⟩ := hl x (by simp)
    exact ⟨.list (.none :: q), by simp only [regularise, hq]⟩
  obtain ⟨r, hr⟩ := hreg
  have hch : checkItemValue b.unicode (.list l) = true := by
    unfold checkItemValue
    rw [List.all_eq_true]
    intro x hx
    obtain ⟨t, rfl, ht⟩ := hl x hx
    exact ht
  have hst : checkStringiness (.list l) = true := by
    simp only [checkStringiness]
    clear hr hch hne
    induction l with
    | nil => rfl
    | cons x l ih =>
      obtain ⟨t, rfl, _⟩ := hl x (by simp)
      simp only [checkStringinessAll, checkStringiness, Bool.true_and]
      exact ih fun y hy => hl y (by simp [hy])
  unfold setItem addItem addItemCheck
  simp only [if_neg hk, Bool.false_eq_true, if_false, hn, ho, Bool.not_true, Bool.and_false, hr, hch, hst, if_true]
  exact ⟨_, rfl⟩

theorem addPacketFrom_succeeds {b : Block} (hw : WF b) {p : Packet} {ds : List Str} (hn : ds.Nodup)
    (hlow : ∀ s ∈ ds, lower s = s) (hns : saves ∉ ds) (ho : b.overwrite = true)
    (hname : ∀ s ∈ ds, checkDataName b.unicode b.maxName s = .ok ())
    (hcol : ∀ s ∈ ds, ∃ col, b.val s = some (.list col) ∧ ∀ x ∈ col, GoodString b.unicode x)
    (hp : ∀ s ∈ ds, ∃ y, dget p.attrs s = some y ∧ GoodString b.unicode y) :
    ∃ b', b.addPacketFrom p ds = (b', .ok ()) := by
  induction ds generalizing b with
  | nil => exact ⟨b, rfl⟩
  | cons d ds ih =>
    rw [List.nodup_cons] at hn
    obtain ⟨col, hcd, hgood⟩ := hcol d (by simp)
    obtain ⟨y, hy, hyg⟩ := hp d (by simp)
    have hld := hlow d (by simp)
    have hds : d ≠ saves := by rintro rfl; simp at hns
    have hget : b.getItem d = .ok (.list col) := by
      apply lookup_some.mp
      rw [lookup_val b d hds, hld]; exact hcd
    have hdk : d ∈ b.keys := by have := getItem_ok_mem hget; rwa [hld] at this
    unfold addPacketFrom
    simp only [hget, hy]
    -- appending never fails on a column
    have hap : ∃ e, b.appendInPlace d y = ({ b with block := dset b.block d e }, .ok (.list (col ++ [y]))) := by
      unfold appendInPlace
      rw [hld]
      cases hg : dget b.block d with
      | none => exact absurd (dget_eq_none.mp hg) (fun h => h hdk)
      | some e =>
        obtain ⟨s, v⟩ := e
        simp only [hget]
        split
        · exact ⟨_, rfl⟩
        · exact ⟨_, rfl⟩
    obtain ⟨e, hap⟩ := hap
    rw [hap]
    simp only
    obtain ⟨b2, hset⟩ := setItem_strings (b := { b with block := dset b.block d e }) (k := d) (l := col ++ [y]) hds ho
      (hname d (by simp)) (by simp) (by
        intro x hx
        rcases List.mem_append.mp hx with hx | hx
        · exact hgood x hx
        · simp at hx; subst hx; exact hyg)
    rw [hset]
    simp only
    have hdk' : dkeys (dset b.block d e) = dkeys b.block := by
      rw [dkeys_dset]; exact if_pos hdk
    have hfr := setItem_frame hset (show lower d ∈ dkeys (dset b.block d e) by rw [hdk', hld]; exact hdk)
    have hw2 := wf_setItem (wf_values hw _ hdk') d (.list (col ++ [y]))
    rw [hset] at hw2
    simp only at hfr
    apply ih hw2 hn.2 (fun s hs => hlow s (by simp [hs])) (fun hs => hns (by simp [hs]))
    · rw [hfr.2.2.2.1]; exact ho
    · intro s hs; rw [hfr.2.2.2.2.1, hfr.2.2.2.2.2]; exact hname s (by simp [hs])
    · intro s hs
      obtain ⟨c, h1, h2⟩ := hcol s (by simp [hs])
      have hne : s ≠ d := fun e => hn.1 (e ▸ hs)
      refine ⟨c, ?_, ?_⟩
      · rw [val_setItem hset, hld, if_neg hne]
        unfold val at h1 ⊢
        simp only [dget_dset]
        rw [if_neg (fun h => hne h.symm)]; exact h1
      · intro x hx; rw [hfr.2.2.2.2.2]; exact h2 x hx
    · intro s hs
      obtain ⟨z, h1, h2⟩ := hp s (by simp [hs])
      exact ⟨z, h1, by rw [hfr.2.2.2.2.2]; exact h2⟩

/-- C24: adding a packet of strings to a loop of strings succeeds if the block may be overwritten, the packet has a value for every
column, and the names are valid. -/
theorem C24_add_succeeds (b : Block) (hh : ShapeHistory b) (k : Str) (p : Packet) (n : Nat) (names : List Str)
    (hn : dget b.loops n = some names) (hk : lower k ∈ names) (ho : b.overwrite = true)
    (hname : ∀ s ∈ names, checkDataName b.unicode b.maxName s = .ok ())
    (hcol : ∀ s ∈ names, ∀ col, b.column s = some col → ∀ x ∈ col, GoodString b.unicode x)
    (hp : ∀ s ∈ names, ∃ y, dget p.attrs s = some y ∧ GoodString b.unicode y) :
    ∃ b', b.step (.addPacket k p) = (b', .ok ()) := by
  obtain ⟨hr, he, hrect⟩ := shape_inv b hh
  obtain ⟨hw, hf⟩ := reachable_wf hr
  have hmemk : ∀ s ∈ names, s ∈ b.keys := fun s hs => hf s (mem_allLooped.mpr ⟨n, names, dget_mem hn, hs⟩)
  have hgl : b.getLoop k = .ok n := by
    unfold getLoop; rw [findLoop_eq hw (dget_mem hn) hk]
  simp only [step, hgl, addPacket, hn]
  obtain ⟨len, h1⟩ := hrect n names (dget_mem hn)
  apply addPacketFrom_succeeds hw (loop_nodup hw.looped (dget_mem hn)) (fun s hs => hw.keysLower s (hmemk s hs))
    (fun hs => reachable_nosaves hr (hmemk _ hs)) ho hname _ hp
  intro s hs
  obtain ⟨c, h2, _⟩ := h1 s hs
  exact ⟨c, h2, hcol s hs c ((val_loop hr (hmemk s hs)).mp h2)⟩

example : letI := asciiFold
    let p : Packet := { attrs := [("_a".toList, .str "x".toList), ("_b".toList, .str "y".toList)] }
    (sample.step (.addPacket "_A".toList p)).2 = .ok () ∧
    (sample.step (.addPacket "_A".toList p)).1.column "_b".toList = some [.str "3".toList, .str "4".toList, .str "y".toList] := by decide +kernel

/-- A finding beside C24: on a locked block `AddPacket` raises, but the first column has already grown, so the loop is no longer
rectangular. -/
theorem C24_add_locked_fails : letI := asciiFold
    let p : Packet := { attrs := [("_a".toList, .str "x".toList), ("_b".toList, .str "y".toList)] }
    let b := sample.run [.configure false none false]
    (b.step (.addPacket "_A".toList p)).2 = .error .star ∧
    (b.step (.addPacket "_A".toList p)).1.column "_a".toList = some [.str "1".toList, .str "2".toList, .str "x".toList] ∧
    (b.step (.addPacket "_A".toList p)).1.column "_b".toList = some [.str "3".toList, .str "4".toList] := by decide +kernel

/-! ## C27 -/

/-- Characters permitted in data names: printable ASCII without blanks; with the CIF 2.0 character set also the Unicode scalar
values that CIF 2.0 allows. -/
def NameChar (unicode : Bool) (c : Char) : Prop :=
  (33 ≤ c.toNat ∧ c.toNat ≤ 126) ∨
  (unicode = true ∧ (160 ≤ c.toNat ∧ c.toNat ≤ 0xD7FF ∨ 0xE000 ≤ c.toNat ∧ c.toNat ≤ 0xFDCF ∨
    0xFDF0 ≤ c.toNat ∧ c.toNat ≤ 0xFFFD ∨ (0x10000 ≤ c.toNat ∧ c.toNat % 0x10000 < 0xFFFE)))

/-- A valid data name. -/
def ValidName (unicode : Bool) (maxlength : Option Nat) (name : Str) : Prop :=
  (∃ r, name = '_' :: r) ∧ (∀ m, maxlength = some m → name.length ≤ m) ∧ ∀ c ∈ name, NameChar unicode c

/-- The full statement of C27. -/
def NameCheckExact : Prop := ∀ u m name, checkDataName u m name = .ok () ↔ ValidName u m name

theorem checkDataName_iff (u : Bool) (m : Option Nat) (name : Str) :
    checkDataName u m name = .ok () ↔ (∃ r, name = '_' :: r) ∧ (∀ k, m = some k → name.length ≤ k) ∧
      ∀ c ∈ name, if u = true then 33 ≤ c.toNat ∧ ¬ (126 < c.toNat ∧ c.toNat < 160) ∧ ¬ (0xD7FF < c.toNat ∧ c.toNat < 0xE000) ∧
        ¬ (0xFDCF < c.toNat ∧ c.toNat < 0xFDF0) ∧ ¬ (c.toNat = 0xFFFE ∨ c.toNat = 0xFFFF) ∧
        ¬ (0x10000 < c.toNat ∧ c.toNat / 2 % 8 = 7) else 33 ≤ c.toNat ∧ c.toNat ≤ 126 := by
  unfold checkDataName
  have hm : ∃ t : Bool, nameTooLong m name = t ∧
      (t = true ↔ ¬ ∀ k, m = some k → name.length ≤ k) := by
    refine ⟨_, rfl, ?_⟩
    cases m with
    | none => simp [nameTooLong]
    | some k => simp [nameTooLong]
  obtain ⟨t, ht, hm⟩ := hm
  rw [ht]
  clear ht
  by_cases h1 : ∀ k, m = some k → name.length ≤ k
  · have hf : t = false := by
      cases t with
      | false => rfl
      | true => exact absurd h1 (hm.mp rfl)
    rw [hf]
    simp only [Bool.false_eq_true, if_false]
    cases name with
    | nil => simp
    | cons c r =>
      simp only
      by_cases hc : c = '_'
      · subst hc
        have hany : ∀ (q : Char → Bool) , ((('_' :: r).any q) = false) ↔ ∀ c ∈ '_' :: r, q c = false := by
          intro q; simp [List.any_eq_false]
        rw [if_neg (by simp)]
        generalize hN : '_' :: r = N
        rw [hN] at hany h1
        cases u with
        | false =>
          simp only [Bool.not_false, if_true]
          constructor
          · intro h
            split at h
            · simp at h
            · rename_i hh
              refine ⟨⟨r, hN ▸ rfl⟩, h1, fun c hc => ?_⟩
              have := (hany _).mp (by simpa only [Bool.not_eq_true] using hh) c hc
              simp at this; simp; omega
          · rintro ⟨_, _, h⟩
            rw [if_neg]
            simp only [Bool.not_eq_true]
            rw [hany]
            intro c hc
            have := h c hc
            simp at this; simp; omega
        | true =>
          simp only [Bool.not_true, Bool.false_eq_true, if_false, if_true]
          constructor
          · intro h
            split at h
            · simp at h
            split at h
            · simp at h
            split at h
            · simp at h
            split at h
            · simp at h
            split at h
            · simp at h
            split at h
            · simp at h
            rename_i a1 a2 a3 a4 a5 a6
            refine ⟨⟨r, hN ▸ rfl⟩, h1, fun c hc => ?_⟩
            have b1 := (hany _).mp (by simpa only [Bool.not_eq_true] using a1) c hc
            have b2 := (hany _).mp (by simpa only [Bool.not_eq_true] using a2) c hc
            have b3 := (hany _).mp (by simpa only [Bool.not_eq_true] using a3) c hc
            have b4 := (hany _).mp (by simpa only [Bool.not_eq_true] using a4) c hc
            have b5 := (hany _).mp (by simpa only [Bool.not_eq_true] using a5) c hc
            have b6 := (hany _).mp (by simpa only [Bool.not_eq_true] using a6) c hc
            simp at b1 b2 b3 b4 b5 b6
            refine ⟨b1, ?_, ?_, ?_, ?_, ?_⟩ <;> omega
          · rintro ⟨_, _, h⟩
            have hq : ∀ (q : Char → Bool), (∀ c ∈ N, q c = false) → ¬ (N.any q = true) := by
              intro q hq; simp only [Bool.not_eq_true]; exact (hany q).mpr hq
            rw [if_neg (hq _ fun c hc => by have := h c hc; simp; omega),
              if_neg (hq _ fun c hc => by have := h c hc; simp; omega),
              if_neg (hq _ fun c hc => by have := h c hc; simp; omega),
              if_neg (hq _ fun c hc => by have := h c hc; simp; omega),
              if_neg (hq _ fun c hc => by have := h c hc; simp; omega),
              if_neg (hq _ fun c hc => by have := h c hc; simp; omega)]
      · simp [hc]
  · rw [if_pos (hm.mpr h1)]
    simp [h1]

/-- C27 for the ASCII character set: exactly the valid names are accepted. -/
theorem C27_ascii (m : Option Nat) (name : Str) : checkDataName false m name = .ok () ↔ ValidName false m name := by
  rw [checkDataName_iff]
  unfold ValidName NameChar
  simp

/-- C27 for both character sets: only valid names are accepted. -/
theorem C27_sound (u : Bool) (m : Option Nat) (name : Str) (h : checkDataName u m name = .ok ()) : ValidName u m name := by
  rw [checkDataName_iff] at h
  obtain ⟨h1, h2, h3⟩ := h
  refine ⟨h1, h2, fun c hc => ?_⟩
  have := h3 c hc
  cases u with
  | false => left; simpa using this
  | true =>
    simp only [if_true] at this
    unfold NameChar
    simp only [true_and]
    omega

/-- C27, partial: valid names without characters beyond U+FFFF are accepted. Missing: characters beyond U+FFFF whose last
hexadecimal digit is E or F, which the code refuses, see `C27_fails`. -/
theorem C27_complete_partial (u : Bool) (m : Option Nat) (name : Str) (h : ValidName u m name)
    (hb : ∀ c ∈ name, c.toNat ≤ 0xFFFF ∨ c.toNat % 16 < 14) : checkDataName u m name = .ok () := by
  rw [checkDataName_iff]
  obtain ⟨h1, h2, h3⟩ := h
  refine ⟨h1, h2, fun c hc => ?_⟩
  have := h3 c hc
  have hb' := hb c hc
  unfold NameChar at this
  cases u with
  | false => simpa using this
  | true =>
    simp only [if_true, true_and] at this ⊢
    omega

/-- C27 is false in full: the CIF 2.0 name `_😎` (U+1F60E) is refused. -/
theorem C27_fails : ¬ NameCheckExact := by
  intro h
  have := (h true none ['_', '😎']).mpr ⟨⟨_, rfl⟩, by simp, by
    intro c hc
    simp at hc
    unfold NameChar
    rcases hc with rfl | rfl <;> decide +kernel⟩
  revert this
  decide +kernel

example : checkDataName true (some 6) "_naïve".toList = .ok () ∧ checkDataName false none "_naïve".toList = .error .star ∧
    checkDataName true (some 5) "_naïve".toList = .error .star ∧ checkDataName false none "_a b".toList = .error .star := by
  decide +kernel

end Verif.Block
