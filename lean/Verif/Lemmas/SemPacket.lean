import Verif.Spec.SemPacket
import Verif.Props.BlockPacket
import Verif.Lemmas.Validate
/-! Lemmas about packets of categories. -/
set_option linter.unusedSectionVars false
namespace Verif.SemPacket
open Block Validate
variable [CaseFold] {σ : Type}

theorem readAll_ok {h : Host σ} {s : σ} {cols : Str → List PyVal} : ∀ names : List Str, (∀ d ∈ names, h.read d s = (s, .ok (.list (cols d)))) →
    readAll h names s = (s, .ok (names.map fun d => .list (cols d)))
  | [], _ => rfl
  | d :: ds, hr => by
    simp only [readAll, hr d (by simp), readAll_ok ds fun d hd => hr d (by simp [hd]), List.map_cons]

theorem iter_ok (cols : Str → List PyVal) : ∀ names : List Str, mapE pyIter (names.map fun d => PyVal.list (cols d)) = .ok (names.map cols)
  | [] => rfl
  | d :: ds => by
    simp only [List.map_cons, mapE, pyIter, iter_ok cols ds]

/-- What is known about the names of a loop. -/
theorem Table.names {h : Host σ} {s : σ} {names : List Str} {cols : Str → List PyVal} {len : Nat} (ht : Table h s names cols len) :
    (∀ d ∈ names, lower d = d) ∧ names.Nodup := by
  obtain ⟨hw, hf⟩ := reachable_wf ht.reach
  obtain ⟨n, hn⟩ := ht.loop
  exact ⟨fun d hd => hw.keysLower d (hf d (mem_allLooped.mpr ⟨n, names, dget_mem hn, hd⟩)), loop_nodup hw.looped (dget_mem hn)⟩

/-- The packet of a row. -/
def packetOf (row : List (Str × PyVal)) : Packet := { vals := row.map (·.2), attrs := row }

/-- Row `i`. -/
def rowAt (cols : Str → List PyVal) (names : List Str) (i : Nat) : List (Str × PyVal) := names.zip (rowOf cols names i)

theorem rowAt_row {names : List Str} {cols : Str → List PyVal} {len i : Nat} (hl : ∀ d ∈ names, (cols d).length = len) (hi : i < len) (hnd : names.Nodup) :
    IsRow names cols i (rowAt cols names i) := by
  have hlen := rowOf_length hl hi
  have hk : (rowAt cols names i).map (·.1) = names := List.map_fst_zip (by omega)
  refine ⟨hk, fun d x hx => ?_⟩
  have hd : d ∈ names := by rw [← hk]; exact List.mem_map.2 ⟨_, hx, rfl⟩
  rw [← dget_zip hnd hd (rowOf_eq hl hi)]
  exact dget_of_mem (by unfold dkeys; rw [show (names.zip (rowOf cols names i)).map (·.1) = names from hk]; exact hnd) hx

theorem row_unique {names : List Str} {cols : Str → List PyVal} {i : Nat} {r r' : List (Str × PyVal)} (h : IsRow names cols i r) (h' : IsRow names cols i r') :
    r = r' := by
  obtain ⟨h1, h2⟩ := h
  obtain ⟨h3, h4⟩ := h'
  induction names generalizing r r' with
  | nil =>
    rw [List.map_eq_nil_iff.1 h1, List.map_eq_nil_iff.1 h3]
  | cons d ds ih =>
    obtain ⟨⟨d1, x⟩, r1, rfl⟩ : ∃ e t, r = e :: t := List.exists_cons_of_ne_nil (by rintro rfl; cases h1)
    obtain ⟨⟨d2, y⟩, r2, rfl⟩ : ∃ e t, r' = e :: t := List.exists_cons_of_ne_nil (by rintro rfl; cases h3)
    simp only [List.map_cons, List.cons.injEq] at h1 h3
    obtain ⟨rfl, h1⟩ := h1
    obtain ⟨rfl, h3⟩ := h3
    have e1 := h2 d2 x (by simp)
    have e2 := h4 d2 y (by simp)
    rw [e1] at e2
    injection e2 with e2
    subst e2
    rw [ih h1 (fun d x hx => h2 d x (by simp [hx])) h3 (fun d x hx => h4 d x (by simp [hx]))]

theorem mk_row {h : Host σ} {s : σ} {names : List Str} {cols : Str → List PyVal} {len i : Nat} (ht : Table h s names cols len) (hi : i < len) :
    mkPacket names (rowOf cols names i) = packetOf (rowAt cols names i) := by
  obtain ⟨hlow, hnd⟩ := ht.names
  have hlen := rowOf_length ht.length hi
  have := mkPacket_attrs hlow hnd hlen
  show Packet.mk _ _ = Packet.mk _ _
  have e : (rowAt cols names i).map (·.2) = rowOf cols names i := List.map_snd_zip (by omega)
  rw [e]
  unfold mkPacket at this
  simp only at this
  rw [this]
  rfl

theorem packets_table {h : Host σ} {s : σ} {names : List Str} {cols : Str → List PyVal} {len n : Nat} (ht : Table h s names cols len)
    (hn : dget (h.block s).loops n = some names) (hne : names ≠ []) :
    packets h n s = (s, .ok ((List.range len).map fun i => packetOf (rowAt cols names i))) := by
  unfold packets
  simp only [hn, readAll_ok names ht.read, iter_ok]
  rw [zipRows_eq _ (names.map cols) len (by simpa using hne)]
  · simp only [List.map_map]
    congr 2
    apply List.map_congr_left
    intro i hi
    rw [← mk_row ht (List.mem_range.1 hi)]
    simp only [Function.comp, rowOf, List.filterMap_map]
    rfl
  · intro c hc'
    obtain ⟨d, h1, rfl⟩ := List.mem_map.mp hc'
    exact ht.length d h1
  · obtain ⟨d, r, rfl⟩ := List.exists_cons_of_ne_nil hne
    unfold maxLen
    apply le_foldl_max'
    left
    simp [ht.length d (by simp)]

theorem getLoop_table {h : Host σ} {s : σ} {names : List Str} {cols : Str → List PyVal} {len : Nat} (ht : Table h s names cols len) {k : Str}
    (hk : lower k ∈ names) : ∃ n, dget (h.block s).loops n = some names ∧ (h.block s).getLoop k = .ok n := by
  obtain ⟨hw, hf⟩ := reachable_wf ht.reach
  obtain ⟨n, hn⟩ := ht.loop
  refine ⟨n, hn, ?_⟩
  unfold getLoop
  rw [findLoop_eq hw (dget_mem hn) hk]

theorem getLoop_unlooped {h : Host σ} {s : σ} {k : Str} (hu : Unlooped h s k) : (h.block s).getLoop k = .error .key := by
  unfold getLoop
  rw [show (h.block s).findLoop k = none by
    cases he : (h.block s).findLoop k with
    | none => rfl
    | some n =>
      obtain ⟨l, h1, h2⟩ := findLoop_some he
      exact absurd h2 (hu _ h1)]

theorem keyed_unlooped {h : Host σ} {s : σ} {k : Str} (hu : Unlooped h s k) (v : PyVal) (nc : Bool) : keyedPacket h k v nc s = (s, .error .key) := by
  unfold keyedPacket
  rw [getLoop_unlooped hu]

/-! ## One key -/

theorem sameKey_iff {nc : Bool} {x y : PyVal} : SameKey nc x y ↔ Same nc x y := by
  unfold SameKey Same
  cases nc <;> simp

theorem row_attr {names : List Str} {cols : Str → List PyVal} {i : Nat} {row : List (Str × PyVal)} (hr : IsRow names cols i row) (hnd : names.Nodup)
    (hlow : ∀ d ∈ names, lower d = d) {k : Str} (hk : lower k ∈ names) : ∃ x, (cols (lower k))[i]? = some x ∧ (packetOf row).attr k = .ok x := by
  obtain ⟨h1, h2⟩ := hr
  have hk' := hk
  rw [← h1] at hk'
  obtain ⟨⟨d, x⟩, hx, e⟩ := List.mem_map.1 hk'
  simp only at e
  subst e
  have hg : dget row (lower k) = some x := dget_of_mem (by unfold dkeys; rw [h1]; exact hnd) hx
  refine ⟨x, h2 _ _ hx, ?_⟩
  unfold Packet.attr packetOf
  simp only
  cases hd : dget row k with
  | none => simp only [hg]
  | some w =>
    have hin : k ∈ names := by
      rw [← h1]
      exact List.mem_map.2 ⟨_, dget_mem hd, rfl⟩
    rw [hlow k hin, hd] at hg
    injection hg with hg
    simp only [hg]

/-- The rows of a table, and what is found in them. -/
theorem table_rows {h : Host σ} {s : σ} {names : List Str} {cols : Str → List PyVal} {len : Nat} (ht : Table h s names cols len) :
    ∀ i p, ((List.range len).map fun i => packetOf (rowAt cols names i))[i]? = some p →
      ∃ row, IsRow names cols i row ∧ p = packetOf row ∧ i < len := by
  intro i p hp
  simp only [List.getElem?_map, Option.map_eq_some_iff] at hp
  obtain ⟨j, h1, rfl⟩ := hp
  have hi : i < len := by
    by_cases h : i < len
    · exact h
    · rw [List.getElem?_eq_none (by simp; omega)] at h1; cases h1
  rw [List.getElem?_range hi] at h1
  injection h1 with h1
  subst h1
  exact ⟨_, rowAt_row ht.length hi ht.names.2, rfl, hi⟩

theorem rows_get {h : Host σ} {s : σ} {names : List Str} {cols : Str → List PyVal} {len i : Nat} (ht : Table h s names cols len) {row : List (Str × PyVal)}
    (hr : IsRow names cols i row) (hi : i < len) : ((List.range len).map fun i => packetOf (rowAt cols names i))[i]? = some (packetOf row) := by
  simp only [List.getElem?_map, List.getElem?_range hi, Option.map_some]
  rw [row_unique (rowAt_row ht.length hi ht.names.2) hr]

theorem only_ok {L : List Packet} {p : Packet} : only L = .ok p ↔ L = [p] := by
  match L with
  | [] => simp [only]
  | [a] => simp [only]
  | a :: b :: r => simp [only]

theorem only_error {L : List Packet} (h : ∀ p, L ≠ [p]) : only L = .error .value := by
  match L with
  | [] => rfl
  | [a] => exact absurd rfl (h a)
  | a :: b :: r => rfl

/-- Looking for a key value in the loop of the key. -/
theorem keyed_table {h : Host σ} {s : σ} {names : List Str} {cols : Str → List PyVal} {len : Nat} (ht : Table h s names cols len) {k : Str}
    (hk : lower k ∈ names) {v : PyVal} {nc : Bool} (hc : Comparable nc (cols (lower k)) v) :
    ∃ L, keyedPacket h k v nc s = (s, only L) ∧ ∀ p, L = [p] ↔ ∃ i, (∃ x, (cols (lower k))[i]? = some x ∧ Same nc x v) ∧
      (∀ (j : Nat) x, (cols (lower k))[j]? = some x → Same nc x v → j = i) ∧ ∃ row, IsRow names cols i row ∧ p = packetOf row := by
  obtain ⟨n, hn, hg⟩ := getLoop_table ht hk
  obtain ⟨hlow, hnd⟩ := ht.names
  have hlen := ht.length _ hk
  have hps := packets_table ht hn (by rintro rfl; cases hk)
  let q : Nat → Bool := fun i => match (cols (lower k))[i]? with | some x => sameKeyB nc x v | none => false
  have hq : ∀ i, q i = true ↔ ∃ x, (cols (lower k))[i]? = some x ∧ Same nc x v := by
    intro i
    simp only [q]
    cases (cols (lower k))[i]? with
    | none => simp
    | some x => simp [sameKeyB_iff, sameKey_iff]
  obtain ⟨L, hL, hiff⟩ := keyed_core (q := q) (f := keyMatches k v nc) (ps := (List.range len).map fun i => packetOf (rowAt cols names i)) (by
    intro i p hp
    obtain ⟨row, h1, rfl, hi⟩ := table_rows ht i p hp
    obtain ⟨x, h2, h3⟩ := row_attr h1 hnd hlow hk
    rw [keyMatches_row h3 (fun e => ⟨hc e v (by simp), hc e x (List.mem_cons_of_mem _ (List.mem_of_getElem? h2))⟩)]
    simp only [q, h2])
  refine ⟨L, ?_, fun p => (hiff p).trans ⟨?_, ?_⟩⟩
  · unfold keyedPacket
    simp only [hg, hps, hL]
  · rintro ⟨i, h1, h2, h3⟩
    obtain ⟨row, h4, h5, h6⟩ := table_rows ht i p h1
    refine ⟨i, (hq i).1 h2, fun j x hx hs => h3 j ?_ ((hq j).2 ⟨x, hx, hs⟩), row, h4, h5⟩
    rw [List.length_map, List.length_range, ← hlen]
    exact (List.getElem?_eq_some_iff.mp hx).1
  · rintro ⟨i, ⟨x, h1, h2⟩, h3, row, h4, rfl⟩
    have hi : i < len := by rw [← hlen]; exact (List.getElem?_eq_some_iff.mp h1).1
    refine ⟨i, rows_get ht h4 hi, (hq i).2 ⟨x, h1, h2⟩, fun j _ hj => ?_⟩
    obtain ⟨y, g1, g2⟩ := (hq j).1 hj
    exact h3 j y g1 g2

theorem keyed_row {h : Host σ} {s : σ} {k : Str} {v : PyVal} {nc : Bool} {row : List (Str × PyVal)} (hr : TheRow h s k v nc row) :
    keyedPacket h k v nc s = (s, .ok (packetOf row)) := by
  obtain ⟨names, cols, len, i, ht, hk, hc, h1, h2, h3⟩ := hr
  obtain ⟨L, e, hL⟩ := keyed_table ht hk hc
  rw [e, only_ok.2 ((hL _).2 ⟨i, h1, h2, row, h3, rfl⟩)]

theorem keyed_none {h : Host σ} {s : σ} {k : Str} {v : PyVal} {nc : Bool} (hr : NotOneRow h s k v nc) :
    keyedPacket h k v nc s = (s, .error .value) := by
  obtain ⟨names, cols, len, ht, hk, hc, hno⟩ := hr
  obtain ⟨L, e, hL⟩ := keyed_table ht hk hc
  rw [e, only_error fun p hp => ?_]
  obtain ⟨i, h1, h2, _⟩ := (hL p).1 hp
  exact hno ⟨i, h1, h2⟩

/-! ## Several keys -/

/-- `SameText` as a test. -/
def sameTextB (nc : Bool) (x y : PyVal) : Bool :=
  if nc then match strOf x, strOf y with
    | .str s, .str t => decide (lower s = lower t)
    | a, b => decide (a = b)
  else decide (x = y)

theorem strOf_written {x : PyVal} {t : Str} (h : Written x t) : strOf x = .str t := by
  cases h <;> rfl

theorem sameTextB_iff {nc : Bool} {x y : PyVal} (hx : nc = true → ∃ s, Written x s) (hy : nc = true → ∃ s, Written y s) :
    sameTextB nc x y = true ↔ SameText nc x y := by
  unfold sameTextB SameText
  cases nc with
  | false => simp
  | true =>
    obtain ⟨s, hs⟩ := hx rfl
    obtain ⟨t, ht⟩ := hy rfl
    simp only [if_true, strOf_written hs, strOf_written ht, decide_eq_true_eq, Bool.true_eq_false, false_and, true_and, false_or]
    constructor
    · intro h
      exact ⟨s, t, hs, ht, h⟩
    · rintro ⟨s', t', h1, h2, h3⟩
      have e1 := strOf_written h1
      have e2 := strOf_written h2
      rw [strOf_written hs] at e1
      rw [strOf_written ht] at e2
      injection e1 with e1
      injection e2 with e2
      rw [e1, e2]
      exact h3

theorem keyMatches2_eq {k : Str} {v x : PyVal} {nc : Bool} {p : Packet} (h : p.attr k = .ok x) : keyMatches2 k v nc p = .ok (sameTextB nc x v) := by
  unfold keyMatches2 sameTextB
  rw [h]
  cases nc with
  | false => rfl
  | true =>
    simp only [if_true]
    cases strOf x <;> cases strOf v <;> rfl

theorem filterKeys_ok {g : Str × PyVal × Bool → Packet → Bool} : ∀ (l : List (Str × PyVal × Bool)) (ps : List Packet),
    (∀ e ∈ l, ∀ p ∈ ps, keyMatches2 e.1 e.2.1 e.2.2 p = .ok (g e p)) → filterKeys ps l = .ok (ps.filter fun p => l.all fun e => g e p)
  | [], ps, _ => by simp only [filterKeys, List.all_nil]; rw [List.filter_eq_self.mpr (fun _ _ => rfl)]
  | (k, v, nc) :: r, ps, h => by
    unfold filterKeys
    rw [Block.filterE_ok (t := g (k, v, nc)) fun p hp => h (k, v, nc) (by simp) p hp]
    simp only
    rw [filterKeys_ok r _ fun e he p hp => h e (by simp [he]) p (List.mem_filter.mp hp).1, List.filter_filter]
    congr 1
    apply List.filter_congr
    intro p _
    simp [Bool.and_comm]

/-- Looking for the values of several keys. -/
theorem compound_table {h : Host σ} {s : σ} {kd : List (Str × PyVal × Bool)} {names : List Str} {cols : Str → List PyVal} {len : Nat}
    (hT : KeyedTable h s kd names cols len) :
    ∃ L, compoundPacket h kd s = (s, only L) ∧ ∀ p, L = [p] ↔ ∃ i, Hit cols kd i ∧ (∀ j, Hit cols kd j → j = i) ∧
      ∃ row, IsRow names cols i row ∧ p = packetOf row := by
  have ht := hT.table
  obtain ⟨⟨k0, v0, nc0⟩, kr, hkd⟩ := List.exists_cons_of_ne_nil hT.some_key
  have hk0 : lower k0 ∈ names := hT.keys (k0, v0, nc0) (by rw [hkd]; simp)
  obtain ⟨n, hn, hg⟩ := getLoop_table ht hk0
  obtain ⟨hlow, hnd⟩ := ht.names
  have hps := packets_table ht hn (by rintro e; rw [e] at hk0; cases hk0)
  let ps := (List.range len).map fun i => packetOf (rowAt cols names i)
  let g : Str × PyVal × Bool → Packet → Bool := fun e p => match keyMatches2 e.1 e.2.1 e.2.2 p with | .ok r => r | .error _ => false
  let qt : Str × PyVal × Bool → Nat → Bool := fun e i => match (cols (lower e.1))[i]? with | some x => sameTextB e.2.2 x e.2.1 | none => false
  have hmatch : ∀ e ∈ kd, ∀ i p, ps[i]? = some p → keyMatches2 e.1 e.2.1 e.2.2 p = .ok (qt e i) := by
    intro e he i p hp
    obtain ⟨row, h1, rfl, hi⟩ := table_rows ht i p hp
    obtain ⟨x, h2, h3⟩ := row_attr h1 hnd hlow (hT.keys e he)
    rw [keyMatches2_eq h3]
    simp only [qt, h2]
  have hF := filterKeys_ok (g := g) kd ps (by
    intro e he p hp
    obtain ⟨i, hi⟩ := List.mem_iff_getElem?.mp hp
    simp only [g, hmatch e he i p hi])
  have hu := fun p => unique_row (ps := ps) (q := fun i => kd.all fun e => qt e i) (f := fun p => kd.all fun e => g e p) (by
    intro i p hp
    have : ∀ l : List (Str × PyVal × Bool), (∀ e ∈ l, e ∈ kd) → (l.all fun e => g e p) = l.all fun e => qt e i := by
      intro l
      induction l with
      | nil => intro _; rfl
      | cons e r ih =>
        intro hl
        simp only [List.all_cons]
        rw [ih fun e he => hl e (by simp [he])]
        congr 1
        simp only [g, hmatch e (hl e (by simp)) i p hp]
    exact this kd fun e he => he) p
  have hq : ∀ i, (kd.all fun e => qt e i) = true ↔ Hit cols kd i := by
    intro i
    rw [List.all_eq_true]
    constructor
    · intro hh e he
      have := hh e he
      simp only [qt] at this
      cases hc : (cols (lower e.1))[i]? with
      | none => rw [hc] at this; simp at this
      | some x =>
        rw [hc] at this
        exact ⟨x, rfl, (sameTextB_iff (fun hnc => hT.written e he hnc x (List.mem_cons_of_mem _ (List.mem_of_getElem? hc)))
          fun hnc => hT.written e he hnc _ (by simp)).1 this⟩
    · intro hh e he
      obtain ⟨x, g1, g2⟩ := hh e he
      simp only [qt, g1]
      exact (sameTextB_iff (fun hnc => hT.written e he hnc x (List.mem_cons_of_mem _ (List.mem_of_getElem? g1)))
          fun hnc => hT.written e he hnc _ (by simp)).2 g2
  refine ⟨ps.filter fun p => kd.all fun e => g e p, ?_, fun p => (hu p).trans ⟨?_, ?_⟩⟩
  · subst hkd
    unfold compoundPacket
    simp only [hg, hps]
    simp only [ps] at hF
    simp only [hF, ps]
  · rintro ⟨i, h1, h2, h3⟩
    obtain ⟨row, h4, h5, h6⟩ := table_rows ht i p h1
    refine ⟨i, (hq i).1 h2, fun j hj => h3 j ?_ ((hq j).2 hj), row, h4, h5⟩
    obtain ⟨x, hx, _⟩ := hj (k0, v0, nc0) (by rw [hkd]; simp)
    simp only [ps, List.length_map, List.length_range]
    rw [← ht.length _ hk0]
    exact (List.getElem?_eq_some_iff.mp hx).1
  · rintro ⟨i, h1, h3, row, h4, rfl⟩
    obtain ⟨x, hx, _⟩ := h1 (k0, v0, nc0) (by rw [hkd]; simp)
    have hi : i < len := by rw [← ht.length _ hk0]; exact (List.getElem?_eq_some_iff.mp hx).1
    exact ⟨i, rows_get ht h4 hi, (hq i).2 h1, fun j _ hj => h3 j ((hq j).1 hj)⟩

/-! ## Merging -/

theorem mergeable_plain {d : Str} (h : PlainName d) : mergeable d = .ok true := by
  obtain ⟨c, t, rfl, hc⟩ := h
  simp [mergeable, hc]

theorem dget_copyAttr {from_ to : Dict Str PyVal} (d n : Str) :
    dget (copyAttr from_ to n) d = if d = n then (dget from_ d).orElse (fun _ => dget to d) else dget to d := by
  unfold copyAttr
  by_cases hd : d = n
  · subst hd
    cases hg : dget from_ d with
    | none => simp
    | some v => simp [dget_dset]
  · cases hg : dget from_ n with
    | none => simp [hd]
    | some v => simp [dget_dset, hd, show n ≠ d from fun h => hd h.symm]

theorem dget_copy {from_ : Dict Str PyVal} (d : Str) : ∀ (names : List Str) (to : Dict Str PyVal),
    dget (copyAttrs from_ names to) d = if d ∈ names then (dget from_ d).orElse (fun _ => dget to d) else dget to d
  | [], to => by simp [copyAttrs]
  | n :: r, to => by
    have ih := dget_copy (from_ := from_) d r (copyAttr from_ to n)
    unfold copyAttrs at ih ⊢
    rw [List.foldl_cons, ih, dget_copyAttr]
    by_cases hd : d = n
    · subst hd
      simp only [List.mem_cons, true_or, if_true]
      split
      · cases hg : dget from_ d with
        | none => simp
        | some v => simp
      · rfl
    · simp [hd]

theorem merge_row {row : List (Str × PyVal)} (hp : ∀ d ∈ row.map (·.1), PlainName d) (p : Packet) :
    ∃ p', mergePacket p (packetOf row) = .ok p' ∧ p'.vals = p.vals ++ row.map (·.2) ∧
      ∀ d, dget p'.attrs d = (dget row d).orElse fun _ => dget p.attrs d := by
  refine ⟨{ vals := p.vals ++ row.map (·.2), attrs := copyAttrs row (dkeys row) p.attrs }, ?_, rfl, ?_⟩
  · unfold mergePacket packetOf
    simp only
    rw [show select mergeable (dkeys row) = .ok (dkeys row) by
      rw [select_ok (p := fun _ => true) (l := dkeys row) fun a ha => mergeable_plain (hp a ha), List.filter_eq_self.2 fun _ _ => rfl]]
  · intro d
    simp only
    rw [dget_copy]
    split
    · rfl
    · rename_i hd
      rw [dget_eq_none.2 hd]
      rfl

/-! ## The rows of all keys -/

theorem useful_iff {v : PyVal} : useful v = true ↔ Usable v := by
  cases v <;> simp [useful, Usable, and_comm]

/-- What is known of the packet after the rows. -/
structure Merged (rows : List (List (Str × PyVal))) (p p' : Packet) : Prop where
  vals : p'.vals = p.vals ++ rows.flatMap fun r => r.map (·.2)
  attrs : ∀ d, (∃ x, Latest rows d x ∧ dget p'.attrs d = some x) ∨ ((∀ r ∈ rows, d ∉ r.map (·.1)) ∧ dget p'.attrs d = dget p.attrs d)

theorem Merged.nil (p : Packet) : Merged [] p p := ⟨by simp, fun d => .inr ⟨by simp, rfl⟩⟩

theorem Merged.cons {row : List (Str × PyVal)} {rows : List (List (Str × PyVal))} {p p1 p' : Packet} (hv : p1.vals = p.vals ++ row.map (·.2))
    (ha : ∀ d, dget p1.attrs d = (dget row d).orElse fun _ => dget p.attrs d) (hm : Merged rows p1 p') : Merged (row :: rows) p p' := by
  refine ⟨by rw [hm.vals, hv]; simp, fun d => ?_⟩
  rcases hm.attrs d with ⟨x, ⟨pre, r, post, e, h1, h2⟩, h3⟩ | ⟨h1, h2⟩
  · exact .inl ⟨x, ⟨row :: pre, r, post, by rw [e]; rfl, h1, h2⟩, h3⟩
  · rw [ha] at h2
    cases hg : dget row d with
    | none =>
      rw [hg] at h2
      refine .inr ⟨?_, h2⟩
      intro r hr
      rcases List.mem_cons.1 hr with rfl | hr
      · exact dget_eq_none.1 hg
      · exact h1 r hr
    | some x =>
      rw [hg] at h2
      exact .inl ⟨x, ⟨[], row, rows, rfl, dget_mem hg, h1⟩, h2⟩

theorem gather_ok {h : Host σ} {v : PyVal} {nc : Bool} {keys : List Str} {s s' : σ} {rows : List (List (Str × PyVal))} (hr : Rows h v nc keys s rows s') :
    (∀ r ∈ rows, ∀ d ∈ r.map (·.1), PlainName d) → ∀ p last, ∃ p', gather h v nc (keys.map .str) p last s = (s', .ok p') ∧ Merged rows p p' := by
  induction hr with
  | done => exact fun _ p _ => ⟨p, rfl, .nil p⟩
  | @row k ks s row rows s' ht _ ih =>
    intro hp p last
    obtain ⟨p1, e1, h1, h2⟩ := merge_row (hp row (by simp)) p
    obtain ⟨p', e2, h3⟩ := ih (fun r hr => hp r (by simp [hr])) p1 (some (packetOf row))
    refine ⟨p', ?_, .cons h1 h2 h3⟩
    simp only [List.map_cons, gather, asText, keyed_row ht, e1, e2]
  | skip ht _ ih =>
    intro hp p last
    obtain ⟨p', e2, h3⟩ := ih hp p last
    refine ⟨p', ?_, h3⟩
    simp only [List.map_cons, gather, asText, keyed_none ht, e2]
  | lost hu he _ ih =>
    intro hp p last
    obtain ⟨p', e2, h3⟩ := ih hp p last
    refine ⟨p', ?_, h3⟩
    simp only [List.map_cons, gather, asText, keyed_unlooped hu, he, e2]
  | @made k ks s s1 t row rows s' hu he ht hrow _ ih =>
    intro hp p last
    obtain ⟨p1, e1, h1, h2⟩ := merge_row (hp row (by simp)) p
    obtain ⟨p', e2, h3⟩ := ih (fun r hr => hp r (by simp [hr])) p1 (some (packetOf row))
    refine ⟨p', ?_, .cons h1 h2 h3⟩
    simp only [List.map_cons, gather, asText, keyed_unlooped hu, he, useful_iff.2 ht, if_true, keyed_row hrow, e1, e2]
  | idle hu he ht hno _ ih =>
    intro hp p last
    obtain ⟨p', e2, h3⟩ := ih hp p last
    refine ⟨p', ?_, h3⟩
    rcases hno with hno | hno
    · simp only [List.map_cons, gather, asText, keyed_unlooped hu, he, useful_iff.2 ht, if_true, keyed_unlooped hno, e2]
    · simp only [List.map_cons, gather, asText, keyed_unlooped hu, he, useful_iff.2 ht, if_true, keyed_none hno, e2]

/-- Names in the rows are in lower case. -/
theorem Rows.low {h : Host σ} {v : PyVal} {nc : Bool} {keys : List Str} {s s' : σ} {rows : List (List (Str × PyVal))} (hr : Rows h v nc keys s rows s') :
    ∀ r ∈ rows, ∀ d ∈ r.map (·.1), lower d = d := by
  have one {s k row} (ht : TheRow h s k v nc row) : ∀ d ∈ row.map (·.1), lower d = d := by
    obtain ⟨names, cols, len, i, ht, _, _, _, _, h3⟩ := ht
    rw [h3.1]
    exact ht.names.1
  induction hr with
  | done => simp
  | row ht _ ih =>
    intro r hr
    rcases List.mem_cons.1 hr with rfl | hr
    · exact one ht
    · exact ih r hr
  | skip ht _ ih => exact ih
  | lost _ _ _ ih => exact ih
  | made _ _ _ ht _ ih =>
    intro r hr
    rcases List.mem_cons.1 hr with rfl | hr
    · exact one ht
    · exact ih r hr
  | idle _ _ _ _ _ ih => exact ih

/-- Each row has a key. -/
theorem Rows.keyed {h : Host σ} {v : PyVal} {nc : Bool} {keys : List Str} {s s' : σ} {rows : List (List (Str × PyVal))} (hr : Rows h v nc keys s rows s') :
    ∀ r ∈ rows, ∃ k ∈ keys, lower k ∈ r.map (·.1) := by
  have one {s k row} (ht : TheRow h s k v nc row) : lower k ∈ row.map (·.1) := by
    obtain ⟨names, cols, len, i, ht, hk, _, _, _, h3⟩ := ht
    rw [h3.1]
    exact hk
  induction hr with
  | done => simp
  | row ht _ ih =>
    intro r hr
    rcases List.mem_cons.1 hr with rfl | hr
    · exact ⟨_, by simp, one ht⟩
    · obtain ⟨k, h1, h2⟩ := ih r hr
      exact ⟨k, by simp [h1], h2⟩
  | skip ht _ ih =>
    intro r hr
    obtain ⟨k, h1, h2⟩ := ih r hr
    exact ⟨k, by simp [h1], h2⟩
  | lost _ _ _ ih =>
    intro r hr
    obtain ⟨k, h1, h2⟩ := ih r hr
    exact ⟨k, by simp [h1], h2⟩
  | made _ _ _ ht _ ih =>
    intro r hr
    rcases List.mem_cons.1 hr with rfl | hr
    · exact ⟨_, by simp, one ht⟩
    · obtain ⟨k, h1, h2⟩ := ih r hr
      exact ⟨k, by simp [h1], h2⟩
  | idle _ _ _ _ _ ih =>
    intro r hr
    obtain ⟨k, h1, h2⟩ := ih r hr
    exact ⟨k, by simp [h1], h2⟩

/-- Attributes of the packet made of the rows. -/
theorem Merged.attr {rows : List (List (Str × PyVal))} {p : Packet} (hm : Merged rows {} p) (hl : ∀ r ∈ rows, ∀ d ∈ r.map (·.1), lower d = d) (a : Str) :
    (∃ x, Latest rows (lower a) x ∧ p.attr a = .ok x) ∨ ((∀ r ∈ rows, lower a ∉ r.map (·.1)) ∧ p.attr a = .error .attribute) := by
  have exact_ : ∀ x, dget p.attrs a = some x → dget p.attrs (lower a) = some x := by
    intro x hx
    rcases hm.attrs a with ⟨y, ⟨pre, r, post, e, h1, h2⟩, h3⟩ | ⟨_, h2⟩
    · rw [hl r (by rw [e]; simp) a (List.mem_map.2 ⟨_, h1, rfl⟩)]
      exact hx
    · rw [hx] at h2
      cases h2
  have e : p.attr a = match dget p.attrs (lower a) with | some v => .ok v | none => .error .attribute := by
    unfold Packet.attr
    cases hd : dget p.attrs a with
    | none => rfl
    | some x => simp only [exact_ x hd]
  rw [e]
  rcases hm.attrs (lower a) with ⟨x, h1, h2⟩ | ⟨h1, h2⟩
  · exact .inl ⟨x, h1, by simp only [h2]⟩
  · refine .inr ⟨h1, ?_⟩
    rw [h2]
    rfl

end Verif.SemPacket
