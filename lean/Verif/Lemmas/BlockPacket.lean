import Verif.Lemmas.BlockShape
/-! Lemmas about packets. -/
set_option linter.unusedSectionVars false
namespace Verif.Block
variable [CaseFold]

theorem dset_new {α β : Type} [DecidableEq α] {d : Dict α β} {k : α} (v : β) (h : k ∉ dkeys d) : dset d k v = d ++ [(k, v)] := by
  induction d with
  | nil => rfl
  | cons p r ih =>
    obtain ⟨a, c⟩ := p
    simp [dkeys] at h
    simp only [dset]
    rw [if_neg (fun e => h.1 e.symm), ih (by simpa [dkeys] using h.2)]
    rfl

theorem foldl_dset_new {α β : Type} [DecidableEq α] (l d : Dict α β) (h : (dkeys d ++ dkeys l).Nodup) :
    l.foldl (fun d p => dset d p.1 p.2) d = d ++ l := by
  induction l generalizing d with
  | nil => simp
  | cons p r ih =>
    have h0 : p.1 ∉ dkeys d := by
      intro hp
      rw [List.nodup_append] at h
      exact h.2.2 _ hp p.1 (by simp [dkeys]) rfl
    rw [List.foldl_cons, dset_new _ h0, ih]
    · simp
    · simpa [dkeys] using h

/-- The value of each name in row `i`. -/
def rowOf (cols : Str → List PyVal) (names : List Str) (i : Nat) : List PyVal := names.filterMap fun s => (cols s)[i]?

theorem rowOf_eq {cols : Str → List PyVal} {names : List Str} {len i : Nat} (hl : ∀ s ∈ names, (cols s).length = len) (hi : i < len) :
    (rowOf cols names i).map some = names.map fun s => (cols s)[i]? := by
  induction names with
  | nil => rfl
  | cons s r ih =>
    have h1 : i < (cols s).length := by rw [hl s (by simp)]; exact hi
    simp only [rowOf, List.filterMap_cons, List.getElem?_eq_getElem h1, List.map_cons]
    rw [← ih (fun s hs => hl s (by simp [hs]))]
    rfl

theorem rowOf_length {cols : Str → List PyVal} {names : List Str} {len i : Nat} (hl : ∀ s ∈ names, (cols s).length = len) (hi : i < len) :
    (rowOf cols names i).length = names.length := by
  have := congrArg List.length (rowOf_eq hl hi)
  simpa using this

theorem zipRows_eq (f : Nat) (cols : List (List PyVal)) (len : Nat) (hne : cols ≠ []) (hl : ∀ c ∈ cols, c.length = len) (hf : len ≤ f) :
    zipRows f cols = (List.range len).map fun i => cols.filterMap (·[i]?) := by
  induction f generalizing cols len with
  | zero =>
    have : len = 0 := by omega
    subst this; rfl
  | succ f ih =>
    simp only [zipRows]
    cases len with
    | zero =>
      rw [if_pos]
      · rfl
      · right
        obtain ⟨c, r, rfl⟩ := List.exists_cons_of_ne_nil hne
        have := hl c (by simp)
        simp [List.length_eq_zero_iff.mp this]
    | succ len =>
      rw [if_neg]
      · rw [List.range_succ_eq_map, List.map_cons, List.map_map, ih (cols.map List.tail) len (by simpa using hne) _ (by omega)]
        · congr 1
          · congr 1; funext c; cases c <;> rfl
          · apply List.map_congr_left
            intro i _
            simp only [Function.comp]
            rw [List.filterMap_map]
            congr 1; funext c
            simp only [Function.comp]
            cases c <;> simp
        · intro c hc
          obtain ⟨c', h1, rfl⟩ := List.mem_map.mp hc
          rw [List.length_tail, hl c' h1]; rfl
      · rintro (h | h)
        · exact hne h
        · obtain ⟨c, h1, h2⟩ := List.any_eq_true.mp h
          have := hl c h1
          simp at h2; subst h2; simp at this

theorem le_foldl_max' (l : List Nat) (a x : Nat) (h : x ∈ l ∨ x ≤ a) : x ≤ l.foldl max a := by
  induction l generalizing a with
  | nil => rcases h with h | h; (simp at h); exact h
  | cons y r ih =>
    rw [List.foldl_cons]
    apply ih
    rcases h with h | h
    · rcases List.mem_cons.mp h with rfl | h
      · right; omega
      · exact Or.inl h
    · right; omega

theorem getColumns_eq {b : Block} {names : List Str} {cols : Str → List PyVal}
    (hc : ∀ s ∈ names, b.getItem s = .ok (.list (cols s))) : b.getColumns names = .ok (names.map cols) := by
  induction names with
  | nil => rfl
  | cons s r ih =>
    simp only [getColumns, hc s (by simp), ih (fun s hs => hc s (by simp [hs])), pyIter, List.map_cons]

theorem packets_eq {b : Block} {n : Nat} {names : List Str} {cols : Str → List PyVal} {len : Nat}
    (hn : dget b.loops n = some names) (hne : names ≠ [])
    (hc : ∀ s ∈ names, b.getItem s = .ok (.list (cols s))) (hl : ∀ s ∈ names, (cols s).length = len) :
    b.packets n = .ok ((List.range len).map fun i => mkPacket names (rowOf cols names i)) := by
  unfold packets
  simp only [hn, getColumns_eq hc]
  rw [zipRows_eq _ (names.map cols) len (by simpa using hne)]
  · simp only [List.map_map, Except.ok.injEq]
    apply List.map_congr_left
    intro i _
    simp only [Function.comp, rowOf, List.filterMap_map]
    rfl
  · intro c hc'
    obtain ⟨s, h1, rfl⟩ := List.mem_map.mp hc'
    exact hl s h1
  · obtain ⟨s, r, rfl⟩ := List.exists_cons_of_ne_nil hne
    unfold maxLen
    apply le_foldl_max'
    left
    simp [hl s (by simp)]

theorem mkPacket_attrs {names : List Str} {row : List PyVal} (hlow : ∀ s ∈ names, lower s = s) (hnd : names.Nodup)
    (hlen : row.length = names.length) : (mkPacket names row).attrs = names.zip row := by
  unfold mkPacket
  simp only
  have h1 : ∀ (l d : Dict Str PyVal), (∀ p ∈ l, lower p.1 = p.1) →
      l.foldl (fun d p => dset d (lower p.1) p.2) d = l.foldl (fun d p => dset d p.1 p.2) d := by
    intro l
    induction l with
    | nil => intro d _; rfl
    | cons p r ih =>
      intro d h
      rw [List.foldl_cons, List.foldl_cons, h p (by simp), ih _ (fun q hq => h q (by simp [hq]))]
  have h2 : dkeys (names.zip row) = names := by
    unfold dkeys; rw [List.map_fst_zip (by omega)]
  rw [h1, foldl_dset_new]
  · rfl
  · rw [h2]; simpa [dkeys] using hnd
  · intro p hp
    exact hlow _ (by rw [← h2]; exact List.mem_map.mpr ⟨p, hp, rfl⟩)

theorem getPacketFrom_ok {b : Block} {ds : List Str} {p : Packet} {cols : Str → List PyVal} {i : Int} {row : List PyVal}
    (hc : ∀ s ∈ ds, b.getItem s = .ok (.list (cols s))) (hrow : row.map some = ds.map fun s => pyIndex (cols s) i)
    (hnd : (dkeys p.attrs ++ ds).Nodup) :
    b.getPacketFrom i ds p = .ok { vals := p.vals ++ row, attrs := p.attrs ++ ds.zip row } := by
  induction ds generalizing p row with
  | nil =>
    have : row = [] := by simpa using hrow
    subst this; simp [getPacketFrom]
  | cons d r ih =>
    cases row with
    | nil => simp at hrow
    | cons x row =>
      simp only [List.map_cons, List.cons.injEq] at hrow
      unfold getPacketFrom
      simp only [hc d (by simp), pyItem, ← hrow.1]
      have hd : d ∉ dkeys p.attrs := by
        rw [List.nodup_append] at hnd
        exact fun h => hnd.2.2 _ h d (by simp) rfl
      rw [dset_new _ hd, ih (fun s hs => hc s (by simp [hs])) hrow.2 (by simpa [dkeys] using hnd)]
      simp

/-- The place a Python index refers to in a list of length `len`. -/
def pyPos (len : Nat) (i : Int) : Option Nat :=
  if 0 ≤ i then (if i.toNat < len then some i.toNat else none)
  else if -(len : Int) ≤ i then some (i + len).toNat else none

theorem pyPos_lt {len : Nat} {i : Int} {j : Nat} (h : pyPos len i = some j) : j < len := by
  unfold pyPos at h
  split at h
  · split at h
    · simp at h; omega
    · simp at h
  · split at h
    · simp at h; omega
    · simp at h

theorem pyIndex_pos {α : Type} (l : List α) (i : Int) : pyIndex l i = (pyPos l.length i).bind (l[·]?) := by
  unfold pyIndex pyPos
  split
  · split
    · rfl
    · rename_i h; simp; omega
  · split <;> rfl

theorem getPacketFrom_err {b : Block} {ds : List Str} {p : Packet} {cols : Str → List PyVal} {i : Int}
    (hne : ds ≠ []) (hc : ∀ s ∈ ds, b.getItem s = .ok (.list (cols s))) (h : ∀ s ∈ ds, pyIndex (cols s) i = none) :
    b.getPacketFrom i ds p = .error .index := by
  obtain ⟨d, r, rfl⟩ := List.exists_cons_of_ne_nil hne
  unfold getPacketFrom
  simp only [hc d (by simp), pyItem, h d (by simp)]

theorem filterE_ok {α : Type} {f : α → Except PyErr Bool} {t : α → Bool} {l : List α} (h : ∀ x ∈ l, f x = .ok (t x)) :
    filterE f l = .ok (l.filter t) := by
  induction l with
  | nil => rfl
  | cons x r ih =>
    simp only [filterE, h x (by simp), ih (fun y hy => h y (by simp [hy]))]
    cases ht : t x <;> simp [ht]

theorem filter_range_singleton {len : Nat} {q : Nat → Bool} {i : Nat} :
    (List.range len).filter q = [i] ↔ i < len ∧ q i = true ∧ ∀ j, j < len → q j = true → j = i := by
  constructor
  · intro h
    have h1 : i ∈ (List.range len).filter q := by rw [h]; simp
    simp only [List.mem_filter, List.mem_range] at h1
    refine ⟨h1.1, h1.2, fun j hj hq => ?_⟩
    have : j ∈ (List.range len).filter q := by simp [hj, hq]
    rw [h] at this; simpa using this
  · rintro ⟨h1, h2, h3⟩
    have hnd : ((List.range len).filter q).Nodup := List.nodup_range.filter _
    have hall : ∀ j ∈ (List.range len).filter q, j = i := by
      intro j hj
      simp only [List.mem_filter, List.mem_range] at hj
      exact h3 j hj.1 hj.2
    have hmem : i ∈ (List.range len).filter q := by simp [h1, h2]
    generalize (List.range len).filter q = L at *
    match L, hnd, hall, hmem with
    | [], _, _, h => simp at h
    | [a], _, h, _ => rw [h a (by simp)]
    | a :: c :: r, hnd, h, _ =>
      have ha := h a (by simp); have hc := h c (by simp)
      subst ha; subst hc; simp at hnd

end Verif.Block
