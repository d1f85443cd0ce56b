import Verif.Lemmas.Reader
import Verif.Spec.Print
/-! # The entries of a block that was read

What `docOf` finds in a block to which entries were added one after the other. -/
set_option linter.unusedSectionVars false
namespace Verif.Print
open Block Reader
variable [CaseFold]

theorem docOf_append (b : Block) : ∀ r s : List Ref, docOf b (r ++ s) =
    match docOf b r, docOf b s with
    | some x, some y => some (x ++ y)
    | _, _ => none
  | [], s => by
    cases h : docOf b s <;> simp [docOf, h]
  | a :: r, s => by
    rw [List.cons_append, docOf, docOf_append b r s, docOf]
    cases entryOf b a <;> cases docOf b r <;> cases docOf b s <;> simp

theorem getItem_mono {b b' : Block} {k : Str} (hk : lower k ∈ b.keys) (h : ∀ x ∈ b.keys, dget b'.block x = dget b.block x) :
    b'.getItem k = b.getItem k := by
  unfold getItem getFullItemValue
  rw [h _ hk]

theorem spelled_mono {b b' : Block} (h : ∀ x ∈ b.keys, dget b'.trueCase x = dget b.trueCase x) :
    ∀ ns : List Str, (∀ n ∈ ns, n ∈ b.keys) → spelled b' ns = spelled b ns
  | [], _ => rfl
  | n :: r, hn => by rw [spelled, spelled, h n (hn n (by simp)), spelled_mono h r fun x hx => hn x (by simp [hx])]

theorem columns_mono {b b' : Block} (h : ∀ x ∈ b.keys, dget b'.block x = dget b.block x) (hl : ∀ x ∈ b.keys, lower x = x) :
    ∀ ns : List Str, (∀ n ∈ ns, n ∈ b.keys) → columns b' ns = columns b ns
  | [], _ => rfl
  | n :: r, hn => by
    have h1 : b'.getItem n = b.getItem n := getItem_mono (by rw [hl n (hn n (by simp))]; exact hn n (by simp)) h
    rw [columns, columns, h1, columns_mono h hl r fun x hx => hn x (by simp [hx])]

/-- A block that keeps what was there. -/
structure Extends (b b' : Block) : Prop where
  cells : ∀ x ∈ b.keys, dget b'.block x = dget b.block x
  case : ∀ x ∈ b.keys, dget b'.trueCase x = dget b.trueCase x
  loops : ∀ n ∈ dkeys b.loops, dget b'.loops n = dget b.loops n

theorem entryOf_mono {b b' : Block} (hf : Filling b) (h : Extends b b') {r : Ref} (hr : r ∈ b.order) : entryOf b' r = entryOf b r := by
  cases r with
  | name n =>
    have hk := ((hf.wf.orderName n).1 hr).1
    have h1 : b'.getItem n = b.getItem n := getItem_mono (by rw [hf.wf.keysLower n hk]; exact hk) h.cells
    rw [entryOf, entryOf, h1, h.case n hk]
  | loop n =>
    have hk := (hf.wf.orderLoop n).1 hr
    rw [entryOf, entryOf, h.loops n hk]
    cases hl : dget b.loops n with
    | none => rfl
    | some ns =>
      have hin : ∀ x ∈ ns, x ∈ b.keys := fun x hx => hf.full x (mem_allLooped.2 ⟨n, ns, dget_mem hl, hx⟩)
      simp only
      rw [spelled_mono h.case ns hin, columns_mono h.cells hf.wf.keysLower ns hin]

theorem docOf_mono {b b' : Block} (hf : Filling b) (h : Extends b b') : ∀ rs : List Ref, (∀ r ∈ rs, r ∈ b.order) → docOf b' rs = docOf b rs
  | [], _ => rfl
  | r :: rs, hr => by
    rw [docOf, docOf, entryOf_mono hf h (hr r (by simp)), docOf_mono hf h rs fun x hx => hr x (by simp [hx])]

theorem dget_append_old {α β : Type} [DecidableEq α] {d e : Dict α β} {k : α} (h : k ∈ dkeys d) : dget (d ++ e) k = dget d k := by
  obtain ⟨v, hv⟩ := dget_isSome.2 h
  rw [dget_append, hv]; rfl

theorem extends_addCells {b : Block} (hf : Filling b) (cs : List (Str × PyVal)) : Extends b (addCells b cs) :=
  ⟨fun _ hx => dget_append_old hx, fun x hx => dget_append_old (by rw [hf.case]; exact hx), fun _ _ => rfl⟩

theorem extends_addLoop {b : Block} (hf : Filling b) (ns : List Str) (cs : List (Str × PyVal)) : Extends b (addLoop b ns cs) :=
  ⟨fun _ hx => dget_append_old hx, fun x hx => dget_append_old (by rw [hf.case]; exact hx), fun _ hn => dget_append_old hn⟩

theorem extends_addEntry {b : Block} (hf : Filling b) (e : Entry) : Extends b (addEntry b e) := by
  cases e with
  | item n v => exact extends_addCells hf _
  | loop ns vals => exact extends_addLoop hf _ _

/-! ## Columns and rows -/

/-- The columns of a flat list of values, from number `i` on. -/
def cols (step : Nat) (vals : List PyVal) : Nat → Nat → List (List PyVal)
  | _, 0 => []
  | i, n + 1 => everyFrom step i vals :: cols step vals (i + 1) n

theorem everyFrom_drop {α : Type} (step : Nat) : ∀ (skip : Nat) (l : List α), everyFrom step skip l =
    match l.drop skip with
    | [] => []
    | x :: r => x :: everyFrom step (step - 1) r
  | skip, [] => by simp [everyFrom]
  | 0, x :: r => by simp [everyFrom]
  | skip + 1, x :: r => by rw [everyFrom, everyFrom_drop step skip r]; simp

theorem everyFrom_row {α : Type} {step i : Nat} {l : List α} (hi : i < step) (hl : step ≤ l.length) :
    everyFrom step i l = l[i]'(by omega) :: everyFrom step i (l.drop step) := by
  apply List.ext_getElem?
  intro r
  rw [everyFrom_get step (by omega)]
  cases r with
  | zero => simp
  | succ r =>
    rw [List.getElem?_cons_succ, everyFrom_get step (by omega), List.getElem?_drop]
    congr 1
    rw [Nat.add_mul]; omega

theorem heads_cols {step : Nat} {vals : List PyVal} (hl : step ≤ vals.length) : ∀ (n i : Nat), i + n ≤ step →
    heads (cols step vals i n) = some ((vals.drop i).take n, cols step (vals.drop step) i n)
  | 0, i, _ => by simp [cols, heads]
  | n + 1, i, h => by
    rw [cols, everyFrom_row (by omega) hl, heads, heads_cols hl n (i + 1) (by omega)]
    simp only [Option.some.injEq, Prod.mk.injEq, cols, and_true]
    rw [List.drop_eq_getElem_cons (by omega : i < vals.length), List.take_succ_cons]

theorem zipRows_cols {step : Nat} (hs : 0 < step) : ∀ (r : Nat) (vals : List PyVal), vals.length = r * step →
    (zipRows r (cols step vals 0 step)).flatten = vals
  | 0, vals, h => by
    have : vals = [] := List.eq_nil_of_length_eq_zero (by omega)
    simp [zipRows, this]
  | r + 1, vals, h => by
    have h1 : step ≤ vals.length := by rw [h, Nat.add_mul]; omega
    rw [zipRows, heads_cols h1 step 0 (by omega)]
    simp only [List.drop_zero, List.flatten_cons]
    rw [zipRows_cols hs r (vals.drop step) (by rw [List.length_drop, h, Nat.add_mul]; omega), List.take_append_drop]

theorem rows_cols {step : Nat} (hs : 0 < step) {vals : List PyVal} (hd : step ∣ vals.length) : (rows (cols step vals 0 step)).flatten = vals := by
  obtain ⟨r, hr⟩ := hd
  have hr' : vals.length = r * step := by rw [hr, Nat.mul_comm]
  obtain ⟨n, rfl⟩ : ∃ n, step = n + 1 := ⟨step - 1, by omega⟩
  have hlen : (everyFrom (n + 1) 0 vals).length = r := everyFrom_length (n + 1) r vals 0 (by omega) hr'
  rw [cols, rows, hlen]
  have := zipRows_cols hs r vals hr'
  rw [cols] at this
  exact this

/-! ## Entries just added -/

theorem getItem_cell {b : Block} {cs : List (Str × PyVal)} (hn : (cs.map fun c => lower c.1).Nodup) {n : Str} {v : PyVal} (h : (n, v) ∈ cs)
    (hk : lower n ∉ b.keys) (hs : lower n ≠ saves) (hv : notNone v = true) {b' : Block} (hb : b'.block = (addCells b cs).block) :
    b'.getItem (lower n) = .ok v := by
  have h1 : b'.getItem (lower n) = (addCells b cs).getItem (lower n) := by
    unfold getItem getFullItemValue; rw [hb]
  rw [h1, getItem_eq _ _ hs, low2, dget_addCells_new hn h hk]
  cases v <;> simp_all [Block.readEntry]

theorem dget_case {b : Block} (hc : dkeys b.trueCase = b.keys) {cs : List (Str × PyVal)} (hn : (cs.map fun c => lower c.1).Nodup) {n : Str} {v : PyVal} (h : (n, v) ∈ cs)
    (hk : lower n ∉ b.keys) : dget (b.trueCase ++ cs.map fun c => (lower c.1, c.1)) (lower n) = some n := by
  rw [dget_append, dget_eq_none.2 (by rw [hc]; exact hk)]
  simp only [Option.none_or]
  apply dget_of_mem
  · rw [dkeys, List.map_map]; exact hn
  · exact List.mem_map.2 ⟨(n, v), h, rfl⟩

theorem spelled_cells {b : Block} (hc : dkeys b.trueCase = b.keys) {cs : List (Str × PyVal)} (hn : (cs.map fun c => lower c.1).Nodup)
    (hk : ∀ c ∈ cs, lower c.1 ∉ b.keys) {b' : Block} (hb : b'.trueCase = b.trueCase ++ cs.map fun c => (lower c.1, c.1)) :
    ∀ ds : List (Str × PyVal), (∀ d ∈ ds, d ∈ cs) → spelled b' (ds.map fun d => lower d.1) = some (ds.map (·.1))
  | [], _ => rfl
  | (n, v) :: ds, h => by
    have hm := h (n, v) (by simp)
    rw [List.map_cons, spelled, hb, dget_case hc hn hm (hk _ hm), spelled_cells hc hn hk hb ds fun d hd => h d (by simp [hd])]
    rfl

theorem columns_cells {b : Block} {cs : List (Str × PyVal)} (hn : (cs.map fun c => lower c.1).Nodup)
    (hk : ∀ c ∈ cs, lower c.1 ∉ b.keys) (hs : ∀ c ∈ cs, lower c.1 ≠ saves) (hv : ∀ c ∈ cs, notNone c.2 = true)
    {b' : Block} (hb : b'.block = (addCells b cs).block) (step : Nat) (vals : List PyVal) :
    ∀ (ns : List Str) (i : Nat), (∀ d ∈ colCells step vals i ns, d ∈ cs) → columns b' (ns.map lower) = .ok (cols step vals i ns.length)
  | [], _, _ => rfl
  | n :: ns, i, h => by
    have hm := h (n, .list (everyFrom step i vals)) (by simp [colCells])
    rw [List.map_cons, columns, getItem_cell hn hm (hk _ hm) (hs _ hm) (hv _ hm) hb]
    simp only [columnValues]
    rw [columns_cells hn hk hs hv hb step vals ns (i + 1) fun d hd => h d (by simp [colCells, hd])]
    rfl

/-- The names are not confused with the reserved key. -/
def NoSaves (e : Entry) : Prop := ∀ n ∈ e.names, lower n ≠ saves

theorem docOf_addEntry {b : Block} (hf : Filling b) {e : Entry} (hd : (e.names.map lower).Nodup) (hk : ∀ n ∈ e.names, lower n ∉ b.keys)
    (hs : NoSaves e) (hp : e.Plain) (hfl : e.Filled) {es : List Entry} (h : docOf b b.order = some es) :
    docOf (addEntry b e) (addEntry b e).order = some (es ++ [e]) := by
  have hext := extends_addEntry hf e
  cases e with
  | item n v =>
    have ho : (addEntry b (.item n v)).order = b.order ++ [.name (lower n)] := rfl
    rw [ho, docOf_append, docOf_mono hf hext b.order (fun _ h => h), h]
    have h1 : (addEntry b (.item n v)).getItem (lower n) = .ok v :=
      getItem_cell (cs := [(n, v)]) (by simp) (by simp) (hk n (by simp [Entry.names])) (hs n (by simp [Entry.names])) hp rfl
    have h2 : dget (addEntry b (.item n v)).trueCase (lower n) = some n :=
      dget_case hf.case (cs := [(n, v)]) (v := v) (by simp) (by simp) (hk n (by simp [Entry.names]))
    simp only [docOf, entryOf, h1, h2]
  | loop ns vals =>
    obtain ⟨hne, hvne, hdvd⟩ := hfl
    have ho : (addEntry b (.loop ns vals)).order = b.order ++ [.loop (newLoopNo b.loops)] := rfl
    have hmem : ∀ c ∈ colCells ns.length vals 0 ns, c.1 ∈ ns := fun c hc => by
      rw [← colCells_names ns.length vals 0 ns]; exact List.mem_map_of_mem hc
    have hnd : ((colCells ns.length vals 0 ns).map fun c => lower c.1).Nodup := by
      have : ((colCells ns.length vals 0 ns).map fun c => lower c.1) = ((colCells ns.length vals 0 ns).map (·.1)).map lower := by simp
      rw [this, colCells_names]; exact hd
    have hk' : ∀ c ∈ colCells ns.length vals 0 ns, lower c.1 ∉ b.keys := fun c hc => hk c.1 (hmem c hc)
    have hs' : ∀ c ∈ colCells ns.length vals 0 ns, lower c.1 ≠ saves := fun c hc => hs c.1 (hmem c hc)
    have hv : ∀ c ∈ colCells ns.length vals 0 ns, notNone c.2 = true := by
      intro c hc
      obtain ⟨j, -, -, e⟩ := colCells_col _ _ _ _ c hc
      rw [e, notNone, notNoneAll_iff]
      exact fun v hv => hp v (everyFrom_mem hv)
    rw [ho, docOf_append, docOf_mono hf hext b.order (fun _ h => h), h]
    have h1 : dget (addEntry b (.loop ns vals)).loops (newLoopNo b.loops) = some (ns.map lower) := by
      show dget (b.loops ++ [(newLoopNo b.loops, ns.map lower)]) _ = _
      rw [dget_append, dget_eq_none.2 (newLoopNo_fresh b.loops)]
      simp [dget]
    have h2 : spelled (addEntry b (.loop ns vals)) (ns.map lower) = some ns := by
      have := spelled_cells hf.case hnd hk' (b' := addEntry b (.loop ns vals)) rfl (colCells ns.length vals 0 ns) (fun _ h => h)
      have e1 : ((colCells ns.length vals 0 ns).map fun d => lower d.1) = ns.map lower := by
        have : ((colCells ns.length vals 0 ns).map fun c => lower c.1) = ((colCells ns.length vals 0 ns).map (·.1)).map lower := by simp
        rw [this, colCells_names]
      rw [e1, colCells_names] at this
      exact this
    have h3 : columns (addEntry b (.loop ns vals)) (ns.map lower) = .ok (cols ns.length vals 0 ns.length) :=
      columns_cells hnd hk' hs' hv (b' := addEntry b (.loop ns vals)) rfl ns.length vals ns 0 (fun _ h => h)
    have h4 := rows_cols (List.length_pos_iff.2 hne) hdvd
    simp only [docOf, entryOf, h1, h2, h3, h4]

theorem docOf_foldl : ∀ (es : List Entry) {b : Block} {ds : List Entry}, Filling b → Entry.Distinct es →
    (∀ n ∈ Entry.allNames es, lower n ∉ b.keys) → (∀ e ∈ es, NoSaves e ∧ e.Plain ∧ e.Filled) → docOf b b.order = some ds →
    docOf (es.foldl addEntry b) (es.foldl addEntry b).order = some (ds ++ es)
  | [], b, ds, _, _, _, _, h => by simpa using h
  | e :: es, b, ds, hf, hd, hk, he, h => by
    simp only [Entry.Distinct, Entry.allNames, List.flatMap_cons, List.map_append, List.nodup_append] at hd
    obtain ⟨h1, h2, h3⟩ := he e (by simp)
    have hke : ∀ n ∈ e.names, lower n ∉ b.keys := fun n hn => hk n (by simp [Entry.allNames, hn])
    have := docOf_foldl es (filling_addEntry hf hd.1 hke h3) hd.2.1 (fun n hn => by
        rw [keys_addEntry, List.mem_append]
        rintro (h' | h')
        · exact hk n (by simp only [Entry.allNames, List.flatMap_cons, List.mem_append]; exact .inr hn) h'
        · exact hd.2.2 _ h' _ (List.mem_map_of_mem hn) rfl) (fun x hx => he x (by simp [hx])) (docOf_addEntry hf hd.1 hke h1 h2 h3 h)
    simpa using this

end Verif.Print
