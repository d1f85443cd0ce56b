import Verif.Spec.Reader
import Verif.Lemmas.BlockShape
import Verif.Lemmas.BlockValue
/-! # Lemmas about storing what has been read -/
set_option linter.unusedSectionVars false
namespace Verif
namespace Reader

/-! ## Columns -/

theorem everyFrom_get {α : Type} (step : Nat) (hs : 0 < step) : ∀ (l : List α) (skip : Nat) (r : Nat),
    (everyFrom step skip l)[r]? = l[r * step + skip]?
  | [], skip, r => by simp [everyFrom]
  | x :: l, 0, 0 => by simp [everyFrom]
  | x :: l, 0, r + 1 => by
    rw [everyFrom, List.getElem?_cons_succ, everyFrom_get step hs l (step - 1) r]
    have : (r + 1) * step + 0 = (r * step + (step - 1)) + 1 := by
      rw [Nat.add_mul]; omega
    rw [this, List.getElem?_cons_succ]
  | x :: l, skip + 1, r => by
    rw [everyFrom, everyFrom_get step hs l skip r, ← Nat.add_assoc, List.getElem?_cons_succ]

theorem everyFrom_mem {α : Type} {step : Nat} : ∀ {l : List α} {skip : Nat} {x : α}, x ∈ everyFrom step skip l → x ∈ l
  | [], skip, x, h => by simp [everyFrom] at h
  | y :: l, 0, x, h => by
    simp only [everyFrom, List.mem_cons] at h
    rcases h with rfl | h
    · simp
    · exact List.mem_cons_of_mem _ (everyFrom_mem h)
  | y :: l, skip + 1, x, h => List.mem_cons_of_mem _ (everyFrom_mem (by simpa [everyFrom] using h))

theorem length_of_get {α : Type} {l : List α} {n : Nat} (h : ∀ r, (l[r]?).isSome = decide (r < n)) : l.length = n := by
  have h1 := h l.length
  have h2 := h n
  rw [List.getElem?_eq_none (Nat.le_refl _)] at h1
  simp at h1
  simp at h2
  omega

theorem everyFrom_length {α : Type} (step rows : Nat) (l : List α) (i : Nat) (hi : i < step) (h : l.length = rows * step) :
    (everyFrom step i l).length = rows := by
  apply length_of_get
  intro r
  rw [everyFrom_get step (by omega)]
  by_cases hr : r < rows
  · have h1 : (r + 1) * step ≤ rows * step := Nat.mul_le_mul_right _ hr
    rw [Nat.add_mul, Nat.one_mul] at h1
    rw [List.getElem?_eq_getElem (by omega)]
    simp [hr]
  · have h1 : rows * step ≤ r * step := Nat.mul_le_mul_right _ (by omega)
    rw [List.getElem?_eq_none (by omega)]
    simp [hr]

/-- If the first and the last column have the same length, the rows are whole. -/
theorem everyFrom_whole {α : Type} (step : Nat) (hs : 0 < step) (l : List α)
    (h : (everyFrom step 0 l).length = (everyFrom step (step - 1) l).length) : l.length = (everyFrom step 0 l).length * step := by
  generalize hr : (everyFrom step 0 l).length = rows at h
  have a1 : (everyFrom step 0 l)[rows]? = none := List.getElem?_eq_none (by omega)
  rw [everyFrom_get step hs, List.getElem?_eq_none_iff] at a1
  cases rows with
  | zero => omega
  | succ k =>
    have a2 : (everyFrom step (step - 1) l)[k]? ≠ none := by
      rw [List.getElem?_eq_getElem (by omega)]; simp
    rw [everyFrom_get step hs, Ne, List.getElem?_eq_none_iff] at a2
    rw [Nat.add_mul] at a1 ⊢
    omega

/-! ## Storing -/

variable [CaseFold]
open Block

/-- The block with cells added at its end. -/
def addCells (b : Block) (cs : List (Str × PyVal)) : Block :=
  { b with
    block := b.block ++ cs.map fun c => (lower c.1, (c.2, PyVal.none))
    order := b.order ++ cs.map fun c => Ref.name (lower c.1)
    trueCase := b.trueCase ++ cs.map fun c => (lower c.1, c.1) }

/-- What holds of a block while it is being read. -/
structure Filling (b : Block) : Prop where
  wf : WF b
  full : Full b
  locked : b.overwrite = false
  case : dkeys b.trueCase = b.keys
  solid : ∀ p ∈ b.loops, p.2 ≠ []

theorem addItem_fresh {b : Block} (hf : Full b) (hc : dkeys b.trueCase = b.keys) (n : Str) (v : PyVal) (h : lower n ∉ b.keys) :
    b.addItem n v true = (addCells b [(n, v)], .ok ()) := by
  have hk : b.contains n = false := contains_false.2 h
  have hk2 : b.contains (lower n) = false := contains_false.2 (by rw [low2]; exact h)
  have hl : b.findLoop (lower n) = none := findLoop_none.2 (by rw [low2]; exact fun h' => h (hf _ h'))
  simp only [Block.addItem, addItemCheck, hk, store, hk2, hl, addCells]
  simp only [if_true, Bool.false_and, Bool.false_eq_true, if_false, Option.isNone_none, Bool.not_false, Bool.and_self,
    List.map_cons, List.map_nil]
  rw [dset_of_not_mem _ _ _ h]
  have : ddel b.trueCase (lower n) = b.trueCase := by
    unfold ddel
    apply List.filter_eq_self.2
    intro p hp
    have : p.1 ∈ dkeys b.trueCase := List.mem_map_of_mem hp
    rw [hc] at this
    simp only [ne_eq, decide_not, Bool.not_eq_true', decide_eq_false_iff_not]
    exact fun e => h (e ▸ this)
  rw [this]

theorem addItem_dup {b : Block} (hl : b.overwrite = false) (n : Str) (v : PyVal) (h : lower n ∈ b.keys) :
    b.addItem n v true = (b, .error .star) := by
  have hk : b.contains n = true := contains_iff.2 h
  simp [Block.addItem, addItemCheck, hk, hl]

theorem keys_addCells (b : Block) (cs : List (Str × PyVal)) : (addCells b cs).keys = b.keys ++ cs.map fun c => lower c.1 := by
  simp [addCells, keys, dkeys]

theorem addCells_addCells (b : Block) (cs ds : List (Str × PyVal)) : addCells (addCells b cs) ds = addCells b (cs ++ ds) := by
  simp [addCells]

theorem addCells_nil (b : Block) : addCells b [] = b := by simp [addCells]

theorem full_addCells {b : Block} (hf : Full b) (cs : List (Str × PyVal)) : Full (addCells b cs) := by
  intro s hs
  rw [keys_addCells]
  exact List.mem_append_left _ (hf s hs)

theorem case_addCells {b : Block} (hc : dkeys b.trueCase = b.keys) (cs : List (Str × PyVal)) :
    dkeys (addCells b cs).trueCase = (addCells b cs).keys := by
  rw [keys_addCells]
  show dkeys (b.trueCase ++ _) = _
  rw [dkeys_append, hc]
  simp [dkeys]

/-- The cells of a loop: its names with their columns, from column `i` of `step` on. -/
def colCells (step : Nat) (vals : List PyVal) : Nat → List Str → List (Str × PyVal)
  | _, [] => []
  | i, n :: r => (n, .list (everyFrom step i vals)) :: colCells step vals (i + 1) r

theorem colCells_names (step : Nat) (vals : List PyVal) : ∀ (i : Nat) (ns : List Str), (colCells step vals i ns).map (·.1) = ns
  | _, [] => rfl
  | i, n :: r => by simp [colCells, colCells_names step vals (i + 1) r]

theorem addColumns_eq (step : Nat) (vals : List PyVal) : ∀ (ns : List Str) (b : Block) (i : Nat), Full b →
    dkeys b.trueCase = b.keys → (ns.map lower).Nodup → (∀ n ∈ ns, lower n ∉ b.keys) →
    addColumns step vals b i ns = (addCells b (colCells step vals i ns), .ok ())
  | [], b, i, _, _, _, _ => by simp [addColumns, colCells, addCells_nil]
  | n :: r, b, i, hf, hc, hn, hk => by
    simp only [List.map_cons, List.nodup_cons] at hn
    rw [addColumns, addItem_fresh hf hc n _ (hk n (by simp))]
    simp only
    rw [addColumns_eq step vals r _ (i + 1) (full_addCells hf _) (case_addCells hc _) hn.2, addCells_addCells]
    · rfl
    · intro m hm
      rw [keys_addCells]
      simp only [List.map_cons, List.map_nil, List.mem_append, List.mem_singleton, not_or]
      exact ⟨hk m (by simp [hm]), fun e => hn.1 (List.mem_map.2 ⟨m, hm, e⟩)⟩

theorem wf_addCells : ∀ (cs : List (Str × PyVal)) {b : Block}, WF b → Full b → dkeys b.trueCase = b.keys →
    (cs.map fun c => lower c.1).Nodup → (∀ c ∈ cs, lower c.1 ∉ b.keys) → WF (addCells b cs)
  | [], b, hw, _, _, _, _ => by rw [addCells_nil]; exact hw
  | (n, v) :: r, b, hw, hf, hc, hn, hk => by
    simp only [List.map_cons, List.nodup_cons] at hn
    have e : addCells b [(n, v)] = (b.addItem n v true).1 := by rw [addItem_fresh hf hc n v (hk (n, v) (by simp))]
    have : addCells b ((n, v) :: r) = addCells (addCells b [(n, v)]) r := by rw [addCells_addCells]; rfl
    rw [this]
    refine wf_addCells r (by rw [e]; exact wf_addItem hw _ _ _) (full_addCells hf _) (case_addCells hc _) hn.2 ?_
    intro c hc'
    rw [keys_addCells]
    simp only [List.map_cons, List.map_nil, List.mem_append, List.mem_singleton, not_or]
    exact ⟨hk c (by simp [hc']), fun e => hn.1 (List.mem_map.2 ⟨c, hc', e⟩)⟩

theorem dget_addCells_new {b : Block} {cs : List (Str × PyVal)} (hn : (cs.map fun c => lower c.1).Nodup)
    {n : Str} {v : PyVal} (h : (n, v) ∈ cs) (hk : lower n ∉ b.keys) :
    dget (addCells b cs).block (lower n) = some (v, .none) := by
  show dget (b.block ++ _) _ = _
  rw [dget_append, dget_eq_none.2 hk]
  simp only [Option.none_or]
  apply dget_of_mem
  · simp only [dkeys, List.map_map]
    exact hn
  · exact List.mem_map.2 ⟨(n, v), h, rfl⟩

theorem dget_addCells_old {b : Block} {cs : List (Str × PyVal)} {x : Str} (h : x ∈ b.keys) :
    dget (addCells b cs).block x = dget b.block x := by
  show dget (b.block ++ _) _ = _
  obtain ⟨e, he⟩ := dget_isSome.2 h
  rw [dget_append, he]
  rfl

theorem getAll_cells {b : Block} {cs : List (Str × PyVal)} (hn : (cs.map fun c => lower c.1).Nodup)
    (hk : ∀ c ∈ cs, lower c.1 ∉ b.keys) (hs : ∀ c ∈ cs, c.1 ≠ saves) (hv : ∀ c ∈ cs, notNone c.2 = true) :
    ∀ ds : List (Str × PyVal), (∀ d ∈ ds, d ∈ cs) → (addCells b cs).getAll (ds.map (·.1)) = .ok (ds.map (·.2))
  | [], _ => rfl
  | (n, v) :: r, h => by
    have hm := h (n, v) (by simp)
    have : (addCells b cs).getItem n = .ok v := by
      rw [getItem_eq _ _ (hs _ hm), dget_addCells_new hn hm (hk _ hm)]
      have := hv _ hm
      cases v <;> simp_all [Block.readEntry]
    simp only [List.map_cons, getAll, this]
    rw [getAll_cells hn hk hs hv r (fun d hd => h d (by simp [hd]))]

theorem notNoneAll_iff : ∀ {l : List PyVal}, notNoneAll l = true ↔ ∀ v ∈ l, notNone v = true
  | [] => by simp [notNoneAll]
  | x :: r => by simp [notNoneAll, notNoneAll_iff (l := r)]

theorem colCells_col (step : Nat) (vals : List PyVal) : ∀ (i : Nat) (ns : List Str) (c : Str × PyVal), c ∈ colCells step vals i ns →
    ∃ j, i ≤ j ∧ j < i + ns.length ∧ c.2 = .list (everyFrom step j vals)
  | _, [], c, h => by simp [colCells] at h
  | i, n :: r, c, h => by
    simp only [colCells, List.mem_cons] at h
    rcases h with rfl | h
    · exact ⟨i, by simp, by simp, rfl⟩
    · obtain ⟨j, h1, h2, h3⟩ := colCells_col step vals (i + 1) r c h
      refine ⟨j, by omega, by simp only [List.length_cons]; omega, h3⟩

theorem colCells_get (step : Nat) (vals : List PyVal) : ∀ (i : Nat) (ns : List Str) (j : Nat) (h : j < ns.length),
    (ns[j], PyVal.list (everyFrom step (i + j) vals)) ∈ colCells step vals i ns
  | i, n :: r, 0, _ => by simp [colCells]
  | i, n :: r, j + 1, h => by
    have := colCells_get step vals (i + 1) r j (by simpa using h)
    simp only [colCells, List.getElem_cons_succ, List.mem_cons]
    right
    rw [← Nat.add_assoc, Nat.add_right_comm]
    exact this

theorem colCells_length (step : Nat) (vals : List PyVal) : ∀ (i : Nat) (ns : List Str), (colCells step vals i ns).length = ns.length
  | _, [] => rfl
  | i, n :: r => by simp [colCells, colCells_length step vals (i + 1) r]

/-- The length check of `CreateLoop` on the columns just stored. -/
theorem createLoopCheck_cols {b : Block} {ns : List Str} {vals : List PyVal} (hne : ns ≠ []) (hn : (ns.map lower).Nodup)
    (hk : ∀ n ∈ ns, lower n ∉ b.keys) (hs : ∀ n ∈ ns, n ≠ saves) (hv : ∀ v ∈ vals, notNone v = true) :
    (addCells b (colCells ns.length vals 0 ns)).createLoopCheck ns =
      (addCells b (colCells ns.length vals 0 ns), if ns.length ∣ vals.length then .ok () else .error .value) := by
  have hpos : 0 < ns.length := List.length_pos_iff.2 hne
  have hnames := colCells_names ns.length vals 0 ns
  have hmem : ∀ c ∈ colCells ns.length vals 0 ns, c.1 ∈ ns := fun c hc => by rw [← hnames]; exact List.mem_map_of_mem hc
  have hnd : ((colCells ns.length vals 0 ns).map fun c => lower c.1).Nodup := by
    have : ((colCells ns.length vals 0 ns).map fun c => lower c.1) = ((colCells ns.length vals 0 ns).map (·.1)).map lower := by simp
    rw [this, hnames]; exact hn
  have hg := getAll_cells (b := b) hnd (fun c hc => hk _ (hmem c hc)) (fun c hc => hs _ (hmem c hc))
    (fun c hc => by
      obtain ⟨j, -, -, e⟩ := colCells_col _ _ _ _ c hc
      rw [e, notNone, notNoneAll_iff]
      exact fun v h => hv v (everyFrom_mem h)) (colCells ns.length vals 0 ns) (fun d h => h)
  rw [hnames] at hg
  unfold createLoopCheck
  rw [hg]
  simp only
  have hcol : ((colCells ns.length vals 0 ns).map (·.2)).filter PyVal.isColumn = (colCells ns.length vals 0 ns).map (·.2) := by
    apply List.filter_eq_self.2
    intro v h
    obtain ⟨c, hc, rfl⟩ := List.mem_map.1 h
    obtain ⟨j, -, -, e⟩ := colCells_col _ _ _ _ c hc
    rw [e]; rfl
  rw [hcol, List.length_map, colCells_length, if_pos rfl]
  by_cases hd : ns.length ∣ vals.length
  · rw [if_pos hd, if_neg]
    obtain ⟨rows, hrows⟩ := hd
    have hl : ∀ x ∈ ((colCells ns.length vals 0 ns).map (·.2)).map colLen, x = rows := by
      intro x hx
      simp only [List.map_map, List.mem_map, Function.comp_apply] at hx
      obtain ⟨c, hc, rfl⟩ := hx
      obtain ⟨j, -, hj, e⟩ := colCells_col _ _ _ _ c hc
      rw [e]
      exact everyFrom_length _ rows _ _ (by omega) (by rw [hrows, Nat.mul_comm])
    simp only [List.any_eq_true, not_exists, not_and, decide_eq_true_eq]
    intro x hx y hy
    rw [hl x hx, hl y hy]
    simp
  · rw [if_neg hd, if_pos]
    have m1 : (everyFrom ns.length 0 vals).length ∈ ((colCells ns.length vals 0 ns).map (·.2)).map colLen := by
      have := colCells_get ns.length vals 0 ns 0 hpos
      exact List.mem_map.2 ⟨_, List.mem_map.2 ⟨_, this, rfl⟩, by simp [colLen]⟩
    have m2 : (everyFrom ns.length (ns.length - 1) vals).length ∈ ((colCells ns.length vals 0 ns).map (·.2)).map colLen := by
      have := colCells_get ns.length vals 0 ns (ns.length - 1) (by omega)
      exact List.mem_map.2 ⟨_, List.mem_map.2 ⟨_, this, rfl⟩, by simp [colLen]⟩
    simp only [List.any_eq_true, decide_eq_true_eq]
    refine ⟨_, m1, _, m2, ?_⟩
    intro e
    exact hd ⟨_, (by rw [Nat.mul_comm]; exact everyFrom_whole _ hpos vals e.symm)⟩

/-- The block with a loop added at its end. -/
def addLoop (b : Block) (ns : List Str) (cs : List (Str × PyVal)) : Block :=
  { b with
    block := b.block ++ cs.map fun c => (lower c.1, (c.2, PyVal.none))
    loops := b.loops ++ [(newLoopNo b.loops, ns.map lower)]
    order := b.order ++ [.loop (newLoopNo b.loops)]
    trueCase := b.trueCase ++ cs.map fun c => (lower c.1, c.1) }

theorem makeLoop_cells {b : Block} (h : Filling b) {ns : List Str} {cs : List (Str × PyVal)} (hcs : cs.map (·.1) = ns)
    (hn : (ns.map lower).Nodup) (hk : ∀ n ∈ ns, lower n ∉ b.keys) :
    (addCells b cs).makeLoop ns (-1) = (addLoop b ns cs, .ok ()) := by
  have hm : ∀ c ∈ cs, c.1 ∈ ns := fun c hc => by rw [← hcs]; exact List.mem_map_of_mem hc
  have hnd : (cs.map fun c => lower c.1).Nodup := by
    have : (cs.map fun c => lower c.1) = (cs.map (·.1)).map lower := by simp
    rw [this, hcs]; exact hn
  rw [makeLoop_eq (wf_addCells cs h.wf h.full h.case hnd (fun c hc => hk _ (hm c hc)))]
  have hr : restLoops (addCells b cs).loops (ns.map lower) = b.loops := by
    show restLoops b.loops _ = _
    unfold restLoops
    have : (b.loops.map fun p => (p.1, p.2.filter fun x => decide (x ∉ ns.map lower))) = b.loops := by
      have e : b.loops = b.loops.map id := by simp
      conv => rhs; rw [e]
      apply List.map_congr_left
      intro p hp
      show (p.1, _) = p
      congr 1
      apply List.filter_eq_self.2
      intro x hx
      simp only [decide_eq_true_eq]
      intro h'
      obtain ⟨n, hn', rfl⟩ := List.mem_map.1 h'
      exact hk n hn' (h.full _ (mem_allLooped.2 ⟨p.1, p.2, hp, hx⟩))
    rw [this]
    apply List.filter_eq_self.2
    intro p hp
    simp [h.solid p hp]
  have ho : restOrder (addCells b cs) (ns.map lower) = (addCells b cs).order := by
    unfold restOrder
    rw [hr]
    apply List.filter_eq_self.2
    intro r hr
    cases r with
    | name s => rfl
    | loop n =>
      simp only [decide_eq_true_eq]
      apply (h.wf.orderLoop n).1
      have : Ref.loop n ∈ b.order ++ _ := hr
      simpa using this
  simp only [hr, ho]
  rw [if_neg (by omega)]
  simp only [addLoop, addCells]
  have key : ∀ F : Ref → Bool, (∀ s, F (.name s) = decide (s ∉ ns.map lower)) → (∀ n, F (.loop n) = true) →
      ((b.order ++ cs.map (fun c => Ref.name (lower c.1))) ++ [Ref.loop (newLoopNo b.loops)]).filter F =
        b.order ++ [Ref.loop (newLoopNo b.loops)] := by
    intro F hF hL
    rw [List.filter_append, List.filter_append]
    have h1 : b.order.filter F = b.order := by
      apply List.filter_eq_self.2
      intro r hr
      cases r with
      | name s =>
        simp only [hF, decide_eq_true_eq]
        intro h'
        obtain ⟨n, hn', rfl⟩ := List.mem_map.1 h'
        exact hk n hn' ((h.wf.orderName _).1 hr).1
      | loop n => exact hL n
    have h2 : (cs.map fun c => Ref.name (lower c.1)).filter F = [] := by
      apply List.filter_eq_nil_iff.2
      intro r hr
      obtain ⟨c, hc, rfl⟩ := List.mem_map.1 hr
      simp only [hF, decide_eq_true_eq, Classical.not_not]
      exact List.mem_map_of_mem (hm c hc)
    rw [h1, h2]
    simp [hL]
  congr 2
  exact key _ (fun _ => rfl) (fun _ => rfl)

theorem filling_addCells {b : Block} (h : Filling b) {cs : List (Str × PyVal)} (hn : (cs.map fun c => lower c.1).Nodup)
    (hk : ∀ c ∈ cs, lower c.1 ∉ b.keys) : Filling (addCells b cs) :=
  ⟨wf_addCells cs h.wf h.full h.case hn hk, full_addCells h.full _, h.locked, case_addCells h.case _, h.solid⟩

theorem filling_addLoop {b : Block} (h : Filling b) {ns : List Str} {cs : List (Str × PyVal)} (hcs : cs.map (·.1) = ns)
    (hne : ns ≠ []) (hn : (ns.map lower).Nodup) (hk : ∀ n ∈ ns, lower n ∉ b.keys) : Filling (addLoop b ns cs) := by
  have hm : ∀ c ∈ cs, c.1 ∈ ns := fun c hc => by rw [← hcs]; exact List.mem_map_of_mem hc
  have hcs2 : (cs.map fun c => lower c.1) = ns.map lower := by
    have : (cs.map fun c => lower c.1) = (cs.map (·.1)).map lower := by simp
    rw [this, hcs]
  have hnd : (cs.map fun c => lower c.1).Nodup := hcs2 ▸ hn
  have hf := filling_addCells h hnd (fun c hc => hk _ (hm c hc))
  have hw := wf_makeLoop hf.wf ns (-1) hn
  have hfu := full_makeLoop hf.wf hf.full ns (-1) (fun s hs => by
    rw [keys_addCells, hcs2]
    exact List.mem_append_right _ (List.mem_map_of_mem hs))
  rw [makeLoop_cells h hcs hn hk] at hw hfu
  refine ⟨hw, hfu, h.locked, hf.case, ?_⟩
  intro p hp
  rcases List.mem_append.1 hp with hp | hp
  · exact h.solid p hp
  · simp only [List.mem_singleton] at hp
    subst hp
    simpa using hne

/-- Storing one entry whose names are new. -/
def addEntry (b : Block) : Entry → Block
  | .item n v => addCells b [(n, v)]
  | .loop ns vals => addLoop b ns (colCells ns.length vals 0 ns)

/-- The names of an entry are ones the parser can deliver. -/
def NamesOk (e : Entry) : Prop := ∀ n ∈ e.names, n ≠ saves

theorem makeLoop_eq' {b : Block} (h : Filling b) {ns : List Str} {vals : List PyVal} (hne : ns ≠ []) (hvne : vals ≠ [])
    (hn : (ns.map lower).Nodup) (hk : ∀ n ∈ ns, lower n ∉ b.keys) (hs : ∀ n ∈ ns, n ≠ saves)
    (hv : ∀ v ∈ vals, notNone v = true) (hlast : (Entry.loop ns vals).NoEmptyEnd) :
    makeLoop b ns vals = if ns.length ∣ vals.length then (addLoop b ns (colCells ns.length vals 0 ns), .ok ())
      else (addCells b (colCells ns.length vals 0 ns), .error .value) := by
  unfold makeLoop
  cases hl : vals.getLast? with
  | none => exact absurd (List.getLast?_eq_none_iff.1 hl) hvne
  | some l =>
    simp only
    rw [if_neg (by
      rintro (rfl | rfl)
      · exact hlast.2 hl
      · exact hlast.1 hl)]
    rw [addColumns_eq _ _ _ _ _ h.full h.case hn hk]
    simp only [createLoop, if_true]
    rw [createLoopCheck_cols hne hn hk hs hv]
    by_cases hd : ns.length ∣ vals.length
    · simp only [if_pos hd]
      exact makeLoop_cells h (colCells_names _ _ _ _) hn hk
    · simp only [if_neg hd]

theorem storeEntry_eq {b : Block} (h : Filling b) {e : Entry} (hd : (e.names.map lower).Nodup) (hk : ∀ n ∈ e.names, lower n ∉ b.keys)
    (hs : NamesOk e) (hp : e.Plain) (hl : e.NoEmptyEnd) (hf : e.Filled) : storeEntry b e = (addEntry b e, .ok ()) := by
  cases e with
  | item n v => exact addItem_fresh h.full h.case n v (hk n (by simp [Entry.names]))
  | loop ns vals =>
    rw [storeEntry, makeLoop_eq' h hf.1 hf.2.1 hd hk hs hp hl, if_pos hf.2.2]
    rfl

theorem filling_addEntry {b : Block} (h : Filling b) {e : Entry} (hd : (e.names.map lower).Nodup) (hk : ∀ n ∈ e.names, lower n ∉ b.keys)
    (hf : e.Filled) : Filling (addEntry b e) := by
  cases e with
  | item n v =>
    refine filling_addCells h (by simp) ?_
    intro c hc
    simp only [List.mem_singleton] at hc
    subst hc
    exact hk n (by simp [Entry.names])
  | loop ns vals => exact filling_addLoop h (colCells_names _ _ _ _) hf.1 hd hk

theorem keys_addEntry (b : Block) (e : Entry) : (addEntry b e).keys = b.keys ++ e.names.map lower := by
  cases e with
  | item n v => simp [addEntry, keys_addCells, Entry.names]
  | loop ns vals =>
    have : (addLoop b ns (colCells ns.length vals 0 ns)).keys = (addCells b (colCells ns.length vals 0 ns)).keys := rfl
    rw [addEntry, this, keys_addCells, Entry.names]
    congr 1
    have : ((colCells ns.length vals 0 ns).map fun c => lower c.1) = ((colCells ns.length vals 0 ns).map (·.1)).map lower := by simp
    rw [this, colCells_names]

/-- Storing entries with different names gives the block with all of them added. -/
theorem storeEntries_eq : ∀ (es : List Entry) {b : Block}, Filling b → Entry.Distinct es →
    (∀ n ∈ Entry.allNames es, lower n ∉ b.keys) → (∀ e ∈ es, NamesOk e ∧ e.Plain ∧ e.NoEmptyEnd ∧ e.Filled) →
    storeEntries b es = (es.foldl addEntry b, .ok ()) ∧ Filling (es.foldl addEntry b)
  | [], b, h, _, _, _ => ⟨rfl, h⟩
  | e :: es, b, h, hd, hk, he => by
    simp only [Entry.Distinct, Entry.allNames, List.flatMap_cons, List.map_append, List.nodup_append] at hd
    obtain ⟨h1, h2, h3, h4⟩ := he e (by simp)
    have hk1 : ∀ n ∈ e.names, lower n ∉ b.keys := fun n hn => hk n (by simp [Entry.allNames, hn])
    rw [storeEntries, storeEntry_eq h hd.1 hk1 h1 h2 h3 h4]
    simp only [List.foldl_cons]
    refine storeEntries_eq es (filling_addEntry h hd.1 hk1 h4) hd.2.1 ?_ (fun e' h' => he e' (by simp [h']))
    intro n hn
    rw [keys_addEntry, List.mem_append, not_or]
    refine ⟨hk n (by simp only [Entry.allNames, List.flatMap_cons, List.mem_append]; exact .inr hn), ?_⟩
    intro h'
    exact hd.2.2 _ h' _ (List.mem_map_of_mem hn) rfl

theorem filling_fresh {b : Block} (hf : Fresh b) (hl : b.overwrite = false) : Filling b := by
  refine ⟨wf_fresh hf, ?_, hl, ?_, ?_⟩
  · intro s hs; simp [hf.2.1, allLooped] at hs
  · simp [hf.2.2.2, keys, hf.1, dkeys]
  · intro p hp; simp [hf.2.1] at hp

/-! ## Repeated names -/

theorem addColumns_grow (step : Nat) (vals : List PyVal) : ∀ (ns : List Str) {b b' : Block} (i : Nat), b.overwrite = false →
    addColumns step vals b i ns = (b', .ok ()) →
    b'.overwrite = false ∧ (∀ x, x ∈ b'.keys ↔ x ∈ b.keys ∨ x ∈ ns.map lower) ∧ (ns.map lower).Nodup ∧ ∀ n ∈ ns, lower n ∉ b.keys
  | [], b, b', i, hl, h => by
    simp only [addColumns, Prod.mk.injEq, and_true] at h
    subst h
    simp [hl]
  | n :: r, b, b', i, hl, h => by
    by_cases hk : lower n ∈ b.keys
    · rw [addColumns, addItem_dup hl _ _ hk] at h
      simp at h
    · rw [addColumns] at h
      have e1 : b.addItem n (.list (everyFrom step i vals)) true = (b.store n (.list (everyFrom step i vals), .none), .ok ()) := by
        simp [Block.addItem, addItemCheck, contains_false.2 hk]
      rw [e1] at h
      simp only at h
      obtain ⟨a1, a2, a3, a4⟩ := addColumns_grow step vals r (i + 1) (b := b.store n (.list (everyFrom step i vals), .none)) hl h
      have a0 := keys_store b n (.list (everyFrom step i vals), .none)
      refine ⟨a1, ?_, ?_, ?_⟩
      · intro x
        rw [a2, a0, List.map_cons, List.mem_cons]
        constructor
        · rintro ((h | h) | h)
          · exact .inr (.inl h)
          · exact .inl h
          · exact .inr (.inr h)
        · rintro (h | h | h)
          · exact .inl (.inr h)
          · exact .inl (.inl h)
          · exact .inr h
      · rw [List.map_cons, List.nodup_cons]
        refine ⟨?_, a3⟩
        intro h'
        obtain ⟨m, hm, e⟩ := List.mem_map.1 h'
        exact a4 m hm ((a0 _).2 (.inl e))
      · intro m hm
        rcases List.mem_cons.1 hm with rfl | hm
        · exact hk
        · exact fun h' => a4 m hm ((a0 _).2 (.inr h'))

theorem overwrite_addItem (b : Block) (k : Str) (v : PyVal) (pre : Bool) : (b.addItem k v pre).1.overwrite = b.overwrite := by
  unfold Block.addItem; split <;> rfl

theorem overwrite_wrapAll : ∀ (ns : List Str) (b : Block), (b.wrapAll ns).1.overwrite = b.overwrite
  | [], _ => rfl
  | d :: ds, b => by
    unfold wrapAll
    split
    · rfl
    · rename_i v _
      have h : (b.setItem d (.list [v])).1.overwrite = b.overwrite := by
        unfold setItem; split
        · rfl
        · exact overwrite_addItem _ _ _ _
      split
      · rename_i e; rw [e] at h; exact h
      · rename_i b2 e; rw [e] at h; rw [overwrite_wrapAll ds b2]; exact h

theorem overwrite_dropEmpty : ∀ (l : List Nat) (b : Block), (b.dropEmpty l).1.overwrite = b.overwrite
  | [], _ => rfl
  | a :: r, b => by
    unfold dropEmpty
    split
    · rfl
    · rw [overwrite_dropEmpty r]

theorem overwrite_createLoop (b : Block) (ns : List Str) : (b.createLoop ns).1.overwrite = b.overwrite := by
  have h1 : (b.createLoopCheck ns).1.overwrite = b.overwrite := by
    unfold createLoopCheck
    split
    · rfl
    · simp only
      split
      · split <;> rfl
      · split
        · rfl
        · exact overwrite_wrapAll _ _
  have h2 : ∀ b : Block, (b.makeLoop ns (-1)).1.overwrite = b.overwrite := by
    intro b
    unfold Block.makeLoop
    simp only
    split
    · rename_i e
      have := overwrite_dropEmpty (((dropFromLoops b.loops (ns.map lower)).filter fun p => decide (p.2.length = 0)).map (·.1))
        { b with loops := dropFromLoops b.loops (ns.map lower) }
      rw [e] at this
      exact this
    · rename_i e
      have := overwrite_dropEmpty (((dropFromLoops b.loops (ns.map lower)).filter fun p => decide (p.2.length = 0)).map (·.1))
        { b with loops := dropFromLoops b.loops (ns.map lower) }
      rw [e] at this
      exact this
  unfold createLoop
  simp only [if_true]
  split
  · rename_i e; rw [e] at h1; exact h1
  · rename_i e; rw [e] at h1; rw [h2]; exact h1

theorem wf_addColumns (step : Nat) (vals : List PyVal) : ∀ (ns : List Str) {b : Block} (i : Nat), WF b → WF (addColumns step vals b i ns).1
  | [], b, i, h => h
  | n :: r, b, i, h => by
    have h1 := wf_addItem h n (.list (everyFrom step i vals)) true
    unfold addColumns
    split
    · rename_i e; rw [e] at h1; exact h1
    · rename_i e; rw [e] at h1; exact wf_addColumns step vals r (i + 1) h1

/-- A stored entry had new names only. -/
theorem storeEntry_ok {b b' : Block} {e : Entry} (hw : WF b) (hl : b.overwrite = false) (h : storeEntry b e = (b', .ok ())) :
    WF b' ∧ b'.overwrite = false ∧ (∀ x, x ∈ b'.keys ↔ x ∈ b.keys ∨ x ∈ e.names.map lower) ∧ (e.names.map lower).Nodup ∧
      ∀ n ∈ e.names, lower n ∉ b.keys := by
  cases e with
  | item n v =>
    simp only [storeEntry] at h
    by_cases hk : lower n ∈ b.keys
    · rw [addItem_dup hl _ _ hk] at h; simp at h
    · have hw' := wf_addItem hw n v true
      have ho := overwrite_addItem b n v true
      rw [h] at hw' ho
      have e1 : b.addItem n v true = (b.store n (v, .none), .ok ()) := by
        simp [Block.addItem, addItemCheck, contains_false.2 hk]
      rw [e1] at h
      simp only [Prod.mk.injEq, and_true] at h
      refine ⟨hw', ho.trans hl, ?_, by simp [Entry.names], ?_⟩
      · intro x
        rw [← h, keys_store]
        simp only [Entry.names, List.map_cons, List.map_nil, List.mem_singleton]
        exact Or.comm
      · intro m hm
        simp only [Entry.names, List.mem_singleton] at hm
        rw [hm]; exact hk
  | loop ns vals =>
    simp only [storeEntry, makeLoop] at h
    split at h
    · simp at h
    · rename_i l _
      split at h
      · simp at h
      · rename_i b1 e1
        have hw1 := wf_addColumns ns.length (if l = .list [] ∨ l = .slist [] then vals.dropLast else vals) ns 0 hw
        rw [e1] at hw1
        obtain ⟨a1, a2, a3, a4⟩ := addColumns_grow _ _ _ _ hl e1
        have hw2 := wf_createLoop hw1 ns (-1) true a3
        have ho := overwrite_createLoop b1 ns
        have hk := keys_createLoop hw1 ns (-1) true
        rw [h] at hw2 ho hk
        refine ⟨hw2, ho.trans a1, ?_, a3, a4⟩
        intro x
        have hk' : b'.keys = b1.keys := hk
        rw [hk']
        exact a2 x

/-- If a sequence of entries is stored, no name occurs twice in it. -/
theorem storeEntries_ok : ∀ (es : List Entry) {b b' : Block}, WF b → b.overwrite = false → storeEntries b es = (b', .ok ()) →
    Entry.Distinct es ∧ (∀ n ∈ Entry.allNames es, lower n ∉ b.keys) ∧ WF b' ∧ b'.overwrite = false ∧
      ∀ x, x ∈ b'.keys ↔ x ∈ b.keys ∨ x ∈ (Entry.allNames es).map lower
  | [], b, b', hw, hl, h => by
    simp only [storeEntries, Prod.mk.injEq, and_true] at h
    subst h
    simp [Entry.Distinct, Entry.allNames, hw, hl]
  | e :: es, b, b', hw, hl, h => by
    rw [storeEntries] at h
    split at h
    · simp at h
    · rename_i b1 e1
      obtain ⟨a1, a2, a3, a4, a5⟩ := storeEntry_ok hw hl e1
      obtain ⟨c1, c2, c3, c4, c5⟩ := storeEntries_ok es a1 a2 h
      refine ⟨?_, ?_, c3, c4, ?_⟩
      · simp only [Entry.Distinct, Entry.allNames, List.flatMap_cons, List.map_append, List.nodup_append]
        refine ⟨a4, c1, ?_⟩
        intro x hx y hy e
        subst e
        obtain ⟨n, hn, rfl⟩ := List.mem_map.1 hy
        exact c2 n hn ((a3 _).2 (.inr hx))
      · intro n hn
        simp only [Entry.allNames, List.flatMap_cons, List.mem_append] at hn
        rcases hn with hn | hn
        · exact a5 n hn
        · exact fun h' => c2 n hn ((a3 _).2 (.inl h'))
      · intro x
        rw [c5, a3]
        simp only [Entry.allNames, List.flatMap_cons, List.map_append, List.mem_append]
        exact or_assoc

/-! ## Parsing and storing -/

theorem datum_iff (g : Gram) (fuel : Nat) (b : Block) (p : PState) (b' : Block) (p' : PState) :
    datum g fuel b p = .ok (b', p') ↔ ∃ e, readEntry g fuel p = .ok (e, p') ∧ storeEntry b e = (b', .ok ()) := by
  unfold datum readEntry
  cases peek g.lx [.loop, .dataName] p with
  | error x => simp
  | ok r =>
    obtain ⟨t, p1⟩ := r
    simp only
    by_cases ht : t = .loop
    · simp only [if_pos ht]
      cases topLoop g fuel p1 with
      | error x => simp
      | ok r2 =>
        obtain ⟨⟨ns, vals⟩, p2⟩ := r2
        simp only
        cases h : makeLoop b ns vals with
        | mk b2 r3 =>
          cases r3 with
          | error x => simp [storeEntry, h]
          | ok u =>
            cases u
            simp only [Except.ok.injEq, Prod.mk.injEq]
            constructor
            · rintro ⟨rfl, rfl⟩; exact ⟨_, ⟨rfl, rfl⟩, h⟩
            · rintro ⟨e, ⟨rfl, rfl⟩, h'⟩
              simp only [storeEntry, h, Prod.mk.injEq, and_true] at h'
              exact ⟨h', rfl⟩
    · simp only [if_neg ht]
      cases take g.lx .dataName p1 with
      | error x => simp
      | ok r2 =>
        obtain ⟨n, p2⟩ := r2
        simp only
        cases g.value fuel p2 with
        | error x => simp
        | ok r3 =>
          obtain ⟨v, p3⟩ := r3
          simp only
          cases h : b.addItem n v true with
          | mk b2 r4 =>
            cases r4 with
            | error x => simp [storeEntry, h]
            | ok u =>
              cases u
              simp only [Except.ok.injEq, Prod.mk.injEq]
              constructor
              · rintro ⟨rfl, rfl⟩; exact ⟨_, ⟨rfl, rfl⟩, h⟩
              · rintro ⟨e, ⟨rfl, rfl⟩, h'⟩
                simp only [storeEntry, h, Prod.mk.injEq, and_true] at h'
                exact ⟨h', rfl⟩

/-- The repetition in `dataseq` stores what the text says. -/
theorem moreData_iff (g : Gram) : ∀ (fuel : Nat) (b : Block) (p : PState) (b' : Block) (p' : PState),
    moreData g fuel b p = .ok (b', p') ↔ ∃ es, Says g fuel es p p' ∧ storeEntries b es = (b', .ok ())
  | 0, b, p, b', p' => by
    simp only [moreData, reduceCtorEq, false_iff, not_exists, not_and]
    intro es h
    cases h
  | fuel + 1, b, p, b', p' => by
    rw [moreData]
    cases hp : peek g.lx itemFollow p with
    | error x =>
      simp only [reduceCtorEq, false_iff, not_exists, not_and]
      intro es h
      cases h with
      | done _ t _ p1 _ h1 => rw [hp] at h1; simp at h1
      | more _ t e es _ p1 p2 _ h1 => rw [hp] at h1; simp at h1
    | ok r =>
      obtain ⟨t, p1⟩ := r
      simp only
      by_cases ht : t = .loop ∨ t = .dataName
      · rw [if_pos ht]
        constructor
        · intro h
          split at h
          · simp at h
          · rename_i b1 p2 hd
            obtain ⟨e, h1, h2⟩ := (datum_iff _ _ _ _ _ _).1 hd
            obtain ⟨es, h3, h4⟩ := (moreData_iff g fuel _ _ _ _).1 h
            refine ⟨e :: es, .more _ t e es _ p1 p2 _ hp ht h1 h3, ?_⟩
            rw [storeEntries, h2]
            exact h4
        · rintro ⟨es, h, hs⟩
          cases h with
          | done _ t' _ p1' _ h1 h2 h3 =>
            rw [hp] at h1
            simp only [Except.ok.injEq, Prod.mk.injEq] at h1
            rw [← h1.1] at h2 h3
            rcases ht with ht | ht
            · exact absurd ht h2
            · exact absurd ht h3
          | more _ t' e es _ p1' p2 _ h1 _ h2 h3 =>
            rw [hp] at h1
            simp only [Except.ok.injEq, Prod.mk.injEq] at h1
            rw [← h1.2] at h2
            rw [storeEntries] at hs
            split at hs
            · simp at hs
            · rename_i b1 e1
              rw [(datum_iff g fuel b p1 b1 p2).2 ⟨e, h2, e1⟩]
              exact (moreData_iff g fuel _ _ _ _).2 ⟨es, h3, hs⟩
      · rw [if_neg ht]
        constructor
        · intro h
          split at h
          · simp at h
          · rename_i p2 ha
            simp only [Except.ok.injEq, Prod.mk.injEq] at h
            obtain ⟨rfl, rfl⟩ := h
            exact ⟨[], .done _ t _ p1 _ hp (fun e => ht (.inl e)) (fun e => ht (.inr e)) ha, rfl⟩
        · rintro ⟨es, h, hs⟩
          cases h with
          | done _ t' _ p1' _ h1 h2 h3 h4 =>
            rw [hp] at h1
            simp only [Except.ok.injEq, Prod.mk.injEq] at h1
            rw [← h1.2] at h4
            rw [h4]
            simp only [storeEntries, Prod.mk.injEq, and_true] at hs
            rw [hs]
          | more _ t' e es _ p1' p2 _ h1 h2 =>
            rw [hp] at h1
            simp only [Except.ok.injEq, Prod.mk.injEq] at h1
            rw [← h1.1] at h2
            exact absurd h2 ht

end Reader
end Verif
