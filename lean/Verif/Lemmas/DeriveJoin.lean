import Verif.Lemmas.Derive
/-! Joining two categories. -/
namespace Verif.Derive
open Validate
set_option linter.unusedSectionVars false

theorem idxOf_getElem {l : List PyVal} (h : l.Nodup) {i : Nat} {x : PyVal} (hx : l[i]? = some x) : l.idxOf x = i := by
  obtain ⟨hi, rfl⟩ := List.getElem?_eq_some_iff.1 hx
  exact List.Nodup.idxOf_getElem h i hi

/-- All pairs of rows. -/
def rowPairs (a b : Nat) : List (Nat × Nat) := (List.range a).flatMap fun i => (List.range b).map fun j => (i, j)

theorem mem_rowPairs {a b i j : Nat} : (i, j) ∈ rowPairs a b ↔ i < a ∧ j < b := by
  simp [rowPairs, List.mem_flatMap]

theorem nodup_rowPairs (a b : Nat) : (rowPairs a b).Nodup := by
  unfold rowPairs
  rw [List.nodup_iff_pairwise_ne, List.flatMap_def, List.pairwise_flatten]
  refine ⟨fun l hl => ?_, ?_⟩
  · obtain ⟨i, _, rfl⟩ := List.mem_map.1 hl
    rw [List.pairwise_map]
    exact List.nodup_range.imp fun h e => h (by injection e)
  · rw [List.pairwise_map]
    refine List.nodup_range.imp fun h x hx y hy e => ?_
    obtain ⟨j, _, rfl⟩ := List.mem_map.1 hx
    obtain ⟨j', _, rfl⟩ := List.mem_map.1 hy
    injection e with e1
    exact h e1

theorem map_range_getElem (l : List PyVal) (d : PyVal) : (List.range l.length).map (fun i => (l[i]?).getD d) = l := by
  refine List.ext_getElem? fun i => ?_
  by_cases h : i < l.length
  · simp [h]
  · rw [List.getElem?_eq_none (by simp; omega), List.getElem?_eq_none (by omega)]

theorem product_eq (k1 k2 : List PyVal) (d : PyVal) : (k1.flatMap fun x => k2.map fun y => (x, y)) =
    (rowPairs k1.length k2.length).map fun p => ((k1[p.1]?).getD d, (k2[p.2]?).getD d) := by
  conv => lhs; rw [← map_range_getElem k1 d, ← map_range_getElem k2 d]
  unfold rowPairs
  rw [List.flatMap_map, List.map_flatMap]
  simp only [List.map_map]
  rfl

theorem select_map {α β : Type} {f : β → Except PyErr Bool} {g : α → β} {p : α → Bool} : ∀ {l : List α},
    (∀ a ∈ l, f (g a) = .ok (p a)) → select f (l.map g) = .ok ((l.filter p).map g)
  | [], _ => rfl
  | a :: l, h => by
    have ih := select_map (f := f) (g := g) (p := p) (l := l) fun b hb => h b (List.mem_cons_of_mem _ hb)
    simp only [List.map_cons, select, h a List.mem_cons_self, ih, List.filter_cons]
    cases p a <;> rfl

theorem pullback_rows {k1 m1 k2 m2 : List PyVal} (h1 : k1.Nodup) (h2 : k2.Nodup) (e1 : m1.length = k1.length)
    (e2 : m2.length = k2.length) : ∃ rows ids, pullback k1 m1 k2 m2 = .ok ids ∧ Joined m1 m2 rows ∧
      entries k1 (rows.map (·.1)) (ids.map (·.1)) ∧ entries k2 (rows.map (·.2)) (ids.map (·.2)) := by
  refine ⟨(rowPairs k1.length k2.length).filter fun p => decide (m1[p.1]? = m2[p.2]?),
    ((rowPairs k1.length k2.length).filter fun p => decide (m1[p.1]? = m2[p.2]?)).map
      fun p => ((k1[p.1]?).getD .none, (k2[p.2]?).getD .none), ?_, ?_, ?_, ?_⟩
  · unfold pullback
    rw [product_eq k1 k2 .none]
    refine select_map fun p hp => ?_
    obtain ⟨i, j⟩ := p
    obtain ⟨hi, hj⟩ := mem_rowPairs.1 hp
    unfold linked nth
    have a1 : k1[i]? = some k1[i] := List.getElem?_eq_getElem hi
    have a2 : k2[j]? = some k2[j] := List.getElem?_eq_getElem hj
    have b1 : m1[i]? = some m1[i] := List.getElem?_eq_getElem (by omega)
    have b2 : m2[j]? = some m2[j] := List.getElem?_eq_getElem (by omega)
    simp only [a1, a2, Option.getD_some, idxOf_getElem h1 a1, idxOf_getElem h2 a2, b1, b2, Option.some.injEq]
  · refine ⟨(nodup_rowPairs _ _).filter _, fun i j => ?_⟩
    rw [List.mem_filter, mem_rowPairs, e1, e2]
    simp only [decide_eq_true_eq]
    exact and_assoc
  · unfold entries
    simp only [List.map_map]
    refine List.map_congr_left fun p hp => ?_
    have := (mem_rowPairs.1 (List.mem_filter.1 hp).1).1
    simp [this]
  · unfold entries
    simp only [List.map_map]
    refine List.map_congr_left fun p hp => ?_
    have := (mem_rowPairs.1 (List.mem_filter.1 hp).1).2
    simp [this]

theorem nodup_rangeVals (n : Nat) : (rangeVals n).Nodup := by
  unfold rangeVals
  rw [List.nodup_iff_pairwise_ne, List.pairwise_map]
  refine List.nodup_range.imp fun {a b} h e => h ?_
  injection e with e
  have e' : Nat.toDigits 10 a = Nat.toDigits 10 b := by
    rw [← Nat.toList_repr, ← Nat.toList_repr]
    exact e
  have := congrArg (fun l => Nat.ofDigitChars 10 l 0) e'
  simpa [Nat.ofDigitChars_toDigits] using this

variable [CaseFold] {E : Engine}

theorem indexOf_rows {k : List PyVal} (hk : k.Nodup) {rows : List Nat} {vals : List PyVal} (h : entries k rows vals) :
    mapE (indexOf k) vals = .ok rows := by
  unfold entries at h
  induction rows generalizing vals with
  | nil =>
    cases vals with
    | nil => rfl
    | cons v vs => simp at h
  | cons i rows ih =>
    cases vals with
    | nil => simp at h
    | cons v vs =>
      simp only [List.map_cons, List.cons.injEq] at h
      have hm : v ∈ k := List.mem_of_getElem? h.1
      simp only [mapE, indexOf, hm, if_true, idxOf_getElem hk h.1, ih h.2]

/-- The values of a column in the given rows. -/
def atRows (rows : List Nat) (col : List PyVal) : List PyVal := rows.map fun i => (col[i]?).getD .none

theorem entries_atRows {rows : List Nat} {col : List PyVal} (h : ∀ i ∈ rows, i < col.length) : entries col rows (atRows rows col) := by
  unfold entries atRows
  rw [List.map_map]
  refine List.map_congr_left fun i hi => ?_
  simp [h i hi]

theorem nth_rows {rows : List Nat} {col : List PyVal} (h : ∀ i ∈ rows, i < col.length) : mapE (nth col) rows = .ok (atRows rows col) := by
  unfold atRows
  induction rows with
  | nil => rfl
  | cons i rows ih =>
    have hi := h i List.mem_cons_self
    have hn : nth col i = .ok col[i] := by simp [nth, List.getElem?_eq_getElem hi]
    simp only [mapE, hn, ih fun j hj => h j (List.mem_cons_of_mem _ hj), List.map_cons, List.getElem?_eq_getElem hi, Option.getD_some]

theorem get_run {ask der : Str → St → Res} {s : St} {n : Str} {l : List PyVal} (h : Column ask s n l) (k : PyVal → Prog) :
    run ask der (get (.str n) k) s = run ask der (k (.list l)) s := by
  unfold Column at h
  simp only [get, run, h, andThen]

theorem projectSome_run {ask der : Str → St → Res} {s : St} {c1 c2 key : Str} {key1 keyVals : List PyVal} {rows : List Nat}
    {dst : Str → Str} {col : Str → List PyVal} (hk : Column ask s key key1) (hpos : mapE (indexOf key1) keyVals = .ok rows)
    (k : List (Str × PyVal) → Prog) : ∀ (ns : List Str) (last : Option PyVal) (acc : List (Str × PyVal)),
    (∀ o ∈ ns, ∃ a, catObjLower E (.str c1) (.str o) = .ok (.str a) ∧ catObjLower E (.str c2) (.str o) = .ok (.str (dst o)) ∧
      Column ask s a (col o) ∧ ∀ i ∈ rows, i < (col o).length) →
    run ask der (projectSome E (.str c1) (.str c2) (.str key) keyVals (ns.map .str) last acc k) s =
      run ask der (k (ns.foldl (fun acc o => dset acc (dst o) (.list (atRows rows (col o)))) acc)) s
  | [], _, acc, _ => rfl
  | o :: ns, last, acc, h => by
    obtain ⟨a, h1, h2, h3, h4⟩ := h o List.mem_cons_self
    rw [List.map_cons, projectSome]
    simp only [lift, h1, h2, asName]
    rw [get_run hk]
    simp only [Block.pyIter, hpos]
    have hsub : run ask der (get (.str a) .ret) { s with provide := false || s.provide } = some (s, .ok (.list (col o))) := by
      rw [Bool.false_or]
      have := get_run (der := der) h3 .ret
      simp only [run] at this
      exact this
    rw [run]
    simp only [hsub, columnOr, nth_rows h4]
    have ih := projectSome_run (der := der) hk hpos k ns (some (.list (col o))) (dset acc (dst o) (.list (atRows rows (col o))))
      fun o' ho' => h o' (List.mem_cons_of_mem _ ho')
    exact ih

theorem nodup_eraseDups' : ∀ (n : Nat) (l : List PyVal), l.length ≤ n → l.eraseDups.Nodup
  | _, [], _ => by simp
  | 0, a :: l, h => by simp at h
  | n + 1, a :: l, h => by
    rw [List.eraseDups_cons, List.nodup_cons]
    refine ⟨fun hm => ?_, nodup_eraseDups' n _ ?_⟩
    · rw [List.mem_eraseDups, List.mem_filter] at hm
      simp at hm
    · have := List.length_filter_le (fun b => !b == a) l
      simp only [List.length_cons] at h
      omega

theorem all_str {l : List PyVal} (h : ∀ x ∈ l, ∃ s, x = PyVal.str s) : ∃ ns : List Str, l = ns.map .str := by
  induction l with
  | nil => exact ⟨[], rfl⟩
  | cons a l ih =>
    obtain ⟨s, rfl⟩ := h a List.mem_cons_self
    obtain ⟨ns, rfl⟩ := ih fun x hx => h x (List.mem_cons_of_mem _ hx)
    exact ⟨s :: ns, rfl⟩

theorem duplicate_run {ask der : Str → St → Res} {s : St} {c1 c2 key : Str} {key1 : List PyVal} {skip : List Str}
    {dst : Str → Str} {col : Str → List PyVal} (hC : Copied E ask s c1 c2 key key1.length skip dst col) (hp : ∀ l, (E.pick l).Perm l)
    (hk : Column ask s key key1) (hn : key1.Nodup) {rows : List Nat} {keyVals : List PyVal} (hr : ∀ i ∈ rows, i < key1.length)
    (hv : entries key1 rows keyVals) : ∃ ns : List Str, ns.Nodup ∧ (∀ o, o ∈ ns ↔ SharedObj E c1 c2 skip o) ∧
      ∀ k, run ask der (duplicate E (.str c1) (.str c2) (some keyVals) (skip.map .str) k) s =
        run ask der (k (ns.foldl (fun acc o => dset acc (dst o) (.list (atRows rows (col o)))) [])) s := by
  obtain ⟨l1, hl1⟩ := hC.objs1
  obtain ⟨l2, hl2⟩ := hC.objs2
  have hinj : ∀ {x : Str} {l : List Str}, PyVal.str x ∈ l.map PyVal.str ↔ x ∈ l := by
    intro x l
    simp
  have hfil : (((l1.map PyVal.str).filter fun a => decide (a ∈ l2.map PyVal.str)).filter fun a => decide (a ∉ skip.map PyVal.str)) =
      ((l1.filter fun a => decide (a ∈ l2)).filter fun a => decide (a ∉ skip)).map PyVal.str := by
    rw [List.filter_map, List.filter_map]
    congr 1
    simp only [Function.comp_def, hinj]
  have hperm := hp (((l1.filter fun a => decide (a ∈ l2)).filter fun a => decide (a ∉ skip)).map PyVal.str).eraseDups
  obtain ⟨ns, hns⟩ := all_str (l := E.pick (((l1.filter fun a => decide (a ∈ l2)).filter fun a => decide (a ∉ skip)).map PyVal.str).eraseDups)
    fun x hx => by
      rw [hperm.mem_iff, List.mem_eraseDups, List.mem_map] at hx
      obtain ⟨o, _, rfl⟩ := hx
      exact ⟨o, rfl⟩
  have hmem : ∀ o, o ∈ ns ↔ SharedObj E c1 c2 skip o := by
    intro o
    rw [← hinj (x := o) (l := ns), ← hns, hperm.mem_iff, List.mem_eraseDups, hinj]
    simp only [List.mem_filter, decide_eq_true_eq]
    unfold SharedObj
    constructor
    · rintro ⟨⟨h1, h2⟩, h3⟩
      exact ⟨_, _, hl1, hl2, hinj.2 h1, hinj.2 h2, h3⟩
    · rintro ⟨s, t, e1, e2, h1, h2, h3⟩
      rw [hl1] at e1
      rw [hl2] at e2
      injection e1 with e1
      injection e2 with e2
      subst e1 e2
      exact ⟨⟨hinj.1 h1, hinj.1 h2⟩, h3⟩
  refine ⟨ns, ?_, hmem, fun k => ?_⟩
  · have h := (hperm.nodup_iff).2 (nodup_eraseDups' _ _ (Nat.le_refl _))
    rw [hns] at h
    rw [List.nodup_iff_pairwise_ne, List.pairwise_map] at h
    exact h.imp fun hne e => hne (by rw [e])
  · unfold duplicate
    simp only [lift, hl1, hl2, hC.keyed]
    rw [hfil, hns]
    refine projectSome_run hk (indexOf_rows hn hv) k ns none [] fun o ho => ?_
    have ho := (hmem o).1 ho
    obtain ⟨a, r, h1, h2⟩ := hC.from_ o ho
    obtain ⟨r', h3⟩ := hC.to_ o ho
    refine ⟨a, ?_, ?_, h2, fun i hi => by rw [hC.len o ho]; exact hr i hi⟩
    · simp only [catObjLower, CifDic.lowered, catObjName, h1, nth, List.getElem?_cons_zero]
    · simp only [catObjLower, CifDic.lowered, catObjName, h3, nth, List.getElem?_cons_zero]

theorem dget_fold {dst : Str → Str} {f : Str → PyVal} : ∀ (ns : List Str) (acc : List (Str × PyVal)), ns.Nodup →
    (∀ o ∈ ns, ∀ o' ∈ ns, dst o = dst o' → o = o') →
    (∀ o ∈ ns, dget (ns.foldl (fun acc o => dset acc (dst o) (f o)) acc) (dst o) = some (f o)) ∧
    ∀ x, (∀ o ∈ ns, dst o ≠ x) → dget (ns.foldl (fun acc o => dset acc (dst o) (f o)) acc) x = dget acc x
  | [], _, _, _ => ⟨fun o h => (by cases h), fun _ _ => rfl⟩
  | a :: ns, acc, hn, hi => by
    rw [List.nodup_cons] at hn
    obtain ⟨h1, h2⟩ := dget_fold (dst := dst) (f := f) ns (dset acc (dst a) (f a)) hn.2
      fun o ho o' ho' => hi o (List.mem_cons_of_mem _ ho) o' (List.mem_cons_of_mem _ ho')
    rw [List.foldl_cons]
    refine ⟨fun o ho => ?_, fun x hx => ?_⟩
    · rcases List.mem_cons.1 ho with rfl | ho
      · rw [h2 _ fun o' ho' e => hn.1 (hi o' (List.mem_cons_of_mem _ ho') o List.mem_cons_self e ▸ ho'), dget_dset, if_pos rfl]
      · exact h1 o ho
    · rw [h2 x fun o ho => hx o (List.mem_cons_of_mem _ ho), dget_dset, if_neg fun e => hx a List.mem_cons_self e]

theorem nodup_fold {dst : Str → Str} {f : Str → PyVal} : ∀ (ns : List Str) (acc : List (Str × PyVal)), (dkeys acc).Nodup →
    (dkeys (ns.foldl (fun acc o => dset acc (dst o) (f o)) acc)).Nodup
  | [], _, h => h
  | _ :: ns, _, h => nodup_fold ns _ (nodup_dkeys_dset _ _ _ h)

theorem getAll_run {ask der : Str → St → Res} {s : St} : ∀ (ns : List (Str × List PyVal)) (k : List PyVal → Prog),
    (∀ p ∈ ns, Column ask s p.1 p.2) →
    run ask der (getAll (ns.map fun p => .str p.1) k) s = run ask der (k (ns.map fun p => .list p.2)) s
  | [], _, _ => rfl
  | p :: ns, k, h => by
    rw [List.map_cons, getAll, get_run (h p List.mem_cons_self),
      getAll_run ns _ fun q hq => h q (List.mem_cons_of_mem _ hq)]
    rfl

end Verif.Derive
