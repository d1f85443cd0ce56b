import Verif.Lemmas.DeriveJoin
import Verif.Props.Derive
/-! # C60: constructing categories -/
set_option linter.unusedSectionVars false
namespace Verif.Derive
open Validate
variable [CaseFold]

theorem contains_of_ok {b : Block} {a : Str} {v : PyVal} (h : b.getItem a = .ok v) : b.contains a = true := by
  unfold Block.getItem at h
  split at h
  · cases h
  · split at h
    · cases h
    · rename_i he
      unfold Block.getFullItemValue at he
      unfold Block.contains
      split at he
      · cases he
      · rename_i hg
        exact decide_eq_true (dget_isSome.1 ⟨_, hg⟩)

theorem getD_of_ok {b : Block} {a : Str} {v d : PyVal} (h : b.getItem a = .ok v) : CifDic.getD b a d = .ok v := by
  rw [CifDic.getD, if_pos (contains_of_ok h), h]

/-- C60: a category constructed by pullback has exactly one packet for every pair of rows with equal linking values: there is a
list of these pairs, each once, such that the two key columns hold the keys of the rows. The columns copied from the two
categories hold the values of the same rows. -/
theorem C60_pullback {ask der : Str → St → Res} {E : Engine} {s : St} {cat f1 f2 c1 c2 q1 q2 o1 o2 n1 n2 : Str} {b : Block}
    {m1 m2 k1 k2 : List PyVal} {dst1 dst2 : Str → Str} {col1 col2 : Str → List PyVal}
    (hP : IsPullback E cat f1 f2 c1 c2 q1 q2 o1 o2 n1 n2 b) (hp : ∀ l, (E.pick l).Perm l)
    (hm1 : Column ask s f1 m1) (hm2 : Column ask s f2 m2) (hk1 : Column ask s q1 k1) (hk2 : Column ask s q2 k2)
    (hn1 : k1.Nodup) (hn2 : k2.Nodup) (hl1 : m1.length = k1.length) (hl2 : m2.length = k2.length)
    (hC1 : Copied E ask s c1 cat q1 k1.length [o1, o2] dst1 col1) (hC2 : Copied E ask s c2 cat q2 k2.length [o1, o2] dst2 col2)
    (hne : n1 ≠ n2) (hs1 : ∀ o, SharedObj E c1 cat [o1, o2] o → dst1 o ≠ n1 ∧ dst1 o ≠ n2)
    (hs2 : ∀ o, SharedObj E c2 cat [o1, o2] o → dst2 o ≠ n1 ∧ dst2 o ≠ n2) :
    ∃ (rows : List (Nat × Nat)) (d : List (Str × PyVal)) (l1 l2 : List PyVal), Joined m1 m2 rows ∧
      (rows = [] → run ask der (construct E (.str cat)) s = some (s, .ok (.sdict []))) ∧
      (rows ≠ [] → run ask der (construct E (.str cat)) s =
        some ({ s with block := (storeCat E (.sdict d) (.str cat) s.block).1 },
          (storeCat E (.sdict d) (.str cat) s.block).2.map fun _ => .sdict d)) ∧
      dget d n1 = some (.list l1) ∧ entries k1 (rows.map (·.1)) l1 ∧ dget d n2 = some (.list l2) ∧ entries k2 (rows.map (·.2)) l2 ∧
      (∀ o, SharedObj E c1 cat [o1, o2] o → (∀ o', SharedObj E c2 cat [o1, o2] o' → dst2 o' ≠ dst1 o) →
        ∃ l, dget d (dst1 o) = some (.list l) ∧ entries (col1 o) (rows.map (·.1)) l) ∧
      (∀ o, SharedObj E c2 cat [o1, o2] o → ∃ l, dget d (dst2 o) = some (.list l) ∧ entries (col2 o) (rows.map (·.2)) l) := by
  obtain ⟨rows, ids, hpb, hj, he1, he2⟩ := pullback_rows hn1 hn2 hl1 hl2
  have hr1 : ∀ i ∈ rows.map (·.1), i < k1.length := fun i hi => by
    obtain ⟨p, hp, rfl⟩ := List.mem_map.1 hi
    have := ((hj.2 p.1 p.2).1 hp).1
    omega
  have hr2 : ∀ i ∈ rows.map (·.2), i < k2.length := fun i hi => by
    obtain ⟨p, hp, rfl⟩ := List.mem_map.1 hi
    have := ((hj.2 p.1 p.2).1 hp).2.1
    omega
  obtain ⟨ns1, nd1, mem1, hd1⟩ := duplicate_run (der := der) hC1 hp hk1 hn1 hr1 he1
  obtain ⟨ns2, nd2, mem2, hd2⟩ := duplicate_run (der := der) hC2 hp hk2 hn2 hr2 he2
  obtain ⟨a1, b1⟩ := dget_fold (dst := dst1) (f := fun o => .list (atRows (rows.map (·.1)) (col1 o))) ns1 [] nd1
    fun o ho o' ho' => hC1.inj o o' ((mem1 o).1 ho) ((mem1 o').1 ho')
  obtain ⟨a2, b2⟩ := dget_fold (dst := dst2) (f := fun o => .list (atRows (rows.map (·.2)) (col2 o))) ns2 [] nd2
    fun o ho o' ho' => hC2.inj o o' ((mem2 o).1 ho) ((mem2 o').1 ho')
  generalize hf1 : ns1.foldl (fun acc o => dset acc (dst1 o) (PyVal.list (atRows (rows.map (·.1)) (col1 o)))) [] = e1 at a1 b1 hd1
  generalize hf2 : ns2.foldl (fun acc o => dset acc (dst2 o) (PyVal.list (atRows (rows.map (·.2)) (col2 o)))) [] = e2 at a2 b2 hd2
  have kn1 : (dkeys e1).Nodup := by rw [← hf1]; exact nodup_fold _ _ List.nodup_nil
  have kn2 : (dkeys e2).Nodup := by rw [← hf2]; exact nodup_fold _ _ List.nodup_nil
  have hget : ∀ x, dget (dupdate (dupdate (dset [(n1, PyVal.list (ids.map (·.1)))] n2 (.list (ids.map (·.2)))) e1) e2) x =
      (dget e2 x).or ((dget e1 x).or (dget (dset [(n1, PyVal.list (ids.map (·.1)))] n2 (.list (ids.map (·.2)))) x)) := fun x => by
    rw [dget_dupdate _ _ kn2, dget_dupdate _ _ kn1]
  have hnone : ∀ x, dget ([] : List (Str × PyVal)) x = none := fun _ => rfl
  have hids : ids = [] ↔ rows = [] := by
    have := congrArg List.length he1
    simp only [List.length_map] at this
    rw [← List.length_eq_zero_iff, ← List.length_eq_zero_iff, this]
  have hrun : run ask der (construct E (.str cat)) s = run ask der (constructFrom E (.str cat) b true [.str c1, .str c2] ids) s := by
    unfold construct
    have hdef : defn E (.str cat) = .ok b := hP.found
    simp only [lift, hdef, getD_of_ok hP.type_]
    rw [if_neg (by decide), if_pos (by decide)]
    simp only [hP.parts, Block.pyIter]
    have h1 := getAll_run (ask := ask) (der := der) (s := s) [(f1, m1), (f2, m2)]
    simp only [List.map_cons, List.map_nil, List.mem_cons, List.not_mem_nil, or_false, forall_eq_or_imp, forall_eq] at h1
    rw [h1 _ ⟨hm1, hm2⟩]
    simp only [mapE, hP.cat1, hP.cat2, hP.key1, hP.key2]
    have h2 := getAll_run (ask := ask) (der := der) (s := s) [(q1, k1), (q2, k2)]
    simp only [List.map_cons, List.map_nil, List.mem_cons, List.not_mem_nil, or_false, forall_eq_or_imp, forall_eq] at h2
    rw [h2 _ ⟨hk1, hk2⟩]
    simp only [mapE, Block.pyIter]
    rw [if_neg (by decide)]
    have : pullbackOf [k1, k2] [m1, m2] = .ok ids := by
      unfold pullbackOf
      cases k1 with
      | nil => simp only [pullback, List.flatMap_nil, select] at hpb; injection hpb with hpb; rw [hpb]
      | cons x k1 => exact hpb
    simp only [this]
  refine ⟨rows, dupdate (dupdate (dset [(n1, PyVal.list (ids.map (·.1)))] n2 (.list (ids.map (·.2)))) e1) e2,
    ids.map (·.1), ids.map (·.2), hj, fun h0 => ?_, fun h0 => ?_, ?_, he1, ?_, he2, fun o ho hno => ?_, fun o ho => ?_⟩
  · rw [hrun, hids.2 h0]
    rfl
  · rw [hrun]
    unfold constructFrom
    rw [if_neg (fun h => h0 (hids.1 h))]
    obtain ⟨r1, hn1'⟩ := hP.name1
    obtain ⟨r2, hn2'⟩ := hP.name2
    simp only [lift, hP.ids, Block.pyIter, mapE, catObjName, hn1', hn2', nth, List.getElem?_cons_zero, List.getElem?_cons_succ, asName,
      if_true]
    simp only [List.map_cons, List.map_nil] at hd1 hd2
    rw [hd1, hd2]
    simp only [run]
    cases storeCat E (.sdict (dupdate (dupdate (dset [(n1, PyVal.list (ids.map (·.1)))] n2 (.list (ids.map (·.2)))) e1) e2)) (.str cat) s.block with
    | mk b' r => cases r <;> rfl
  · rw [hget, b1 n1 fun o ho => (hs1 o ((mem1 o).1 ho)).1, b2 n1 fun o ho => (hs2 o ((mem2 o).1 ho)).1, hnone, dget_dset,
      if_neg (Ne.symm hne)]
    simp [dget]
  · rw [hget, b1 n2 fun o ho => (hs1 o ((mem1 o).1 ho)).2, b2 n2 fun o ho => (hs2 o ((mem2 o).1 ho)).2, hnone, dget_dset, if_pos rfl]
    rfl
  · refine ⟨atRows (rows.map (·.1)) (col1 o), ?_, entries_atRows fun i hi => by rw [hC1.len o ho]; exact hr1 i hi⟩
    rw [hget, b2 (dst1 o) fun o' ho' => hno o' ((mem2 o').1 ho'), a1 o ((mem1 o).2 ho), hnone]
    rfl
  · refine ⟨atRows (rows.map (·.2)) (col2 o), ?_, entries_atRows fun i hi => by rw [hC2.len o ho]; exact hr2 i hi⟩
    rw [hget, a2 o ((mem2 o).2 ho)]
    rfl

theorem getD_absent {b : Block} {a : Str} {d : PyVal} (h : b.contains a = false) : CifDic.getD b a d = .ok d := by
  rw [CifDic.getD, h]
  rfl

/-- C60: a category constructed by a filter has exactly one packet for every row whose linking value is among the values of the
filter. -/
theorem C60_filter {ask der : Str → St → Res} {E : Engine} {s : St} {cat f c q o n : Str} {b : Block} {m k vals : List PyVal}
    {dst : Str → Str} {col : Str → List PyVal} (hF : IsFilter E cat f c q o n vals b) (hp : ∀ l, (E.pick l).Perm l)
    (hm : Column ask s f m) (hk : Column ask s q k) (hn : k.Nodup) (hl : m.length = k.length) (hv : vals.Nodup)
    (hC : Copied E ask s c cat q k.length [o] dst col) (hs : ∀ x, SharedObj E c cat [o] x → dst x ≠ n) :
    ∃ (rows : List Nat) (d : List (Str × PyVal)) (l : List PyVal), rows.Nodup ∧ (∀ i, i ∈ rows ↔ ∃ v ∈ vals, m[i]? = some v) ∧
      (rows = [] → run ask der (construct E (.str cat)) s = some (s, .ok (.sdict []))) ∧
      (rows ≠ [] → run ask der (construct E (.str cat)) s =
        some ({ s with block := (storeCat E (.sdict d) (.str cat) s.block).1 },
          (storeCat E (.sdict d) (.str cat) s.block).2.map fun _ => .sdict d)) ∧
      dget d n = some (.list l) ∧ entries k rows l ∧
      (∀ x, SharedObj E c cat [o] x → ∃ l, dget d (dst x) = some (.list l) ∧ entries (col x) rows l) := by
  obtain ⟨rows, ids, hpb, hj, he1, _⟩ := pullback_rows hn (nodup_rangeVals vals.length) hl (m2 := vals) (by simp [rangeVals])
  have hr1 : ∀ i ∈ rows.map (·.1), i < k.length := fun i hi => by
    obtain ⟨p, hp, rfl⟩ := List.mem_map.1 hi
    have := ((hj.2 p.1 p.2).1 hp).1
    omega
  obtain ⟨ns1, nd1, mem1, hd1⟩ := duplicate_run (der := der) hC hp hk hn hr1 he1
  obtain ⟨a1, b1⟩ := dget_fold (dst := dst) (f := fun o => .list (atRows (rows.map (·.1)) (col o))) ns1 [] nd1
    fun o ho o' ho' => hC.inj o o' ((mem1 o).1 ho) ((mem1 o').1 ho')
  generalize hf1 : ns1.foldl (fun acc o => dset acc (dst o) (PyVal.list (atRows (rows.map (·.1)) (col o)))) [] = e1 at a1 b1 hd1
  have kn1 : (dkeys e1).Nodup := by rw [← hf1]; exact nodup_fold _ _ List.nodup_nil
  have hget : ∀ x, dget (dupdate [(n, PyVal.list (ids.map (·.1)))] e1) x =
      (dget e1 x).or (dget [(n, PyVal.list (ids.map (·.1)))] x) := fun x => by
    rw [dget_dupdate _ _ kn1]
  have hids : ids = [] ↔ rows.map (·.1) = [] := by
    have := congrArg List.length he1
    simp only [List.length_map] at this
    rw [← List.length_eq_zero_iff, ← List.length_eq_zero_iff, List.length_map, this]
  have hrun : run ask der (construct E (.str cat)) s = run ask der (constructFrom E (.str cat) b false [.str c] ids) s := by
    unfold construct
    have hdef : defn E (.str cat) = .ok b := hF.found
    simp only [lift, hdef, getD_of_ok hF.type_]
    rw [if_neg (by decide), if_pos (by decide)]
    simp only [hF.parts, Block.pyIter]
    have h1 := getAll_run (ask := ask) (der := der) (s := s) [(f, m)]
    simp only [List.map_cons, List.map_nil, List.mem_cons, List.not_mem_nil, or_false, forall_eq] at h1
    rw [h1 _ hm]
    simp only [mapE, hF.cat1, hF.key1]
    have h2 := getAll_run (ask := ask) (der := der) (s := s) [(q, k)]
    simp only [List.map_cons, List.map_nil, List.mem_cons, List.not_mem_nil, or_false, forall_eq] at h2
    rw [h2 _ hk]
    simp only [mapE, Block.pyIter]
    have : pullbackOf ([k] ++ [rangeVals vals.length]) [m, vals] = .ok ids := by
      unfold pullbackOf
      cases k with
      | nil => simp only [pullback, List.flatMap_nil, select] at hpb; injection hpb with hpb; subst hpb; rfl
      | cons x k => exact hpb
    rcases hF.values with ⟨g1, g2⟩ | ⟨w, g1, g2, g3⟩
    · simp only [getD_absent g1, getD_of_ok g2, intFilter, textFilter, if_true, Block.pyIter, List.append_nil, lastOf,
        reduceCtorEq, if_false, List.cons_append, List.nil_append, List.getLast?_cons_cons, List.getLast?_singleton]
      simp only [List.cons_append, List.nil_append] at this
      simp only [this]
    · simp only [getD_absent g3, getD_of_ok g1, intFilter, textFilter, if_true, Block.pyIter, List.append_nil, lastOf, g2,
        reduceCtorEq, if_false, List.cons_append, List.nil_append, List.getLast?_cons_cons, List.getLast?_singleton]
      simp only [List.cons_append, List.nil_append] at this
      simp only [this]
  refine ⟨rows.map (·.1), dupdate [(n, PyVal.list (ids.map (·.1)))] e1, ids.map (·.1), ?_, fun i => ?_, fun h0 => ?_, fun h0 => ?_,
    ?_, he1, fun x hx => ?_⟩
  · rw [List.nodup_iff_pairwise_ne, List.pairwise_map]
    refine hj.1.imp_of_mem fun {p p'} h1 h2 hne e => hne ?_
    obtain ⟨i, j⟩ := p
    obtain ⟨i', j'⟩ := p'
    simp only at e
    subst e
    have e1 := (hj.2 i j).1 h1
    have e2 := (hj.2 i j').1 h2
    have hjj : vals[j]? = vals[j']? := e1.2.2.symm.trans e2.2.2
    have hv1 : vals[j]? = some vals[j] := List.getElem?_eq_getElem e1.2.1
    rw [← idxOf_getElem hv hv1, ← idxOf_getElem hv (hjj.symm.trans hv1)]
  · constructor
    · intro hi
      obtain ⟨⟨i', j⟩, h1, rfl⟩ := List.mem_map.1 hi
      obtain ⟨h2, h3, h4⟩ := (hj.2 i' j).1 h1
      exact ⟨vals[j], List.getElem_mem h3, by rw [h4, List.getElem?_eq_getElem h3]⟩
    · rintro ⟨v, h1, h2⟩
      obtain ⟨j, h3, rfl⟩ := List.mem_iff_getElem.1 h1
      exact List.mem_map.2 ⟨(i, j), (hj.2 i j).2 ⟨(List.getElem?_eq_some_iff.1 h2).1, h3, by rw [h2, List.getElem?_eq_getElem h3]⟩, rfl⟩
  · rw [hrun, hids.2 h0]
    rfl
  · rw [hrun]
    unfold constructFrom
    rw [if_neg (fun h => h0 (hids.1 h))]
    obtain ⟨r1, hn1'⟩ := hF.name1
    simp only [lift, hF.ids, Block.pyIter, mapE, catObjName, hn1', nth, List.getElem?_cons_zero, asName, Bool.false_eq_true, if_false]
    simp only [List.map_cons, List.map_nil] at hd1
    rw [hd1]
    simp only [run]
    cases storeCat E (.sdict (dupdate [(n, PyVal.list (ids.map (·.1)))] e1)) (.str cat) s.block with
    | mk b' r => cases r <;> rfl
  · rw [hget, b1 n fun o ho => hs o ((mem1 o).1 ho)]
    simp [dget]
  · refine ⟨atRows (rows.map (·.1)) (col x), ?_, entries_atRows fun i hi => by rw [hC.len x hx]; exact hr1 i hi⟩
    rw [hget, a1 x ((mem1 x).2 hx)]
    rfl

theorem getItem_raw {E : Engine} {call : Call} {key : Str} {s : St} {raw : PyVal} {f : Bool} (hk : key ≠ Block.saves)
    (h : s.block.getFullItemValue key = .ok (raw, f)) (hp : s.provide = false) : getItem E call key s = some (s, .ok raw) := by
  unfold getItem
  rw [if_neg hk, h]
  simp [hp]

/-- C60: with values read as they stand in the block, the columns that are present are those the constructions join. -/
theorem C60_present {E : Engine} {call : Call} {s : St} {n : Str} {l : List PyVal} (hp : s.provide = false)
    (h : s.block.getItem n = .ok (.list l)) : Column (getItem E call) s n l := by
  unfold Block.getItem at h
  split at h
  · cases h
  · rename_i hk
    split at h
    · cases h
    · rename_i v f he
      simp only [Except.ok.injEq] at h
      subst h
      exact getItem_raw hk he hp

section Samples
attribute [local instance] asciiFold

/-- The definition of a category constructed by pullback. -/
def pullbackDef : List (String × PyVal) :=
  [("_name.category_id", txt "h"), ("_name.object_id", txt "p"), ("_category_construct_local.type", txt "Pullback"),
   ("_category_construct_local.components", .list [txt "_u.link", txt "_v.link"]),
   ("_category_construct_local.new_ids", .list [txt "a", txt "b"])]

/-- The definition of a category constructed by a filter. -/
def filterDef : List (String × PyVal) :=
  [("_name.category_id", txt "h"), ("_name.object_id", txt "f"), ("_category_construct_local.type", txt "Filter"),
   ("_category_construct_local.components", .list [txt "_u.link"]),
   ("_category_construct_local.text_filter", .list [txt "r", txt "s"]),
   ("_category_construct_local.new_ids", .list [txt "a"])]

/-- Categories `u` and `v`, their pullback `p` along `_u.link` and `_v.link` with a copied object `x`, and a filter `f` of `u`. -/
def joinDic : CifDic := defs
  [("u", [("_definition.id", txt "u"), ("_name.category_id", txt "h"), ("_name.object_id", txt "u"), ("_category.key_id", txt "_u.id")]),
   ("_u.id", [("_name.category_id", txt "u"), ("_name.object_id", txt "id")]),
   ("_u.link", [("_name.category_id", txt "u"), ("_name.object_id", txt "link")]),
   ("_u.x", [("_name.category_id", txt "u"), ("_name.object_id", txt "x")]),
   ("v", [("_definition.id", txt "v"), ("_name.category_id", txt "h"), ("_name.object_id", txt "v"), ("_category.key_id", txt "_v.id")]),
   ("_v.id", [("_name.category_id", txt "v"), ("_name.object_id", txt "id")]),
   ("_v.link", [("_name.category_id", txt "v"), ("_name.object_id", txt "link")]),
   ("p", pullbackDef),
   ("_p.a", [("_name.category_id", txt "p"), ("_name.object_id", txt "a")]),
   ("_p.b", [("_name.category_id", txt "p"), ("_name.object_id", txt "b")]),
   ("_p.x", [("_name.category_id", txt "p"), ("_name.object_id", txt "x")]),
   ("f", filterDef),
   ("_f.a", [("_name.category_id", txt "f"), ("_name.object_id", txt "a")])]

/-- The engine of `joinDic`. -/
def joinEngine : Engine :=
  { dic := joinDic, conv := fun _ v => .ok v, toInt := .ok, exec := fun _ => .fail .derivation, pick := id,
    catObj := [(("u".toList, "x".toList), [txt "_u.x"]), (("p".toList, "x".toList), [txt "_p.x"]),
      (("p".toList, "a".toList), [txt "_p.a"]), (("p".toList, "b".toList), [txt "_p.b"]), (("f".toList, "a".toList), [txt "_f.a"])] }

/-- Three rows of `u` and two of `v`. -/
def joinBlock : Block := valuesBlock
  [("_u.id", .list [txt "1", txt "2", txt "3"]), ("_u.link", .list [txt "r", txt "q", txt "s"]),
   ("_u.x", .list [txt "X", txt "Y", txt "Z"]), ("_v.id", .list [txt "A", txt "B"]), ("_v.link", .list [txt "s", txt "r"])]

/-- The state with this block. -/
def joinState : St := { block := joinBlock }

/-- What is copied to `p`. -/
def joinDst (o : Str) : Str := "_p.".toList ++ o

/-- The columns of `u`. -/
def joinCol (_ : Str) : List PyVal := [txt "X", txt "Y", txt "Z"]

end Samples

theorem join_isPullback : letI := asciiFold
    IsPullback joinEngine "p".toList "_u.link".toList "_v.link".toList "u".toList "v".toList "_u.id".toList "_v.id".toList
      "a".toList "b".toList "_p.a".toList "_p.b".toList (valuesBlock pullbackDef) := by
  letI := asciiFold
  exact ⟨by decide +kernel, by decide +kernel, by decide +kernel, by decide +kernel, by decide +kernel, by decide +kernel,
    by decide +kernel, by decide +kernel, ⟨[], by decide +kernel⟩, ⟨[], by decide +kernel⟩⟩

theorem join_isFilter : letI := asciiFold
    IsFilter joinEngine "f".toList "_u.link".toList "u".toList "_u.id".toList "a".toList "_f.a".toList [txt "r", txt "s"]
      (valuesBlock filterDef) := by
  letI := asciiFold
  exact ⟨by decide +kernel, by decide +kernel, by decide +kernel, by decide +kernel, by decide +kernel, by decide +kernel,
    ⟨[], by decide +kernel⟩, .inl ⟨by decide +kernel, by decide +kernel⟩⟩

/-- Shared objects, from the lists of objects. -/
theorem sharedObj_iff {E : Engine} {c1 c2 : Str} {skip : List Str} {l1 l2 : List Str} (h1 : objectsIn E (.str c1) = .ok (l1.map .str))
    (h2 : objectsIn E (.str c2) = .ok (l2.map .str)) (o : Str) : SharedObj E c1 c2 skip o ↔ o ∈ l1 ∧ o ∈ l2 ∧ o ∉ skip := by
  unfold SharedObj
  constructor
  · rintro ⟨s, t, e1, e2, a, b, c⟩
    rw [h1] at e1
    rw [h2] at e2
    injection e1 with e1
    injection e2 with e2
    subst e1 e2
    exact ⟨by simpa using a, by simpa using b, c⟩
  · rintro ⟨a, b, c⟩
    exact ⟨_, _, h1, h2, by simpa using a, by simpa using b, c⟩

/-- Only object `x` is shared by `u` and `p`, none by the others. -/
theorem join_shared : letI := asciiFold
    (∀ o, SharedObj joinEngine "u".toList "p".toList ["a".toList, "b".toList] o ↔ o = "x".toList) ∧
    (∀ o, ¬ SharedObj joinEngine "v".toList "p".toList ["a".toList, "b".toList] o) ∧
    (∀ o, ¬ SharedObj joinEngine "u".toList "f".toList ["a".toList] o) := by
  letI := asciiFold
  have hu : objectsIn joinEngine (.str "u".toList) = .ok (["id".toList, "link".toList, "x".toList].map .str) := by decide +kernel
  have hv : objectsIn joinEngine (.str "v".toList) = .ok (["id".toList, "link".toList].map .str) := by decide +kernel
  have hp : objectsIn joinEngine (.str "p".toList) = .ok (["a".toList, "b".toList, "x".toList].map .str) := by decide +kernel
  have hf : objectsIn joinEngine (.str "f".toList) = .ok (["a".toList].map .str) := by decide +kernel
  refine ⟨fun o => ?_, fun o => ?_, fun o => ?_⟩
  · rw [sharedObj_iff hu hp]
    constructor
    · rintro ⟨h1, h2, h3⟩
      have : ∀ o ∈ ["id".toList, "link".toList, "x".toList], o ∈ ["a".toList, "b".toList, "x".toList] → o ∉ ["a".toList, "b".toList] →
          o = "x".toList := by decide +kernel
      exact this o h1 h2 h3
    · rintro rfl
      decide +kernel
  · rw [sharedObj_iff hv hp]
    rintro ⟨h1, h2, h3⟩
    have : ∀ o ∈ ["id".toList, "link".toList], o ∉ ["a".toList, "b".toList, "x".toList] := by decide +kernel
    exact this o h1 h2
  · rw [sharedObj_iff hu hf]
    rintro ⟨h1, h2, h3⟩
    exact h3 h2

/-- The sample block is joined: two packets, `(1, B)` and `(3, A)`. -/
example : letI := asciiFold
    ∃ (rows : List (Nat × Nat)) (d : List (Str × PyVal)) (l1 l2 l : List PyVal),
      Joined [txt "r", txt "q", txt "s"] [txt "s", txt "r"] rows ∧
      dget d "_p.a".toList = some (.list l1) ∧ entries [txt "1", txt "2", txt "3"] (rows.map (·.1)) l1 ∧
      dget d "_p.b".toList = some (.list l2) ∧ entries [txt "A", txt "B"] (rows.map (·.2)) l2 ∧
      dget d "_p.x".toList = some (.list l) ∧ entries [txt "X", txt "Y", txt "Z"] (rows.map (·.1)) l := by
  letI := asciiFold
  obtain ⟨s1, s2, _⟩ := join_shared
  have hcol : ∀ n l, joinBlock.getItem n = .ok (.list l) → Column (getItem joinEngine (derive joinEngine 3)) joinState n l :=
    fun n l h => C60_present rfl h
  obtain ⟨rows, d, l1, l2, h1, _, _, h2, h3, h4, h5, h6, _⟩ := C60_pullback (der := fun c => derive joinEngine 3 c true none)
    (dst1 := joinDst) (dst2 := joinDst) (col1 := joinCol) (col2 := joinCol)
    join_isPullback (fun l => .refl l)
    (hcol _ [txt "r", txt "q", txt "s"] (by decide +kernel)) (hcol _ [txt "s", txt "r"] (by decide +kernel))
    (hcol _ [txt "1", txt "2", txt "3"] (by decide +kernel)) (hcol _ [txt "A", txt "B"] (by decide +kernel))
    (by decide +kernel) (by decide +kernel) rfl rfl
    ⟨by decide +kernel, ⟨["id".toList, "link".toList, "x".toList], by decide +kernel⟩, ⟨["a".toList, "b".toList, "x".toList], by decide +kernel⟩,
      fun o ho => by
        rw [(s1 o).1 ho]
        exact ⟨"_u.x".toList, [], by decide +kernel, hcol _ _ (by decide +kernel)⟩,
      fun o ho => by
        rw [(s1 o).1 ho]
        exact ⟨[], by decide +kernel⟩,
      fun _ _ => rfl, fun o o' ho ho' _ => by rw [(s1 o).1 ho, (s1 o').1 ho']⟩
    ⟨by decide +kernel, ⟨["id".toList, "link".toList], by decide +kernel⟩, ⟨["a".toList, "b".toList, "x".toList], by decide +kernel⟩,
      fun o ho => absurd ho (s2 o), fun o ho => absurd ho (s2 o), fun o ho => absurd ho (s2 o), fun o _ ho => absurd ho (s2 o)⟩
    (by decide +kernel) (fun o ho => by rw [(s1 o).1 ho]; decide +kernel) (fun o ho => absurd ho (s2 o))
  obtain ⟨l, h7, h8⟩ := h6 "x".toList ((s1 _).2 rfl) fun o' ho' => absurd ho' (s2 o')
  exact ⟨rows, d, l1, l2, l, h1, h2, h3, h4, h5, h7, h8⟩

/-- The filter of the sample block keeps two rows. -/
example : letI := asciiFold
    ∃ (rows : List Nat) (d : List (Str × PyVal)) (l : List PyVal), rows.Nodup ∧
      (∀ i, i ∈ rows ↔ ∃ v ∈ [txt "r", txt "s"], [txt "r", txt "q", txt "s"][i]? = some v) ∧
      dget d "_f.a".toList = some (.list l) ∧ entries [txt "1", txt "2", txt "3"] rows l := by
  letI := asciiFold
  obtain ⟨_, _, s3⟩ := join_shared
  have hcol : ∀ n l, joinBlock.getItem n = .ok (.list l) → Column (getItem joinEngine (derive joinEngine 3)) joinState n l :=
    fun n l h => C60_present rfl h
  obtain ⟨rows, d, l, h1, h2, _, _, h3, h4, _⟩ := C60_filter (der := fun c => derive joinEngine 3 c true none)
    (dst := joinDst) (col := joinCol) join_isFilter (fun l => .refl l)
    (hcol _ [txt "r", txt "q", txt "s"] (by decide +kernel)) (hcol _ [txt "1", txt "2", txt "3"] (by decide +kernel))
    (by decide +kernel) rfl (by decide +kernel)
    ⟨by decide +kernel, ⟨["id".toList, "link".toList, "x".toList], by decide +kernel⟩, ⟨["a".toList], by decide +kernel⟩,
      fun o ho => absurd ho (s3 o), fun o ho => absurd ho (s3 o), fun o ho => absurd ho (s3 o), fun o _ ho => absurd ho (s3 o)⟩
    (fun o ho => absurd ho (s3 o))
  exact ⟨rows, d, l, h1, h2, h3, h4⟩

/-- C60 fails when a key value is repeated: the linking value of the first row with that key is used for all of them, so the
packet of the second row is missing. -/
theorem C60_repeated_fails : ∃ k1 m1 k2 m2 : List PyVal, m1.length = k1.length ∧ m2.length = k2.length ∧
    pullback k1 m1 k2 m2 = .ok [] ∧ ¬ Joined m1 m2 [] := by
  refine ⟨[txt "1", txt "1"], [txt "q", txt "r"], [txt "A"], [txt "r"], rfl, rfl, by decide +kernel, fun h => ?_⟩
  have := (h.2 1 0).2 ⟨by decide, by decide, rfl⟩
  cases this

end Verif.Derive
