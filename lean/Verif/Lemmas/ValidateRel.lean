import Verif.Lemmas.Validate
/-! # Lemmas about checks that look at other items -/
namespace Verif
namespace Validate
open Spec
set_option linter.unusedSectionVars false

section
variable [CaseFold]

theorem zip_unzip {α β : Type} : ∀ l : List (α × β), (l.map (·.1)).zip (l.map (·.2)) = l
  | [] => rfl
  | a :: r => by simp [zip_unzip r]

theorem alternateFunc_ex (f : PyVal) : alternateFunc true f = decide (f ∈ excluding) := by
  unfold alternateFunc excluding
  rw [if_pos rfl, decide_eq_decide, List.mem_cons, List.mem_singleton]

theorem alternateFunc_in (f : PyVal) : alternateFunc false f = decide (f ∈ replacing) := by
  unfold alternateFunc replacing
  rw [if_neg (by simp), decide_eq_decide, List.mem_cons, List.mem_singleton]

theorem relatedNames_spec {D : Dic} {b : Block} {pairs : List (PyVal × PyVal)} (h : Related D b pairs) (ex : Bool) :
    relatedNames D b ex = .ok ((pairs.filter fun p => alternateFunc ex p.2).map (·.1)) := by
  rcases h with ⟨h, rfl⟩ | ⟨n, f, h1, h2, rfl⟩ | ⟨h1, h2⟩
  · simp only [relatedNames, attr_none h, List.filter_nil, List.map_nil]
  · simp only [relatedNames, attr_some h1, attr_some h2, relatedPairs]
  · simp only [relatedNames, attr_some h1, attr_some h2, relatedPairs, Block.pyIter, zip_unzip]

theorem aliasNames_spec {b : Block} {names : List PyVal} (h : Aliases b names) : aliasNames b = .ok names := by
  rcases h with ⟨h, rfl⟩ | ⟨v, h, hv⟩
  · simp only [aliasNames, attr_none h]
  · simp only [aliasNames, attr_some h, listify_values hv]

theorem getAlternates_spec {D : Dic} {name : Str} {alts : List PyVal} (h : Alternates D name replacing alts) :
    getAlternates D (.str name) = .ok alts := by
  obtain ⟨b, pairs, als, hd, hr, ha, rfl⟩ := h
  simp only [getAlternates, getDefV, getDef, hd, bind, Except.bind, relatedNames_spec hr, aliasNames_spec ha, alternateFunc_in]

theorem getAlternates_excl {D : Dic} {name : Str} {alts : List PyVal} (h : Alternates D name excluding alts) :
    getAlternates D (.str name) true = .ok alts := by
  obtain ⟨b, pairs, als, hd, hr, ha, rfl⟩ := h
  simp only [getAlternates, getDefV, getDef, hd, bind, Except.bind, relatedNames_spec hr, aliasNames_spec ha, alternateFunc_ex]

end

section
variable [CaseFold]

theorem alternates_unique {D : Dic} {n : Str} {a a' : List PyVal} (h : Alternates D n replacing a) (h' : Alternates D n replacing a') :
    a = a' := by
  have := (getAlternates_spec h).symm.trans (getAlternates_spec h')
  simpa using this

theorem covered_alts {D : Dic} {names : List Str} {n : Str} {alts : List PyVal} (h : Alternates D n replacing alts) (hn : n ∉ names) :
    (alts.filter fun a => isIn a names) = [] ↔ ¬ Covered D names n := by
  rw [List.filter_eq_nil_iff]
  constructor
  · rintro hall (hc | ⟨alts', m, ha, hm, hmn⟩)
    · exact hn hc
    · rw [alternates_unique ha h] at hm
      exact hall _ hm (by simpa [isIn] using hmn)
  · intro hc a ha hin
    cases a <;> simp only [isIn, Bool.false_eq_true] at hin
    exact hc (.inr ⟨alts, _, h, ha, of_decide_eq_true hin⟩)

end

theorem mapE_map {α β γ : Type} (f : β → Except PyErr γ) (g : α → β) : ∀ l : List α, mapE f (l.map g) = mapE (fun a => f (g a)) l
  | [] => rfl
  | a :: r => by simp only [List.map_cons, mapE, mapE_map f g r]

/-! ## Parents and children -/

section
variable [CaseFold]

theorem truthy_values {v : PyVal} {vs : List PyVal} (h : valuesOf v = some vs) (hne : vs ≠ [] ∧ vs ≠ [.str []]) : truthy v = true := by
  cases v <;> simp only [valuesOf, Option.some.injEq, reduceCtorEq] at h <;> subst h <;> simp_all [truthy]

theorem provOrBlock_given {wb : Block} {prov : Dict Str PyVal} {n : Str} {v : PyVal} (h : Given wb prov n v) :
    provOrBlock prov wb (.str n) = .ok (some v) := by
  rcases h with ⟨h1, ⟨w, h2⟩ | h2⟩ | ⟨h1, h2⟩
  · simp only [provOrBlock, attrV, attr_some h2, h1, bind, Except.bind]
  · simp only [provOrBlock, attrV, attr_none h2, h1, bind, Except.bind]
  · simp only [provOrBlock, attrV, attr_some h2, h1, bind, Except.bind]

theorem provOrBlock_absent {wb : Block} {prov : Dict Str PyVal} {n : Str} (h : Absent wb prov n) :
    provOrBlock prov wb (.str n) = .ok none := by
  simp only [provOrBlock, attrV, attr_none h.2, h.1, bind, Except.bind]

theorem given_unique {wb : Block} {prov : Dict Str PyVal} {n : Str} {v w : PyVal} (h : Given wb prov n v) (h' : Given wb prov n w) :
    v = w := by
  have := (provOrBlock_given h).symm.trans (provOrBlock_given h')
  simpa using this

theorem not_given_absent {wb : Block} {prov : Dict Str PyVal} {n : Str} {v : PyVal} (h : Absent wb prov n) : ¬ Given wb prov n v := by
  intro h'
  have := (provOrBlock_given h').symm.trans (provOrBlock_absent h)
  simp at this

theorem childValues_absent {wb : Block} {prov : Dict Str PyVal} {n : Str} (h : Absent wb prov n) :
    childValues wb prov (.str n) = .ok none := by
  simp only [childValues, h.1, attr_none h.2]

theorem childValues_given {wb : Block} {prov : Dict Str PyVal} {n : Str} {vs : List PyVal} (h : Values wb prov n vs) :
    childValues wb prov (.str n) = .ok (some vs) := by
  obtain ⟨v, hg, hv⟩ := h
  rcases hg with ⟨h1, _⟩ | ⟨h1, h2⟩
  · simp only [childValues, h1, slice_values hv]
  · simp only [childValues, h1, attr_some h2, slice_values hv]

theorem missingFrom_nil {parents children : List PyVal} : missingFrom parents children = [] ↔ ∀ v ∈ children, Linked parents v := by
  unfold missingFrom
  rw [List.filter_eq_nil_iff]
  simp only [decide_eq_true_eq, Classical.not_not, List.mem_append, List.mem_cons, List.not_mem_nil, or_false]
  rfl

theorem missingFrom_link (parents children : List PyVal) (d : Detail) :
    (if missingFrom parents children = [] then Outcome.good else .bad { d with values := some (missingFrom parents children) }) =
      linkResult parents children d := by
  unfold linkResult
  by_cases h : ∀ v ∈ children, Linked parents v
  · rw [if_pos h, if_pos (missingFrom_nil.2 h)]
  · rw [if_neg h, if_neg (mt missingFrom_nil.1 h)]
    congr 3
    unfold missingFrom
    apply List.filter_congr
    intro v _
    rw [decide_eq_decide]
    simp only [List.mem_append, List.mem_cons, List.not_mem_nil, or_false]
    rfl

theorem validateParent_check {D : Dic} {item p : Str} {b wb : Block} {prov : Dict Str PyVal} {value : PyVal} {o : Outcome}
    (hd : D.find item = some b) (hp : b.getItem D.names.parent = .ok (.str p)) (hp0 : p ≠ [])
    (h : checkParent D (.str p) value wb prov = .ok o) : validateParent D item value wb prov none = .ok (o, none) := by
  have ht : truthy (.str p) = true := by simp [truthy, hp0]
  simp only [validateParent, getDef, hd, attr_some hp, bind, Except.bind, ht, Bool.true_eq_false, if_false, firstParent, h]

theorem compareParent_link {p pv : PyVal} {pvs : List PyVal} (hpv : valuesOf pv = some pvs) (cvs : List PyVal) :
    compareParent p (some pv) cvs = .ok (linkResult pvs cvs { parent := some p }) := by
  simp only [compareParent, slice_values hpv]
  rw [← missingFrom_link]

theorem checkChildren_spec {wb : Block} {prov : Dict Str PyVal} (pvs : List PyVal) : ∀ {cands : List PyVal},
    (∀ c ∈ cands, ∃ n, c = .str n ∧ (Absent wb prov n ∨ ∃ vs, Values wb prov n vs)) →
    ∃ o, checkChildren wb prov pvs none cands = .ok (o, none) ∧
      (o = .good ↔ ∀ n vs, .str n ∈ cands → Values wb prov n vs → ∀ v ∈ vs, Linked pvs v) ∧
      (o ≠ .good → ∃ n vs, .str n ∈ cands ∧ Values wb prov n vs ∧ o = linkResult pvs vs { child := some (.str n) })
  | [], _ => ⟨.good, rfl, by simp, by simp⟩
  | c :: r, h => by
    obtain ⟨o, h1, h2, h3⟩ := checkChildren_spec pvs (fun c hc => h c (List.mem_cons_of_mem _ hc))
    obtain ⟨n, rfl, ha | ⟨vs, hv⟩⟩ := h _ List.mem_cons_self
    · refine ⟨o, ?_, ?_, ?_⟩
      · simp only [checkChildren, Option.elim, Bool.false_eq_true, if_false, childValues_absent ha, Option.map_none]
        exact h1
      · rw [h2]
        constructor
        · intro hh m vs hm hvs
          rcases List.mem_cons.1 hm with hm | hm
          · injection hm with hm
            subst hm
            exact absurd hvs.choose_spec.1 (not_given_absent ha)
          · exact hh m vs hm hvs
        · intro hh m vs hm
          exact hh m vs (List.mem_cons_of_mem _ hm)
      · intro hn
        obtain ⟨m, vs, hm, rest⟩ := h3 hn
        exact ⟨m, vs, List.mem_cons_of_mem _ hm, rest⟩
    · by_cases hl : ∀ v ∈ vs, Linked pvs v
      · refine ⟨o, ?_, ?_, ?_⟩
        · simp only [checkChildren, Option.elim, Bool.false_eq_true, if_false, childValues_given hv, Option.map_none,
            missingFrom_nil.2 hl, if_true]
          exact h1
        · rw [h2]
          constructor
          · intro hh m ws hm hvs
            rcases List.mem_cons.1 hm with hm | hm
            · injection hm with hm
              subst hm
              have := (childValues_given hv).symm.trans (childValues_given hvs)
              simp only [Except.ok.injEq, Option.some.injEq] at this
              subst this
              exact hl
            · exact hh m ws hm hvs
          · intro hh m ws hm
            exact hh m ws (List.mem_cons_of_mem _ hm)
        · intro hn
          obtain ⟨m, ws, hm, rest⟩ := h3 hn
          exact ⟨m, ws, List.mem_cons_of_mem _ hm, rest⟩
      · have hl' : missingFrom pvs vs ≠ [] := mt missingFrom_nil.1 hl
        refine ⟨linkResult pvs vs { child := some (.str n) }, ?_, ?_, ?_⟩
        · rw [← missingFrom_link, if_neg hl']
          simp only [checkChildren, Option.elim, Bool.false_eq_true, if_false, childValues_given hv, Option.map_none, hl']
        · constructor
          · intro hc
            unfold linkResult at hc
            rw [if_neg hl] at hc
            cases hc
          · intro hh
            exact absurd (hh n vs List.mem_cons_self hv) hl
        · intro _
          exact ⟨n, vs, List.mem_cons_self, hv, rfl⟩

end

/-! ## Rows -/

theorem erase_map_str : ∀ (keys : List Str) (k : Str), (keys.map PyVal.str).erase (.str k) = (keys.erase k).map .str
  | [], _ => rfl
  | a :: r, k => by
    by_cases h : a = k
    · subst h; simp
    · have h' : ¬ (PyVal.str a) = .str k := by simpa using h
      rw [List.map_cons, List.erase_cons_tail (by simpa using h'), List.erase_cons_tail (by simpa using h), List.map_cons,
        erase_map_str r k]

theorem otherData_given [CaseFold] {D : Dic} {item : Str} {n : Nat} {wb : Block} {prov : Dict Str PyVal} {col : Str → PyVal} :
    ∀ {ks : List Str}, (∀ k ∈ ks, Given wb prov k (col k)) → otherData D item n wb prov (ks.map .str) = .ok (.inr (ks.map col))
  | [], _ => rfl
  | k :: r, h => by
    have ih : otherData D item n wb prov (r.map .str) = .ok (.inr (r.map col)) :=
      otherData_given (fun k hk => h k (List.mem_cons_of_mem _ hk))
    simp only [List.map_cons, otherData, bind, Except.bind, provOrBlock_given (h k List.mem_cons_self), ih]

/-- The result of the uniqueness check for a repeated entry. -/
def repeatOutcome : Option PyVal → Outcome
  | some e => .bad { values := some [e] }
  | none => .good

theorem rowEntry_row {rows : List (Str → Str)} {r : Str → Str} {i : Nat} (h : rows[i]? = some r) : ∀ (ks : List Str) (a : Str),
    rowEntry i (.str a) (ks.map fun k => .list (rows.map fun r => .str (r k))) = .ok (.str (joined (a :: ks.map r)))
  | [], a => by simp [rowEntry, joined]
  | k :: t, a => by
    have hi : indexV (.list (rows.map fun r => .str (r k))) i = .ok (.str (r k)) := by
      simp [indexV, h]
    simp only [List.map_cons, rowEntry, hi, joinV]
    rw [rowEntry_row h t (a ++ ' ' :: r k)]
    simp [joined]

theorem firstRepeat_spec {R : Type} {rows : List R} {val e : R → PyVal} {cols : List PyVal}
    (h : ∀ i r, rows[i]? = some r → rowEntry i (val r) cols = .ok (e r)) : ∀ (suf pre : List R), rows = pre ++ suf →
    ∃ o, firstRepeat cols pre.length (pre.map e) (suf.map val) = .ok o ∧
      (o = none → suf.Pairwise (fun a b => e a ≠ e b) ∧ ∀ r ∈ suf, e r ∉ pre.map e) ∧
      (∀ x, o = some x → ∃ s1 r s2, suf = s1 ++ r :: s2 ∧ e r = x ∧ x ∈ (pre ++ s1).map e)
  | [], pre, _ => ⟨none, by simp [firstRepeat], (fun _ => ⟨.nil, (fun r hr => by cases hr)⟩), (fun x hx => by cases hx)⟩
  | r :: t, pre, he => by
    have hr : rows[pre.length]? = some r := by simp [he]
    rw [List.map_cons, firstRepeat, h _ _ hr]
    simp only
    by_cases hm : e r ∈ pre.map e
    · rw [if_pos hm]
      refine ⟨some (e r), rfl, (fun hc => by cases hc), ?_⟩
      intro x hx
      injection hx with hx
      subst hx
      exact ⟨[], r, t, rfl, rfl, by simpa using hm⟩
    · rw [if_neg hm]
      obtain ⟨o, h1, h2, h3⟩ := firstRepeat_spec h t (pre ++ [r]) (by simp [he])
      rw [List.length_append, List.length_singleton, List.map_append, List.map_singleton] at h1
      refine ⟨o, h1, ?_, ?_⟩
      · intro ho
        obtain ⟨ha, hb⟩ := h2 ho
        refine ⟨List.Pairwise.cons ?_ ha, ?_⟩
        · intro x hx hc
          apply hb x hx
          rw [List.map_append, List.map_singleton, List.mem_append]
          exact .inr (by rw [hc]; simp)
        · intro x hx
          rcases List.mem_cons.1 hx with rfl | hx
          · exact hm
          · intro hc
            apply hb x hx
            rw [List.map_append, List.mem_append]
            exact .inl hc
      · intro x hx
        obtain ⟨s1, q, s2, e1, e2, e3⟩ := h3 x hx
        refine ⟨r :: s1, q, s2, by rw [e1]; rfl, e2, ?_⟩
        simpa using e3

theorem joined_inj : ∀ {a b : List Str}, a.length = b.length → (∀ s ∈ a, ' ' ∉ s) → (∀ s ∈ b, ' ' ∉ s) → joined a = joined b → a = b
  | [], [], _, _, _, _ => rfl
  | x :: r, y :: t, hl, ha, hb, he => by
    have key : ∀ {u v : Str} {p q : List Str}, ' ' ∉ u → ' ' ∉ v →
        u ++ p.flatMap (fun b => ' ' :: b) = v ++ q.flatMap (fun b => ' ' :: b) → u = v := by
      intro u v p q hu hv h
      have htw : ∀ (w : Str) (z : List Str), ' ' ∉ w → (w ++ z.flatMap fun b => ' ' :: b).takeWhile (· != ' ') = w := by
        intro w z hw
        rw [List.takeWhile_append_of_pos]
        · cases z with
          | nil => simp
          | cons c d => simp
        · intro c hc
          simp only [bne_iff_ne, ne_eq]
          rintro rfl
          exact hw hc
      rw [← htw u p hu, h, htw v q hv]
    have h1 : x = y := key (ha x (by simp)) (hb y (by simp)) he
    subst h1
    simp only [joined, List.append_cancel_left_eq] at he
    cases r with
    | nil =>
      cases t with
      | nil => rfl
      | cons _ _ => simp at hl
    | cons r1 r2 =>
      cases t with
      | nil => simp at hl
      | cons t1 t2 =>
        have h2 : joined (r1 :: r2) = joined (t1 :: t2) := by
          simpa [joined] using he
        rw [joined_inj (by simpa using hl) (fun s hs => ha s (List.mem_cons_of_mem _ hs))
          (fun s hs => hb s (List.mem_cons_of_mem _ hs)) h2]
termination_by a => a.length

section
variable [CaseFold]

theorem uniqueness_run {D : Dic} {item : Str} {wb : Block} {prov : Dict Str PyVal} {keys : List Str} {rows : List (Str → Str)}
    (h : KeyLoop D item wb prov keys rows) :
    ∃ o, validateUniqueness D item (.list (rows.map fun r => .str (r item))) wb prov none = .ok (o, none) ∧
      (o = .good → rows.Pairwise fun r r' => joined (item :: keys.erase item |>.map r) ≠ joined (item :: keys.erase item |>.map r')) ∧
      (o ≠ .good → ∃ s1 r s2, rows = s1 ++ r :: s2 ∧
        o = .bad { values := some [.str (joined (item :: keys.erase item |>.map r))] } ∧
        ∃ r' ∈ s1, joined (item :: keys.erase item |>.map r') = joined (item :: keys.erase item |>.map r)) := by
  obtain ⟨b, c, cb, kv, hb, hc, hcb, hk, hkv⟩ := h.defined
  have hmem : PyVal.str item ∈ keys.map PyVal.str := List.mem_map_of_mem h.mem
  have her : (keys.map PyVal.str).erase (.str item) = (keys.erase item).map .str := erase_map_str keys item
  have hoth : otherData D item rows.length wb prov ((keys.erase item).map .str) =
      .ok (.inr ((keys.erase item).map fun k => .list (rows.map fun r => .str (r k)))) := by
    apply otherData_given
    intro k hk
    have := (List.Nodup.mem_erase_iff h.nodup).1 hk
    exact h.columns k this.2 this.1
  obtain ⟨o, h1, h2, h3⟩ := firstRepeat_spec (rows := rows) (val := fun r => PyVal.str (r item))
    (e := fun r => .str (joined (item :: keys.erase item |>.map r)))
    (cols := (keys.erase item).map fun k => .list (rows.map fun r => .str (r k)))
    (fun i r hr => rowEntry_row hr _ _) rows [] rfl
  have hrun : validateUniqueness D item (.list (rows.map fun r => .str (r item))) wb prov none =
      .ok (repeatOutcome o, none) := by
    have h1' : firstRepeat ((keys.erase item).map fun k => PyVal.list (rows.map fun r => .str (r k))) 0 []
        (rows.map fun r => PyVal.str (r item)) = .ok o := h1
    simp only [validateUniqueness, getDef, hb, attr_some hc, bind, Except.bind, getDefV, hcb, attr_some hk, Option.getD_some,
      slice_values hkv, hmem, not_true_eq_false, if_false, isText, Bool.false_eq_true, elements, checkUnique, List.length_map,
      her, hoth, h1']
    cases o <;> rfl
  refine ⟨_, hrun, ?_, ?_⟩
  · intro ho
    cases o with
    | some x => cases ho
    | none =>
      refine List.Pairwise.imp ?_ (h2 rfl).1
      intro a b hne hc
      exact hne (by rw [hc])
  · intro ho
    cases o with
    | none => exact absurd rfl ho
    | some x =>
      obtain ⟨s1, r, s2, e1, e2, e3⟩ := h3 x rfl
      refine ⟨s1, r, s2, e1, ?_, ?_⟩
      · rw [← e2]; rfl
      · obtain ⟨r', hr', he⟩ := List.mem_map.1 e3
        refine ⟨r', by simpa using hr', ?_⟩
        rw [← e2] at he
        injection he

end

end Validate
end Verif
