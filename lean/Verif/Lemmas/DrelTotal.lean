import Verif.Lemmas.DrelGood
/-! # Expressions with known names are translated -/
namespace Verif
namespace DrelMeaning
open DrelPy PyText
variable [CaseFold]
set_option linter.unusedSectionVars false

variable {env : Env} {tg : Str} {ids : Dict Str Alias} {packets : Dict Str Str} {rhs : Bool}

theorem item_nameOf {c a n : Str} (h : (fullView env tg ids packets).item c a = some n) : nameOf env c a = .ok n := by
  replace h : (if c = [] then none else
    (dget env.names (lower (if c.head? = some '_' then c.tail else c), lower a)).bind List.head?) = some n := h
  unfold nameOf
  cases c with
  | nil => cases h
  | cons d r =>
    rw [if_neg (by simp)] at h
    have e : (if d = '_' then r else d :: r) = (if (d :: r).head? = some '_' then (d :: r).tail else d :: r) := by
      by_cases hd : d = '_'
      · rw [if_pos hd, List.head?_cons, if_pos (by rw [hd])]; rfl
      · rw [if_neg hd, List.head?_cons, if_neg (by simpa using hd)]
    dsimp only
    rw [e]
    generalize dget env.names (lower (if (d :: r).head? = some '_' then (d :: r).tail else d :: r), lower a) = x at h
    cases x with
    | none => cases h
    | some ns =>
      cases ns with
      | nil => cases h
      | cons m ns =>
        rw [Option.bind_some, List.head?_cons] at h
        cases h; rfl

theorem special_ok (hE : EnvOk env tg) {al : Alias} {a : Str} {st : St} (h : (current (fullView env tg ids packets) al a).isSome = true) :
    ∃ r, specialAttr env al a st = .ok r := by
  unfold current at h
  cases hi : (fullView env tg ids packets).item (lower al.cat) (lower a) with
  | none => rw [hi] at h; cases h
  | some n =>
    unfold specialAttr
    rw [item_nameOf hi, hE.target]
    dsimp only
    split
    · exact ⟨_, rfl⟩
    · split
      · exact ⟨_, rfl⟩
      · split <;> exact ⟨_, rfl⟩

theorem tag_ok (hE : EnvOk env tg) {t a : Str} {st : St} (h : ((fullView env tg ids packets).item t a).isSome = true) :
    ∃ r, tagAttr env t a st = .ok r := by
  cases hi : (fullView env tg ids packets).item t a with
  | none => rw [hi] at h; cases h
  | some n =>
    unfold tagAttr
    rw [item_nameOf hi, hE.target]
    dsimp only
    split <;> exact ⟨_, rfl⟩

theorem member_ok {t a : Str} {st : St} (hp : st.packets = packets) {cat : Option Str}
    (hcat : cat = (dget packets t).or (if st.sub = [] then none else some st.sub))
    (h : ∀ c, cat = some c → ((fullView env tg ids packets).item c a).isSome = true) : ∃ r, plainAttr env t a st = .ok r := by
  have named : ∀ c, cat = some c → ∃ n, nameOf env c a = .ok n := by
    intro c hc
    obtain ⟨n, hn⟩ := Option.isSome_iff_exists.1 (h c hc)
    exact ⟨n, item_nameOf hn⟩
  unfold plainAttr
  rw [hp]
  cases hk : dget packets t with
  | some c =>
    rw [hk, Option.some_or] at hcat
    obtain ⟨n, hn⟩ := named c hcat
    dsimp only
    rw [hn]
    exact ⟨_, rfl⟩
  | none =>
    rw [hk, Option.none_or] at hcat
    dsimp only
    by_cases hs : st.sub = []
    · rw [if_neg (by simpa using hs)]; exact ⟨_, rfl⟩
    · rw [if_neg hs] at hcat
      obtain ⟨n, hn⟩ := named _ hcat
      rw [if_pos hs, hn]
      exact ⟨_, rfl⟩

theorem keyNames_ok {c : Str} (h : (fullView env tg ids packets).loopable c = true) : ∃ ks, keyNames env c = .ok ks := by
  replace h : (dkeys env.loopable).contains c = true := h
  obtain ⟨x, hx⟩ := dget_isSome.2 (List.contains_iff_mem.1 h)
  unfold keyNames
  rw [hx]
  exact ⟨_, rfl⟩

theorem category_full (p : Expr) : category (fullView env tg ids packets) p = category (viewOf env tg ids packets []) p := by
  cases p <;> rfl

theorem cat_none' {p : Expr} (h : isCategory (catsOf env ids) p = false) : category (fullView env tg ids packets) p = none :=
  (category_full p).trans (cat_none h [])

theorem sliceText_ok {us : List Str} (h1 : 1 ≤ us.length) : ∃ u, sliceText us = .ok u := by
  match us, h1 with
  | [_], _ => exact ⟨_, rfl⟩
  | [_, _], _ => exact ⟨_, rfl⟩
  | [_, _, _], _ => exact ⟨_, rfl⟩
  | _ :: _ :: _ :: _ :: _, _ => exact ⟨_, rfl⟩

mutual
/-- A fitting expression whose names are known is translated. -/
theorem expr_total (hE : EnvOk env tg) (hB : BindOk ids packets) : (e : Expr) → ∀ (top : Bool) {st : St},
    Inv ids packets rhs st → st.sub = [] → fits (catsOf env ids) (ownOf env ids) rhs top e = true →
    (means (fullView env tg ids packets) e).isSome = true → ∃ r, expr env e st = .ok r
  | .name s, top, st, _, _, _, _ => by rw [expr]; exact ⟨_, rfl⟩
  | .tag s, top, st, _, _, _, _ => by rw [expr]; exact ⟨_, rfl⟩
  | .lit s, top, st, _, _, _, _ => by rw [expr]; exact ⟨_, rfl⟩
  | .int0, top, st, _, _, hf, _ => by rw [fits] at hf; cases hf
  | .slices p, top, st, _, _, hf, _ => by rw [fits] at hf; cases hf
  | .group es, top, st, hI, hs, hf, h => by
    rw [fits, Bool.and_eq_true] at hf
    have hm : (meanings (fullView env tg ids packets) es).isSome = true := by
      rw [means] at h
      cases hm : meanings (fullView env tg ids packets) es with
      | none => rw [hm] at h; cases h
      | some x => rfl
    obtain ⟨⟨ts, st1⟩, hx⟩ := exprs_total hE hB es hI hs hf.2 hm
    rw [expr, if_neg (by simpa using hf.1), hx]
    exact ⟨_, rfl⟩
  | .list es, top, st, hI, hs, hf, h => by
    rw [fits, Bool.and_eq_true] at hf
    have hm : (meanings (fullView env tg ids packets) es).isSome = true := by
      rw [means, Option.isSome_map] at h
      exact h
    obtain ⟨⟨ts, st1⟩, hx⟩ := exprs_total hE hB es hI hs hf.2 hm
    rw [expr]
    split
    · exact ⟨_, rfl⟩
    · rw [hx]; exact ⟨_, rfl⟩
  | .table ks vs, top, st, hI, hs, hf, h => by
    rw [fits, Bool.and_eq_true, Bool.and_eq_true] at hf
    have hm : (meanings (fullView env tg ids packets) vs).isSome = true := by
      rw [means] at h
      cases hm : meanings (fullView env tg ids packets) vs with
      | none => rw [hm] at h; split at h <;> simp_all
      | some x => rfl
    obtain ⟨⟨ts, st1⟩, hx⟩ := exprs_total hE hB vs hI hs hf.2 hm
    rw [expr]
    split
    · exact ⟨_, rfl⟩
    · rw [hx]; exact ⟨_, rfl⟩
  | .attr p a, top, st, hI, hs, hf, h => by
    rw [fits, Bool.and_eq_true, Bool.and_eq_true, Bool.or_eq_true, Bool.and_eq_true, Bool.and_eq_true, beq_iff_eq] at hf
    obtain ⟨⟨hpl, -⟩, hf⟩ := hf
    rw [means] at h
    rcases hf with htag | ⟨⟨h9, hpi⟩, hfp⟩
    · cases p with
      | tag s =>
        rw [expr, expr]
        dsimp only
        unfold attrText
        rw [hI.ids]
        replace h : (match (match dget ids s with
          | some al => some (current (fullView env tg ids packets) al a)
          | none => some (((fullView env tg ids packets).item s a).bind fun n =>
              orTarget (fullView env tg ids packets) n (some (stored (lower n))))) with
          | some r => r
          | none => none).isSome = true := by
            have e : item (fullView env tg ids packets) (.tag s) a = (match dget ids s with
              | some al => some (current (fullView env tg ids packets) al a)
              | none => some (((fullView env tg ids packets).item s a).bind fun n =>
                  orTarget (fullView env tg ids packets) n (some (stored (lower n))))) := rfl
            rw [e] at h
            cases hal : dget ids s <;> (rw [hal] at h; exact h)
        cases hal : dget ids s with
        | some al => rw [hal] at h; exact special_ok hE h
        | none =>
          rw [hal] at h
          cases s with
          | nil => cases htag
          | cons c s =>
            have hc : c = '_' := by
              have h : tagName (c :: s) = true := htag
              unfold tagName at h
              split at h
              · rename_i he; exact (List.cons.inj he).1
              · cases h
            dsimp only
            rw [if_pos ⟨rfl, hc⟩]
            refine tag_ok (ids := ids) (packets := packets) hE ?_
            dsimp only at h
            cases hi : (fullView env tg ids packets).item (c :: s) a with
            | none => rw [hi] at h; cases h
            | some n => rfl
      | _ => cases htag
    · cases hw : isWord p with
      | true =>
        cases p with
        | name x =>
          rw [expr, expr, nameText_var (by simpa [notPi] using hpi)]
          dsimp only
          rw [fits] at hfp
          unfold attrText
          rw [hI.ids]
          have e : item (fullView env tg ids packets) (.name x) a =
            (dget ids x).map fun al => current (fullView env tg ids packets) al a := rfl
          rw [e] at h
          cases hal : dget ids x with
          | some al => rw [hal] at h; exact special_ok hE h
          | none =>
            rw [hal] at h
            have hm : ∃ r, plainAttr env x a st = .ok r := by
              refine member_ok (tg := tg) (ids := ids) hI.packets rfl fun c hc => ?_
              rw [if_pos hs, Option.or_none] at hc
              replace h : ((means (fullView env tg ids packets) (.name x)).bind fun e =>
                match dget packets x with
                | some c => ((fullView env tg ids packets).item c a).map (member e)
                | none => some (member e a)).isSome = true := h
              rw [hc] at h
              cases hi : (fullView env tg ids packets).item c a with
              | some n => rfl
              | none =>
                dsimp only at h
                rw [hi] at h
                cases hmx : means (fullView env tg ids packets) (.name x) with
                | none => rw [hmx] at h; cases h
                | some y => rw [hmx] at h; cases h
            cases x with
            | nil => cases hfp
            | cons c r =>
              dsimp only
              rw [if_neg]
              · exact hm
              · rintro ⟨-, rfl⟩
                simp only [varName, Bool.and_eq_true, List.head?_cons, Option.any_some] at hfp
                exact absurd hfp.2 (by decide)
        | _ => cases hw
      | false =>
        have hit : item (fullView env tg ids packets) p a = none := by
          cases p with
          | name x => cases hw
          | tag x => rw [fits] at hfp; cases hfp
          | _ => rfl
        rw [hit] at h
        dsimp only at h
        have hmp : (means (fullView env tg ids packets) p).isSome = true := by
          cases hmp : means (fullView env tg ids packets) p with
          | none => rw [hmp] at h; cases h
          | some x => rfl
        obtain ⟨⟨t, st1⟩, hx⟩ := expr_total hE hB p true hI hs hfp hmp
        have ho := expr_good hE hB p true hI hs hfp hx
        have hid := ho.notId hw
        obtain ⟨hb1, hb2⟩ := not_bound hB hid
        rw [expr, hx]
        dsimp only
        unfold attrText
        rw [ho.inv.ids, hb1]
        have hm : ∃ r, plainAttr env t a st1 = .ok r := by
          refine member_ok (tg := tg) (ids := ids) ho.inv.packets rfl fun c hc => ?_
          rw [hb2, Option.none_or, ho.sub] at hc
          have hpk : packetOf (fullView env tg ids packets) p = chosen env tg ids packets p := by
            cases p with
            | name x => cases hw
            | sub p' i => exact category_full p'
            | _ => rfl
          obtain ⟨y, hy⟩ := Option.isSome_iff_exists.1 hmp
          rw [hpk, hc, hy, Option.bind_some] at h
          dsimp only at h
          rwa [Option.isSome_map] at h
        cases t with
        | nil =>
          obtain ⟨q, hq, -⟩ := ho.good
          obtain ⟨c, hc, -⟩ := hq.1.start
          cases hc
        | cons c r =>
          dsimp only
          rw [if_neg]
          · exact hm
          · rintro ⟨h1, rfl⟩
            exact ho.head h1 hw rfl
  | .sub p i, top, st, hI, hs, hf, h => by
    rw [fits, Bool.and_eq_true] at hf
    obtain ⟨hfp, hfi⟩ := hf
    rw [means] at h
    have next : ∀ {c : Str}, category (fullView env tg ids packets) p = some c → ∃ ks, keyNames env c = .ok ks ∧
        ∃ r, expr env i (st.dependAll ks) = .ok r := by
      intro c hcat
      rw [hcat] at h
      dsimp only at h
      split at h
      · rename_i hl
        obtain ⟨ks, hks⟩ := keyNames_ok (tg := tg) (ids := ids) (packets := packets) hl
        obtain ⟨f1, f2, f3, f4, f5⟩ := dependAll_fields ks st
        rw [Option.isSome_map] at h
        exact ⟨ks, hks, expr_total hE hB i false (hI.of_fields f1 f2 f3 f4) (f5.trans hs) hfi h⟩
      · cases h
    cases hc : isCategory (catsOf env ids) p with
    | true =>
      rw [hc, if_pos rfl, Bool.and_eq_true] at hfp
      cases p with
      | tag s =>
        obtain ⟨ks, hk, ⟨u, st1⟩, hx⟩ := next (c := s.tail) rfl
        rw [expr, hk]
        dsimp only
        rw [hx]
        exact ⟨_, rfl⟩
      | name x =>
        rw [expr_sub_other (by simp)]
        have hv : varName x = true ∧ isPi x = false := by simpa [named] using hfp.2
        rw [expr, nameText_var hv.2]
        dsimp only
        have hl : ∃ c, lookedUp env x st = some c ∧ category (fullView env tg ids packets) (.name x) = some c := by
          unfold lookedUp
          rw [hI.ids]
          cases hal : dget ids x with
          | some al => exact ⟨_, rfl, by
              show (match dget ids x with | some al => some al.cat | none => _) = _
              rw [hal]⟩
          | none =>
            simp only [isCategory, catsOf, hal, Option.isSome_none, Bool.false_or] at hc
            refine ⟨x, if_pos (by simpa using hc), ?_⟩
            show (match dget ids x with | some al => some al.cat | none => if (dkeys env.loopable).contains x then some x else none) = _
            rw [hal]
            exact if_pos hc
        obtain ⟨c, hl, hcat⟩ := hl
        obtain ⟨ks, hk, ⟨u, st1⟩, hx⟩ := next hcat
        rw [hl]
        dsimp only
        rw [hk]
        dsimp only
        rw [hx]
        exact ⟨_, rfl⟩
      | _ => cases hc
    | false =>
      rw [hc, if_neg (by simp), Bool.and_eq_true, Bool.and_eq_true, beq_iff_eq] at hfp
      obtain ⟨⟨h9, hpi⟩, hfp⟩ := hfp
      rw [cat_none' hc] at h
      dsimp only at h
      have h1 : (means (fullView env tg ids packets) p).isSome = true ∧ (means (fullView env tg ids packets) i).isSome = true := by
        split at h
        · rename_i e1 e2; rw [e1, e2]; exact ⟨rfl, rfl⟩
        · cases h
      obtain ⟨⟨t, st1⟩, hx⟩ := expr_total hE hB p false hI hs hfp h1.1
      have ho := expr_good hE hB p false hI hs hfp hx
      obtain ⟨⟨u, st2⟩, hy⟩ := expr_total hE hB i false ho.inv (ho.sub_nil hfp) hfi h1.2
      rw [expr_sub_other (notTag hfp), hx]
      dsimp only
      rw [lookedUp_none hE hB ho hx hc hpi]
      dsimp only
      rw [hy]
      exact ⟨_, rfl⟩
  | .items p es, top, st, hI, hs, hf, h => by
    rw [fits, Bool.and_eq_true, Bool.and_eq_true, Bool.and_eq_true, beq_iff_eq, decide_eq_true_eq] at hf
    obtain ⟨⟨⟨h9, hfp⟩, hlen2⟩, hfe⟩ := hf
    rw [means] at h
    have h1 : (means (fullView env tg ids packets) p).isSome = true ∧ (meanings (fullView env tg ids packets) es).isSome = true := by
      split at h
      · rename_i e1 e2; rw [e1, e2]; exact ⟨rfl, rfl⟩
      · cases h
    obtain ⟨⟨t, st1⟩, hx⟩ := expr_total hE hB p false hI hs hfp h1.1
    have ho := expr_good hE hB p false hI hs hfp hx
    obtain ⟨⟨u, st2⟩, hy⟩ := exprs_total hE hB es ho.inv (ho.sub_nil hfp) hfe h1.2
    rw [expr, hx]
    dsimp only
    rw [hy]
    exact ⟨_, rfl⟩
  | .slice p parts, top, st, hI, hs, hf, h => by
    rw [fits, Bool.and_eq_true, Bool.and_eq_true, Bool.and_eq_true, Bool.and_eq_true, beq_iff_eq, decide_eq_true_eq, decide_eq_true_eq] at hf
    obtain ⟨⟨⟨⟨h9, hfp⟩, hlen1⟩, hlen3⟩, hfe⟩ := hf
    rw [means] at h
    have h1 : (means (fullView env tg ids packets) p).isSome = true ∧ (meanings (fullView env tg ids packets) parts).isSome = true := by
      split at h
      · rename_i e1 e2; rw [e1, e2]; exact ⟨rfl, rfl⟩
      · cases h
    obtain ⟨⟨t, st1⟩, hx⟩ := expr_total hE hB p false hI hs hfp h1.1
    have ho := expr_good hE hB p false hI hs hfp hx
    obtain ⟨⟨us, st2⟩, hy⟩ := exprs_total hE hB parts ho.inv (ho.sub_nil hfp) hfe h1.2
    obtain ⟨-, -, -, ps, hg, hlen, -⟩ := exprs_good hE hB parts ho.inv (ho.sub_nil hfp) hfe hy
    have hl := hg.length
    obtain ⟨u, hu⟩ := sliceText_ok (us := us) (by omega)
    rw [expr, hx]
    dsimp only
    rw [hy]
    dsimp only
    rw [hu]
    exact ⟨_, rfl⟩
  | .call f args, top, st, hI, hs, hf, h => by
    rw [fits, Bool.or_eq_true, beq_iff_eq, Bool.and_eq_true] at hf
    rw [expr]
    by_cases hc : f = "Current_Row".toList
    · rw [if_pos hc]; exact ⟨_, rfl⟩
    · rw [if_neg hc]
      rw [means, if_neg hc] at h
      have hm : (meanings (fullView env tg ids packets) args).isSome = true := by
        cases hm : meanings (fullView env tg ids packets) args with
        | none => rw [hm] at h; cases h
        | some x => rfl
      obtain ⟨⟨ts, st1⟩, hx⟩ := exprs_total hE hB args hI hs (hf.resolve_left hc).2 hm
      rw [hx]
      exact ⟨_, rfl⟩
  | .op o a b, top, st, hI, hs, hf, h => by
    rw [fits, Bool.and_eq_true, Bool.and_eq_true] at hf
    obtain ⟨⟨-, hfa⟩, hfb⟩ := hf
    rw [means] at h
    have h1 : (means (fullView env tg ids packets) a).isSome = true ∧ (means (fullView env tg ids packets) b).isSome = true := by
      split at h
      · rename_i e1 e2; rw [e1, e2]; exact ⟨rfl, rfl⟩
      · cases h
    obtain ⟨⟨t, st1⟩, hx⟩ := expr_total hE hB a false hI hs hfa h1.1
    have ho := expr_good hE hB a false hI hs hfa hx
    obtain ⟨⟨u, st2⟩, hy⟩ := expr_total hE hB b false ho.inv (ho.sub_nil hfa) hfb h1.2
    rw [expr, hx]
    dsimp only
    rw [hy]
    exact ⟨_, rfl⟩
  | .sign minus a, top, st, hI, hs, hf, h => by
    rw [fits] at hf
    rw [means, Option.isSome_map] at h
    obtain ⟨⟨t, st1⟩, hx⟩ := expr_total hE hB a false hI hs hf h
    rw [expr, hx]
    exact ⟨_, rfl⟩
  | .not a, top, st, hI, hs, hf, h => by
    rw [fits, Bool.and_eq_true] at hf
    rw [means, Option.isSome_map] at h
    obtain ⟨⟨t, st1⟩, hx⟩ := expr_total hE hB a false hI hs hf.2 h
    rw [expr, hx]
    exact ⟨_, rfl⟩
/-- Several expressions are translated. -/
theorem exprs_total (hE : EnvOk env tg) (hB : BindOk ids packets) : (es : List Expr) → ∀ {st : St},
    Inv ids packets rhs st → st.sub = [] → allFit (catsOf env ids) (ownOf env ids) rhs es = true →
    (meanings (fullView env tg ids packets) es).isSome = true → ∃ r, exprs env es st = .ok r
  | [], st, _, _, _, _ => by rw [exprs]; exact ⟨_, rfl⟩
  | e :: r, st, hI, hs, hf, h => by
    rw [allFit, Bool.and_eq_true] at hf
    rw [meanings] at h
    have h1 : (means (fullView env tg ids packets) e).isSome = true ∧ (meanings (fullView env tg ids packets) r).isSome = true := by
      split at h
      · rename_i e1 e2; rw [e1, e2]; exact ⟨rfl, rfl⟩
      · cases h
    obtain ⟨⟨t, st1⟩, hx⟩ := expr_total hE hB e false hI hs hf.1 h1.1
    have ho := expr_good hE hB e false hI hs hf.1 hx
    obtain ⟨⟨u, st2⟩, hy⟩ := exprs_total hE hB r ho.inv (ho.sub_nil hf.1) hf.2 h1.2
    rw [exprs, hx]
    dsimp only
    rw [hy]
    exact ⟨_, rfl⟩
end

end DrelMeaning
end Verif
