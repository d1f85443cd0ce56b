import Verif.Lemmas.DrelStmtGood
/-! # Statements are translated to what they stand for: every statement -/
namespace Verif
namespace DrelMeaning
open DrelPy PyText
variable [CaseFold]
set_option linter.unusedSectionVars false
variable {d : Dic} {tg : Str}

/-! ## Assignments -/

/-- The values of an assignment without packets. -/
theorem values_good (hE : EnvOk d.toEnv tg) {sc : Scope} {lhs : List Str} : ∀ {es : List Expr} {n : Nat} {st : St}, Ready st sc → st.rhs = some true →
    allSound d.toEnv sc true true es = true → (es.all fun e => (packetOf (fullView d.toEnv tg sc.ids sc.packets) e).isNone) = true →
    meanings (fullView d.toEnv tg sc.ids sc.packets) es ≠ none →
    ∃ ts st', values d.toEnv lhs n es st = .ok (ts, st') ∧ Steps d.toEnv tg sc true es st ts st'
  | [], n, st, hR, hr, _, _, _ => ⟨[], st, by rw [values], rfl, rfl, hR.true hr, .refl _, hR.sub, [], .nil, rfl, fun W _ => by rw [meanings]⟩
  | e :: es, n, st, hR, hr, h, hp, hm => by
    rw [allSound, List.all_cons, Bool.and_eq_true] at h
    rw [List.all_cons, Bool.and_eq_true] at hp
    obtain ⟨m1, m2⟩ := meanings_cons hm
    obtain ⟨t, st1, h1, s1⟩ := sound_good hE hR.bind (hR.true hr) hR.sub hR.rel h.1 m1
    have hs1 := s1.noSub (by
      have := Option.isNone_iff_eq_none.1 hp.1
      cases e with
      | sub p i => rw [← this]; exact (category_full p).symm
      | _ => rfl)
    obtain ⟨ts, st2, h2, s2⟩ := values_good hE (lhs := lhs) (n := n + 1) (s1.ready hR.rel hR.bind hs1) (s1.inv.rhs rfl) h.2 hp.2 m2
    obtain ⟨p, hpg, hpm⟩ := s1.good
    obtain ⟨ps, hps, hl, hpsm⟩ := s2.good
    refine ⟨t :: ts, st2, ?_, s2.ids.trans s1.ids, s2.packets.trans s1.packets, s2.inv, s1.ext.trans s2.ext, s2.sub, p :: ps,
      .cons hpg.1 (plvl_pos e) hps, by simp [hl], fun W hW => ?_⟩
    · rw [values, h1]
      dsimp only
      rw [notePacket, if_pos hs1]
      dsimp only
      rw [h2]
    · rw [meanings, hpm W (s2.ext.trans hW), hpsm W hW]

theorem TextsGood.ne_nil {ts : List Str} {ps : List Py} (h : TextsGood ts ps) {es : List Expr} (hl : ps.length = es.length) (he : es ≠ []) : ts ≠ [] := by
  rintro rfl
  cases h
  cases es with
  | nil => exact he rfl
  | cons e r => cases hl

theorem aug_good {f : Str} {g : List Str} {l : Nat} (hf : GoodP f (dotted "drel_runtime".toList g)) {a b : Str} {A B : Py} {m : Nat} (ha : Good l a A)
    (h1 : 1 ≤ l) (hb : Good m b B) (h2 : 1 ≤ m) :
    TextsGood [f ++ "(".toList ++ a ++ ",".toList ++ b ++ ")".toList] [apply "drel_runtime".toList g [A, B]] := by
  have := hf.call (.two ha h1 hb h2)
  refine .one (lvl := 11) ?_ (by omega)
  rw [show (",".toList : Str) = [','] from rfl]
  simp only [commas, List.append_assoc, List.cons_append, List.nil_append] at this ⊢
  exact this.good

theorem meanings_length {v : View} : ∀ {es : List Expr} {ps : List Py}, meanings v es = some ps → ps.length = es.length
  | [], ps, h => by rw [meanings] at h; cases h; rfl
  | e :: es, ps, h => by
    rw [meanings] at h
    split at h
    · rename_i h1 h2
      cases h
      rw [List.length_cons, List.length_cons, meanings_length h2]
    · cases h

theorem changed_isSome (o : Str) (t v t' v' : Py) : (changed o t v).isSome = (changed o t' v').isSome := by
  unfold changed
  dsimp only
  by_cases h1 : o = "+=".toList
  · rw [if_pos h1, if_pos h1]; rfl
  · rw [if_neg h1, if_neg h1]
    by_cases h2 : o = "-=".toList
    · rw [if_pos h2, if_pos h2]; rfl
    · rw [if_neg h2, if_neg h2]
      by_cases h3 : o = "++=".toList
      · rw [if_pos h3, if_pos h3]; rfl
      · rw [if_neg h3, if_neg h3]
        by_cases h4 : o = "--=".toList
        · rw [if_pos h4, if_pos h4]; rfl
        · rw [if_neg h4, if_neg h4]
          by_cases h5 : o = "*=".toList
          · rw [if_pos h5, if_pos h5]; rfl
          · rw [if_neg h5, if_neg h5]
            by_cases h6 : o = "/=".toList
            · rw [if_pos h6, if_pos h6]; rfl
            · rw [if_neg h6, if_neg h6]

theorem assignment_some {o : Str} {ps qs ps' qs' : List Py} {s : PyS} (h : assignment o ps' qs' = some s) (hl : ps.length = ps'.length)
    (hl' : qs.length = qs'.length) : ∃ s, assignment o ps qs = some s := by
  unfold assignment at h ⊢
  split
  · exact ⟨_, rfl⟩
  · rename_i ho
    rw [if_neg ho] at h
    split at h
    · rename_i t v
      rw [List.length_singleton, List.length_eq_one_iff] at hl hl'
      obtain ⟨a, rfl⟩ := hl
      obtain ⟨b, rfl⟩ := hl'
      dsimp only
      rw [Option.map_eq_some_iff] at h
      obtain ⟨y, hy, -⟩ := h
      obtain ⟨z, hz⟩ := Option.isSome_iff_exists.1 ((changed_isSome o a b t v).trans (by rw [hy]; rfl))
      rw [hz]
      exact ⟨_, rfl⟩
    · cases h

/-- The text of an assignment is the assignment. -/
theorem assignText_good {o : Str} {lhs rhs : List Str} {ps qs : List Py} (hp : TextsGood lhs ps) (hlhs : lhs ≠ []) (ha : ps.all assignable = true)
    (hq : TextsGood rhs qs) (hrhs : rhs ≠ [])
    (ho : o = "=".toList ∨ (hasFunction o = true ∧ lhs.length = 1 ∧ rhs.length = 1)) {s0 : PyS} (h0 : assignment o ps qs = some s0) :
    ∃ t, assignText o (commas lhs) (commas rhs) = .ok t ∧ GroupText t [s0] := by
  rcases ho with rfl | ⟨hf, hl, hr⟩
  · unfold assignment at h0
    rw [if_pos rfl] at h0
    cases h0
    exact ⟨_, by rw [assignText, if_pos rfl], GroupText.assign hp hlhs ha hq hrhs⟩
  · obtain ⟨a, rfl⟩ := List.length_eq_one_iff.1 hl
    obtain ⟨b, rfl⟩ := List.length_eq_one_iff.1 hr
    cases hp with
    | @cons l1 s e ss es g1 k1 hp =>
      cases hp
      cases hq with
      | @cons l2 s' e' ss' es' g2 k2 hq =>
        cases hq
        have key : ∀ (f : Str) (g : List Str), GoodP f (dotted "drel_runtime".toList g) →
            GroupText (commas [a] ++ " = ".toList ++ (f ++ "(".toList ++ a ++ ",".toList ++ b ++ ")".toList))
              [.assign [e] [apply "drel_runtime".toList g [e, e']]] := fun f g hfg =>
          GroupText.assign (.one g1 k1) (by simp) ha (aug_good hfg g1 k1 g2 k2) (by simp)
        simp only [hasFunction, List.contains_eq_mem, decide_eq_true_eq] at hf
        have hf : o ∈ ["+=".toList, "-=".toList, "++=".toList, "--=".toList] := hf
        simp only [List.mem_cons, List.not_mem_nil, or_false] at hf
        rcases hf with rfl | rfl | rfl | rfl
        · refine ⟨_, rfl, ?_⟩
          have h1 : assignment "+=".toList [e] [e'] = some (.assign [e] [apply "drel_runtime".toList ["aug_add".toList] [e, e']]) := rfl
          rw [h1] at h0; cases h0
          have := key "drel_runtime.aug_add".toList ["aug_add".toList] (GoodP.dotted (by decide +kernel))
          simp only [List.append_assoc] at this ⊢
          exact this
        · refine ⟨_, rfl, ?_⟩
          have h1 : assignment "-=".toList [e] [e'] = some (.assign [e] [apply "drel_runtime".toList ["aug_sub".toList] [e, e']]) := rfl
          rw [h1] at h0; cases h0
          have := key "drel_runtime.aug_sub".toList ["aug_sub".toList] (GoodP.dotted (by decide +kernel))
          simp only [List.append_assoc] at this ⊢
          exact this
        · refine ⟨_, rfl, ?_⟩
          have h1 : assignment "++=".toList [e] [e'] = some (.assign [e] [apply "drel_runtime".toList ["aug_append".toList] [e, e']]) := rfl
          rw [h1] at h0; cases h0
          have := key "drel_runtime.aug_append".toList ["aug_append".toList] (GoodP.dotted (by decide +kernel))
          simp only [List.append_assoc] at this ⊢
          exact this
        · refine ⟨_, rfl, ?_⟩
          have h1 : assignment "--=".toList [e] [e'] = some (.assign [e] [apply "drel_runtime".toList ["aug_remove".toList] [e, e']]) := rfl
          rw [h1] at h0; cases h0
          have := key "drel_runtime.aug_remove".toList ["aug_remove".toList] (GoodP.dotted (by decide +kernel))
          simp only [List.append_assoc] at this ⊢
          exact this

theorem holding_at {ids : Dict Str Alias} {packets : Dict Str Str} (W : Dict Str (Str × Nat × Bool)) (ts vs : List Expr) (p : Dict Str Str) :
    holding (viewOf d.toEnv tg ids packets W) ts vs p = holding (fullView d.toEnv tg ids packets) ts vs p := by
  have h1 := holding_view (v := viewOf d.toEnv tg ids packets []) (var := dget (varsOf W)) ts vs p
  have h2 := holding_view (v := viewOf d.toEnv tg ids packets []) (var := fun n => some n) ts vs p
  exact h1.trans h2.symm

theorem assign_good (hE : EnvOk d.toEnv tg) {sc sc' : Scope} {st : St} {ts vs : List Expr} {o : Str} {ss0 : List PyS} {b0 : Bind} (hR : Ready st sc)
    (hs : steps d.toEnv tg (.assign ts o vs) sc = some sc') (hd : does (loopsOf d) (viewFull d.toEnv tg) (.assign ts o vs) sc.toBind = some (ss0, b0)) :
    ∃ txt st', stmt d (.assign ts o vs) st = .ok (txt, st') ∧ ∃ ss, GroupText txt ss ∧
      Done d.toEnv tg sc sc' b0 st st' (fun mk => does (loopsOf d) mk (.assign ts o vs) sc.toBind) ss := by
  rw [steps] at hs
  split at hs
  · rename_i hc
    cases hs
    simp only [Bool.and_eq_true, Bool.or_eq_true, decide_eq_true_eq, beq_iff_eq, Bool.not_eq_true', List.isEmpty_eq_false_iff] at hc
    obtain ⟨⟨⟨⟨⟨⟨hts, hvs⟩, ht⟩, htt⟩, hv⟩, ho⟩, hk⟩ := hc
    rw [does] at hd
    cases hmt : meanings (fullView d.toEnv tg sc.ids sc.packets) ts with
    | none =>
      rw [show meanings (viewFull d.toEnv tg sc.toBind) ts = none from hmt] at hd
      cases hd
    | some pt0 =>
      cases hmv : meanings (fullView d.toEnv tg sc.ids sc.packets) vs with
      | none =>
        rw [show meanings (viewFull d.toEnv tg sc.toBind) ts = some pt0 from hmt,
          show meanings (viewFull d.toEnv tg sc.toBind) vs = none from hmv] at hd
        cases hd
      | some pv0 =>
        rw [show meanings (viewFull d.toEnv tg sc.toBind) ts = some pt0 from hmt,
          show meanings (viewFull d.toEnv tg sc.toBind) vs = some pv0 from hmv] at hd
        dsimp only at hd
        rw [Option.map_eq_some_iff] at hd
        obtain ⟨s0, h0, he⟩ := hd
        cases he
        have hR1 : Ready { st with rhs := some false } sc := hR.of_fields rfl rfl rfl rfl
        obtain ⟨lhs, st1, e1, s1⟩ := sounds_good hE hR1.bind hR1.inv hR1.sub hR1.rel ht (by rw [hmt]; simp)
        have hR2 : Ready { st1 with rhs := some true } sc := (s1.ready hR1.rel hR1.bind).of_fields rfl rfl rfl rfl
        obtain ⟨ps, hps, hpl, hpm⟩ := s1.good
        have hlhs := TextsGood.ne_nil hps hpl hts
        /- what is left to say once the values are translated -/
        have key : ∀ (rhs : List Str) (st2 : St) (qs : List Py) (sc' : Scope), values d.toEnv lhs 0 vs { st1 with rhs := some true } = .ok (rhs, st2) →
            Ready st2 sc' → Ext st1.withtable st2.withtable → sc'.toBind = { sc.toBind with packets := holding (viewFull d.toEnv tg sc.toBind) ts vs sc.packets } →
            sc'.dead = sc.dead → TextsGood rhs qs → qs.length = vs.length →
            (∀ W, Ext st2.withtable W → meanings (viewOf d.toEnv tg sc.ids sc.packets W) vs = some qs) →
            ∃ txt st', stmt d (.assign ts o vs) st = .ok (txt, st') ∧ ∃ ss, GroupText txt ss ∧
              Done d.toEnv tg sc sc' { sc.toBind with packets := holding (viewFull d.toEnv tg sc.toBind) ts vs sc.packets } st st'
                (fun mk => does (loopsOf d) mk (.assign ts o vs) sc.toBind) ss := by
          intro rhs st2 qs sc' e2 hR3 hext hbind hdead hqs hql hqm
          have hrhs := TextsGood.ne_nil hqs hql hvs
          have hassign : ps.all assignable = true :=
            targets_assignable hR3.inv.assignable htt (hpm _ hext)
          have hl1 : lhs.length = ts.length := by rw [hps.length, hpl]
          have hl2 : rhs.length = vs.length := by rw [hqs.length, hql]
          obtain ⟨s0', h0'⟩ : ∃ s, assignment o ps qs = some s := by
            have l0 : ps.length = pt0.length := by rw [hpl]; exact (meanings_length hmt).symm
            have l1 : qs.length = pv0.length := by rw [hql]; exact (meanings_length hmv).symm
            exact assignment_some h0 l0 l1
          obtain ⟨t, ht', hg⟩ := assignText_good (o := o) hps hlhs hassign hqs hrhs (by
            rcases ho with rfl | ⟨⟨a, b⟩, c⟩
            · exact .inl rfl
            · exact .inr ⟨a, hl1.trans b, hl2.trans c⟩) h0'
          refine ⟨t, { st2 with rhs := none }, ?_, [s0'], hg, hR3.of_fields rfl rfl rfl rfl, ?_, hbind.symm, ?_, ?_, fun W hW => ?_⟩
          · rw [stmt, assign, e1]
            dsimp only
            rw [e2]
            dsimp only
            rw [ht']
          · exact s1.ext.trans hext
          · have := congrArg Bind.ids hbind; exact this
          · intro x hx; rw [hdead]; exact hx
          · have a1 := hpm W (hext.trans hW)
            have a2 := hqm W hW
            rw [does, show meanings (viewAt d.toEnv tg W sc.toBind) ts = some ps from a1, show meanings (viewAt d.toEnv tg W sc.toBind) vs = some qs from a2]
            dsimp only
            rw [h0', hbind]
            have := holding_at (d := d) (tg := tg) (ids := sc.ids) (packets := sc.packets) W ts vs sc.packets
            simp only [Option.map_some]
            rw [show holding (viewAt d.toEnv tg W sc.toBind) ts vs sc.packets = holding (viewFull d.toEnv tg sc.toBind) ts vs sc.packets from this]
        rcases hk with ⟨rfl, hch⟩ | hno
        · /- a packet is chosen -/
          obtain ⟨x, e, rfl, rfl, hce⟩ : ∃ x e, ts = [.name x] ∧ vs = [e] ∧ choosing (catsOf d.toEnv sc.ids) e = true := by
            revert hch
            unfold choice
            split
            · intro h; exact ⟨_, _, rfl, rfl, h⟩
            · intro h; cases h
          rw [allSound, List.all_cons, Bool.and_eq_true] at hv ht
          obtain ⟨t, st2, e2, s2⟩ := sound_good hE hR2.bind (hR2.true rfl) hR2.sub hR2.rel hv.1 (meanings_cons (by rw [hmv]; simp)).1
          obtain ⟨q, hq, hqm⟩ := s2.good
          obtain ⟨c, hc⟩ : ∃ c, chosen d.toEnv tg sc.ids sc.packets e = some c := by
            cases e with
            | sub p i =>
              have hce : isCategory (catsOf d.toEnv sc.ids) p = true := hce
              cases p with
              | tag t => exact ⟨_, rfl⟩
              | name y =>
                show ∃ c, (match dget sc.ids y with
                  | some al => some al.cat
                  | none => if (dkeys d.loopable).contains y then some y else none) = some c
                have hce : ((dget sc.ids y).isSome || (dkeys d.loopable).contains y) = true := hce
                cases hd : dget sc.ids y with
                | some al => exact ⟨_, rfl⟩
                | none =>
                  rw [hd] at hce
                  have hce : (dkeys d.loopable).contains y = true := hce
                  exact ⟨y, by dsimp only; rw [if_pos hce]⟩
              | _ => cases hce
            | _ => cases hce
          have hpk : packetOf (fullView d.toEnv tg sc.ids sc.packets) e = some c := by
            cases e with
            | sub p i => rw [← hc]; exact category_full p
            | _ => cases hce
          have hsub : st2.sub = c ∧ st2.sub ≠ [] := by
            have := s2.sub
            rw [hc] at this
            by_cases hz : st2.sub = []
            · rw [if_pos hz] at this; cases this
            · rw [if_neg hz] at this; cases this; exact ⟨rfl, hz⟩
          have hx : lhs = [x] := by
            have htx := htt
            simp only [List.all_cons, List.all_nil, Bool.and_true, isTarget, Bool.and_eq_true, Bool.not_eq_true'] at htx
            rw [exprs, expr] at e1
            dsimp only at e1
            rw [exprs, nameText_var htx.1.2] at e1
            cases e1; rfl
          have hvx : varName x = true := by
            have := ht.1
            rw [sound, Bool.and_eq_true, fits] at this
            exact this.1
          refine key [t] { st2 with packets := dset st2.packets x st2.sub, sub := [] } [q] _ ?_ ?_ s2.ext rfl rfl (.one hq.1 (plvl_pos e)) rfl ?_
          · rw [values, e2]
            dsimp only
            rw [notePacket, if_neg hsub.2, hx, List.getElem?_cons_zero]
            dsimp only
            rw [values]
          · refine ⟨⟨?_, ?_⟩, ⟨rfl, rfl, fun h => (by cases h), s2.inv.vars, s2.inv.once⟩, rfl, ?_⟩
            · intro k al hk
              exact hR2.bind.ids k al (by rw [← s2.ids]; exact hk)
            · intro k c' hk
              have hk : dget (dset st2.packets x st2.sub) k = some c' := hk
              rw [dget_dset] at hk
              split at hk
              · rename_i hkx; rw [← hkx]; exact varName_ident hvx
              · exact hR2.bind.packets k c' (by rw [← s2.packets]; exact hk)
            · refine ⟨?_, ?_, ?_, ?_⟩
              · show dset st2.packets x st2.sub = holding (fullView d.toEnv tg sc.ids sc.packets) [.name x] [e] sc.packets
                rw [holding, hpk, hsub.1, s2.packets]
                dsimp only
                rw [holding, hR2.rel.packets]
              · show (dkeys st2.ids).Nodup
                rw [s2.ids]; exact hR2.rel.once
              · intro k hk
                show dget st2.ids k = _
                rw [s2.ids]; exact hR2.rel.ids k hk
              · show (st2.ids.map fun p => (p.1, p.2.cat)) = sc.known
                rw [s2.ids]; exact hR2.rel.known
          · intro W hW
            rw [meanings, hqm W hW, meanings]
        · have hno' := hno
          rw [noPackets, Bool.and_eq_true] at hno
          obtain ⟨rhs, st2, e2, s2⟩ := values_good hE (lhs := lhs) (n := 0) hR2 rfl hv hno.1 (by rw [hmv]; simp)
          obtain ⟨qs, hqs, hql, hqm⟩ := s2.good
          have hh := holding_none hno'
          refine key rhs st2 qs _ e2 ?_ s2.ext rfl rfl hqs hql hqm
          have hR3 := s2.ready hR2.rel hR2.bind
          refine ⟨hR3.bind, hR3.inv, hR3.sub, ⟨?_, hR3.rel.once, hR3.rel.ids, hR3.rel.known⟩⟩
          show st2.packets = holding (fullView d.toEnv tg sc.ids sc.packets) ts vs sc.packets
          rw [hh]
          exact hR3.rel.packets
  · cases hs

end DrelMeaning
end Verif
