import Verif.Lemmas.DrelNotes
/-! # Dependencies noted in statements -/
namespace Verif
namespace DrelMeaning
open DrelPy PyText
variable [CaseFold]
set_option linter.unusedSectionVars false

section
variable {v : View} {f : Str → Option Alias} {keys : Str → List Str}

theorem itemNamed_agree (e : Expr) (a : Str) (h : ∀ x ∈ namesIn e, v.alias x = f x) : itemNamed v e a = itemNamed { v with alias := f } e a := by
  cases e with
  | name x => rw [namesIn] at h; simp only [itemNamed, h x (by simp)]
  | tag x => rw [namesIn] at h; simp only [itemNamed, h x (by simp)]
  | _ => rfl

mutual
theorem refers_agree : (e : Expr) → (∀ x ∈ namesIn e, v.alias x = f x) → refers v keys e = refers { v with alias := f } keys e
  | .name s, _ => by rw [refers, refers]
  | .tag _, _ => by rw [refers, refers]
  | .lit _, _ => by rw [refers, refers]
  | .int0, _ => by rw [refers, refers]
  | .slices _, _ => by rw [refers, refers]
  | .group es, h => by
    rw [namesIn] at h
    rw [refers, refers, refersAll_agree es h]
  | .list es, h => by
    rw [namesIn] at h
    rw [refers, refers, refersAll_agree es h]
  | .table ks vs, h => by
    rw [namesIn] at h
    rw [refers, refers, refersAll_agree vs h]
  | .attr p a, h => by
    rw [namesIn] at h
    rw [refers, refers, refers_agree p h, itemNamed_agree p a h, packetOf_agree p h]
  | .sub p i, h => by
    rw [namesIn] at h
    have h1 := fun x hx => h x (List.mem_append_left _ hx)
    have h2 := fun x hx => h x (List.mem_append_right _ hx)
    rw [refers, refers, refers_agree p h1, refers_agree i h2, category_agree p h1]
  | .items p es, h => by
    rw [namesIn] at h
    rw [refers, refers, refers_agree p fun x hx => h x (List.mem_append_left _ hx), refersAll_agree es fun x hx => h x (List.mem_append_right _ hx)]
  | .slice p es, h => by
    rw [namesIn] at h
    rw [refers, refers, refers_agree p fun x hx => h x (List.mem_append_left _ hx), refersAll_agree es fun x hx => h x (List.mem_append_right _ hx)]
  | .call g args, h => by
    rw [namesIn] at h
    rw [refers, refers, refersAll_agree args h]
  | .op o a b, h => by
    rw [namesIn] at h
    rw [refers, refers, refers_agree a fun x hx => h x (List.mem_append_left _ hx), refers_agree b fun x hx => h x (List.mem_append_right _ hx)]
  | .sign m a, h => by
    rw [namesIn] at h
    rw [refers, refers, refers_agree a h]
  | .not a, h => by
    rw [namesIn] at h
    rw [refers, refers, refers_agree a h]
theorem refersAll_agree : (es : List Expr) → (∀ x ∈ namesInAll es, v.alias x = f x) → refersAll v keys es = refersAll { v with alias := f } keys es
  | [], _ => by rw [refersAll, refersAll]
  | e :: r, h => by
    rw [namesInAll] at h
    rw [refersAll, refersAll, refers_agree e fun x hx => h x (List.mem_append_left _ hx), refersAll_agree r fun x hx => h x (List.mem_append_right _ hx)]
end
end

variable {d : Dic} {env : Env} {tg : Str}

theorem sound_notes (hE : EnvOk env tg) {sc : Scope} {rhs top : Bool} {e : Expr} {st st' : St} {txt : Str} (hB : BindOk st.ids st.packets)
    (hI : Inv st.ids st.packets rhs st) (hsub : st.sub = []) (hr : Rel st sc) (h : sound env sc rhs top e = true)
    (he : expr env e st = .ok (txt, st')) : Notes tg st st' (refers (fullView env tg sc.ids sc.packets) (keysOf env.loopable) e) := by
  have h1 := expr_notes hE hB e top hI hsub (sound_fits h hr) he
  have h2 := refers_agree (v := fullView env tg st.ids st.packets) (f := dget sc.ids) (keys := keysOf env.loopable) e (sound_names h hr)
  rw [h2, hr.packets] at h1
  exact h1

theorem sounds_notes (hE : EnvOk env tg) {sc : Scope} {rhs : Bool} : ∀ {es : List Expr} {st st' : St} {ts : List Str}, BindOk st.ids st.packets →
    Inv st.ids st.packets rhs st → st.sub = [] → Rel st sc → allSound env sc rhs false es = true →
    meanings (fullView env tg sc.ids sc.packets) es ≠ none → exprs env es st = .ok (ts, st') →
    Notes tg st st' (refersAll (fullView env tg sc.ids sc.packets) (keysOf env.loopable) es)
  | [], st, st', ts, _, _, _, _, _, _, he => by
    rw [exprs] at he; cases he
    rw [refersAll]; exact .nil rfl rfl
  | e :: es, st, st', ts, hB, hI, hs, hr, h, hm, he => by
    rw [allSound, List.all_cons, Bool.and_eq_true] at h
    obtain ⟨m1, m2⟩ := meanings_cons hm
    obtain ⟨t, st1, h1, s1⟩ := sound_good hE hB hI hs hr h.1 m1
    have hs1 := s1.noSub (chosen_false h.1)
    have hB1 : BindOk st1.ids st1.packets := by rw [s1.ids, s1.packets]; exact hB
    rw [exprs, h1] at he
    dsimp only at he
    cases h2 : exprs env es st1 with
    | error x => rw [h2] at he; cases he
    | ok r =>
      obtain ⟨us, st2⟩ := r
      rw [h2] at he; cases he
      rw [refersAll]
      exact (sound_notes hE hB hI hs hr h.1 h1).trans (sounds_notes hE hB1 s1.inv hs1 (hr.of s1.ids s1.packets) h.2 m2 h2)

theorem notePacket_notes {lhs : List Str} {n : Nat} {st st' : St} (h : notePacket lhs n st = .ok st') : Notes tg st st' [] := by
  unfold notePacket at h
  split at h
  · cases h; exact .nil rfl rfl
  · split at h
    · cases h
    · cases h; exact .nil rfl rfl

/-- The values of an assignment: no packets, or one value. -/
theorem values_notes (hE : EnvOk d.toEnv tg) {sc : Scope} {lhs : List Str} : ∀ {es : List Expr} {n : Nat} {st st' : St} {ts : List Str},
    Ready st sc → st.rhs = some true →
    allSound d.toEnv sc true true es = true → ((es.all fun e => (packetOf (fullView d.toEnv tg sc.ids sc.packets) e).isNone) = true ∨ es.length = 1) →
    meanings (fullView d.toEnv tg sc.ids sc.packets) es ≠ none → values d.toEnv lhs n es st = .ok (ts, st') →
    Notes tg st st' (refersAll (fullView d.toEnv tg sc.ids sc.packets) (keysOf d.loopable) es)
  | [], n, st, st', ts, hR, hr, _, _, _, he => by
    rw [values] at he; cases he
    rw [refersAll]; exact .nil rfl rfl
  | e :: es, n, st, st', ts, hR, hr, h, hp, hm, he => by
    rw [allSound, List.all_cons, Bool.and_eq_true] at h
    obtain ⟨m1, m2⟩ := meanings_cons hm
    obtain ⟨t, st1, h1, s1⟩ := sound_good hE hR.bind (hR.true hr) hR.sub hR.rel h.1 m1
    have hN := sound_notes hE hR.bind (hR.true hr) hR.sub hR.rel h.1 h1
    rw [refersAll]
    rw [values, h1] at he
    dsimp only at he
    cases hn : notePacket lhs n st1 with
    | error x => rw [hn] at he; cases he
    | ok st2 =>
      rw [hn] at he
      dsimp only at he
      cases hv : values d.toEnv lhs (n + 1) es st2 with
      | error x => rw [hv] at he; cases he
      | ok r =>
        obtain ⟨us, st3⟩ := r
        rw [hv] at he; cases he
        by_cases hes : es = []
        · subst hes
          rw [values] at hv; cases hv
          rw [refersAll]
          exact hN.trans (notePacket_notes hn)
        · have hp : ((e :: es).all fun e => (packetOf (fullView d.toEnv tg sc.ids sc.packets) e).isNone) = true := by
            rcases hp with hp | hp
            · exact hp
            · simp only [List.length_cons, Nat.add_eq_right, List.length_eq_zero_iff] at hp
              exact absurd hp hes
          rw [List.all_cons, Bool.and_eq_true] at hp
          have hs1 := s1.noSub (by
            have := Option.isNone_iff_eq_none.1 hp.1
            cases e with
            | sub p i => rw [← this]; exact (category_full p).symm
            | _ => rfl)
          rw [notePacket, if_pos hs1] at hn
          cases hn
          exact hN.trans (values_notes hE (s1.ready hR.rel hR.bind hs1) (s1.inv.rhs rfl) h.2 (.inl hp.2) m2 hv)

theorem assign_notes (hE : EnvOk d.toEnv tg) {sc sc' : Scope} {st st' : St} {ts vs : List Expr} {o txt : Str} {ss0 : List PyS} {b0 : Bind} (hR : Ready st sc)
    (hs : steps d.toEnv tg (.assign ts o vs) sc = some sc') (hd : does (loopsOf d) (viewFull d.toEnv tg) (.assign ts o vs) sc.toBind = some (ss0, b0))
    (he : stmt d (.assign ts o vs) st = .ok (txt, st')) :
    Notes tg st st' (uses (loopsOf d) (viewFull d.toEnv tg) (keysOf d.loopable) (.assign ts o vs) sc.toBind) := by
  rw [steps] at hs
  split at hs
  · rename_i hc
    simp only [Bool.and_eq_true, Bool.or_eq_true, decide_eq_true_eq, beq_iff_eq, Bool.not_eq_true', List.isEmpty_eq_false_iff] at hc
    obtain ⟨⟨⟨⟨⟨⟨hts, hvs⟩, ht⟩, htt⟩, hv⟩, ho⟩, hk⟩ := hc
    have hm : meanings (fullView d.toEnv tg sc.ids sc.packets) ts ≠ none ∧ meanings (fullView d.toEnv tg sc.ids sc.packets) vs ≠ none := by
      rw [does] at hd
      split at hd
      · rename_i h1 h2
        exact ⟨by rw [show meanings (fullView d.toEnv tg sc.ids sc.packets) ts = _ from h1]; simp,
          by rw [show meanings (fullView d.toEnv tg sc.ids sc.packets) vs = _ from h2]; simp⟩
      · cases hd
    have hR1 : Ready { st with rhs := some false } sc := hR.of_fields rfl rfl rfl rfl
    obtain ⟨lhs, st1, e1, s1⟩ := sounds_good hE hR1.bind hR1.inv hR1.sub hR1.rel ht hm.1
    have hN1 := sounds_notes hE hR1.bind hR1.inv hR1.sub hR1.rel ht hm.1 e1
    have hR2 : Ready { st1 with rhs := some true } sc := (s1.ready hR1.rel hR1.bind).of_fields rfl rfl rfl rfl
    rw [stmt, assign, e1] at he
    dsimp only at he
    cases e2 : values d.toEnv lhs 0 vs { st1 with rhs := some true } with
    | error x => rw [e2] at he; cases he
    | ok r =>
      obtain ⟨us, st2⟩ := r
      rw [e2] at he
      dsimp only at he
      have hN2 := values_notes hE hR2 rfl hv (by
        rcases hk with ⟨-, hk⟩ | hk
        · right
          revert hk
          unfold choice
          split
          · intro _; rfl
          · intro h; cases h
        · left
          rw [noPackets, Bool.and_eq_true] at hk
          exact hk.1) hm.2 e2
      cases e3 : assignText o (commas lhs) (commas us) with
      | error x => rw [e3] at he; cases he
      | ok t =>
        rw [e3] at he; cases he
        rw [uses]
        exact (((hN1.from (st := st) rfl rfl).to (st2 := { st1 with rhs := some true }) rfl rfl).trans hN2).to rfl rfl
  · cases hs

theorem addValues_notes (hE : EnvOk d.toEnv tg) {sc : Scope} {c : Str} : ∀ {os : List Str} {vs : List Expr} {st st' : St} {txt : Str} {l0 : List PyS},
    Ready st sc → st.rhs = some true → allSound d.toEnv sc true false vs = true →
    addValues (fullView d.toEnv tg sc.ids sc.packets) c os vs = some l0 → fancyLines d.toEnv c os vs st = .ok (txt, st') →
    Notes tg st st' (refersAll (fullView d.toEnv tg sc.ids sc.packets) (keysOf d.loopable) vs)
  | [], [], st, st', txt, l0, hR, _, _, _, he => by
    rw [fancyLines] at he <;> first | (cases he; rw [refersAll]; exact .nil rfl rfl) | nofun
  | [], _ :: _, st, st', txt, l0, _, _, _, h, _ => by rw [addValues] at h <;> first | cases h | nofun
  | _ :: _, [], st, st', txt, l0, _, _, _, h, _ => by rw [addValues] at h <;> first | cases h | nofun
  | o :: os, v :: vs, st, st', txt, l0, hR, hr, hs, h, he => by
    rw [allSound, List.all_cons, Bool.and_eq_true] at hs
    rw [addValues] at h
    split at h
    · rename_i n e r h1 h2 h3
      have hn := item_nameOf h1
      obtain ⟨t, st1, e1, s1⟩ := sound_good hE hR.bind (hR.true hr) hR.sub hR.rel hs.1 (by rw [h2]; simp)
      have hs1 := s1.noSub (chosen_false hs.1)
      rw [fancyLines, hn] at he
      dsimp only at he
      rw [e1] at he
      dsimp only at he
      cases e2 : fancyLines d.toEnv c os vs st1 with
      | error x => rw [e2] at he; cases he
      | ok r =>
        obtain ⟨u, st2⟩ := r
        rw [e2] at he; cases he
        rw [refersAll]
        exact (sound_notes hE hR.bind (hR.true hr) hR.sub hR.rel hs.1 e1).trans
          (addValues_notes hE (s1.ready hR.rel hR.bind hs1) (s1.inv.rhs rfl) hs.2 h3 e2)
    · cases h

theorem after_eq {L : Loops} {mk : Bind → View} {s : Stmt} {b b' : Bind} {ss : List PyS} (h : does L mk s b = some (ss, b')) : after L mk s b = b' := by
  unfold after
  rw [h]

mutual
theorem stmt_notes (hE : EnvOk d.toEnv tg) (hL : DicOk d) : (s : Stmt) → ∀ {sc sc' : Scope} {st st' : St} {txt : Str} {ss0 : List PyS} {b0 : Bind}, Ready st sc →
    steps d.toEnv tg s sc = some sc' → does (loopsOf d) (viewFull d.toEnv tg) s sc.toBind = some (ss0, b0) → stmt d s st = .ok (txt, st') →
    Notes tg st st' (uses (loopsOf d) (viewFull d.toEnv tg) (keysOf d.loopable) s sc.toBind)
  | .seq ss, sc, sc', st, st', txt, ss0, b0, hR, hs, hd, he => by
    rw [steps] at hs
    split at hs
    · cases hs
    · rw [does] at hd
      rw [stmt] at he
      cases e : stmts d ss st with
      | error x => rw [e] at he; cases he
      | ok r =>
        obtain ⟨ts, st1⟩ := r
        rw [e] at he; cases he
        rw [uses]
        exact stmts_notes hE hL ss hR hs hd e
  | .assign ts o vs, sc, sc', st, st', txt, ss0, b0, hR, hs, hd, he => assign_notes hE hR hs hd he
  | .fancy c os vs, sc, sc', st, st', txt, ss0, b0, hR, hs, hd, he => by
    rw [steps] at hs
    split at hs
    · rename_i hc
      rw [Bool.and_eq_true] at hc
      rw [does, Option.map_eq_some_iff] at hd
      obtain ⟨l0, h0, -⟩ := hd
      have hR1 : Ready { st with rhs := some true } sc := hR.of_fields rfl rfl rfl rfl
      rw [stmt] at he
      cases e : fancyLines d.toEnv c os vs { st with rhs := some true } with
      | error x => rw [e] at he; cases he
      | ok r =>
        obtain ⟨t, st1⟩ := r
        rw [e] at he; cases he
        rw [uses]
        exact ((addValues_notes hE hR1 rfl hc.2 h0 e).from (st := st) rfl rfl).to rfl rfl
    · cases hs
  | .exprs es, sc, sc', st, st', txt, ss0, b0, hR, hs, hd, he => by
    rw [steps] at hs
    split at hs
    · rename_i hc
      rw [Bool.and_eq_true] at hc
      rw [does, Option.map_eq_some_iff] at hd
      obtain ⟨l0, h0, -⟩ := hd
      rw [stmt] at he
      cases e : exprs d.toEnv es st with
      | error x => rw [e] at he; cases he
      | ok r =>
        obtain ⟨t, st1⟩ := r
        rw [e] at he; cases he
        rw [uses]
        exact sounds_notes hE hR.bind hR.inv hR.sub hR.rel hc.2
          (by rw [show meanings (fullView d.toEnv tg sc.ids sc.packets) es = some l0 from h0]; simp) e
    · cases hs
  | .print e, sc, sc', st, st', txt, ss0, b0, hR, hs, hd, he => by
    rw [steps] at hs
    split at hs
    · rename_i hc
      rw [stmt] at he
      cases e1 : expr d.toEnv e st with
      | error x => rw [e1] at he; cases he
      | ok r =>
        obtain ⟨t, st1⟩ := r
        rw [e1] at he; cases he
        rw [uses]
        exact sound_notes hE hR.bind hR.inv hR.sub hR.rel hc e1
    · cases hs
  | .brk, sc, sc', st, st', txt, ss0, b0, hR, hs, hd, he => by
    rw [stmt] at he; cases he
    rw [uses]; exact .nil rfl rfl
  | .next, sc, sc', st, st', txt, ss0, b0, hR, hs, hd, he => by
    rw [stmt] at he; cases he
    rw [uses]; exact .nil rfl rfl
  | .ite c s cs bs, sc, sc', st, st', txt, ss0, b0, hR, hs, hd, he => by
    rw [steps] at hs
    split at hs
    · rename_i hc
      rw [Option.bind_eq_some_iff] at hs
      obtain ⟨sc1, hs1, hs2⟩ := hs
      rw [does] at hd
      split at hd
      · rename_i p0 q0 b1 h0 h1
        rw [Option.map_eq_some_iff] at hd
        obtain ⟨⟨r0, b2⟩, h2, -⟩ := hd
        obtain ⟨t, st1, e1, g1⟩ := sound_good hE hR.bind hR.inv hR.sub hR.rel hc
          (by rw [show means (fullView d.toEnv tg sc.ids sc.packets) c = some p0 from h0]; simp)
        have hR1 : Ready { st1 with inif := true } sc := (g1.ready hR.rel hR.bind (g1.noSub (chosen_false hc))).of_fields rfl rfl rfl rfl
        obtain ⟨u, st2, e2, ss, hg2, hD2⟩ := stmt_good hE hL s hR1 hs1 h1
        rw [uses, after_eq h1]
        rw [hD2.bind] at h2 ⊢
        obtain ⟨w, st3, e3, -⟩ := arms_good hE hL cs bs hD2.ready hs2 h2
        rw [stmt, e1] at he
        dsimp only at he
        rw [e2] at he
        dsimp only at he
        rw [e3] at he
        cases he
        have n1 := sound_notes hE hR.bind hR.inv hR.sub hR.rel hc e1
        have n2 := stmt_notes hE hL s hR1 hs1 h1 e2
        have n3 := arms_notes hE hL cs bs hD2.ready hs2 h2 e3
        exact (((n1.to (st2 := { st1 with inif := true }) rfl rfl).trans n2).trans n3).to rfl rfl
      · cases hd
    · cases hs
  | .do_ i a f t s, sc, sc', st, st', txt, ss0, b0, hR, hs, hd, he => by
    obtain ⟨hi, hall, hti, n, rfl, hn, hs⟩ := steps_do hs
    simp only [allSound, List.all_cons, List.all_nil, Bool.and_true, Bool.and_eq_true] at hall
    obtain ⟨ha, hf, hl⟩ := hall
    have hfor : forget [i] sc.packets = sc.packets := forget_fresh (by rw [List.all_cons, hi]; rfl)
    have hb : ({ sc.toBind with packets := forget [i] sc.toBind.packets } : Bind) = sc.toBind := by rw [hfor]
    rw [does, hb] at hd
    rw [uses, hb]
    split at hd
    · rename_i pa0 pf0 pt0 q0 b1 h1 h2 h3 h4
      obtain ⟨ta, st1, e1, g1⟩ := sound_good hE hR.bind hR.inv hR.sub hR.rel ha
        (by rw [show means (fullView d.toEnv tg sc.ids sc.packets) a = some pa0 from h1]; simp)
      have hR1 := g1.ready hR.rel hR.bind (g1.noSub (chosen_false ha))
      obtain ⟨tf, st2, e2, g2⟩ := sound_good hE hR1.bind hR1.inv hR1.sub hR1.rel hf
        (by rw [show means (fullView d.toEnv tg sc.ids sc.packets) f = some pf0 from h2]; simp)
      have hR2 := g2.ready hR1.rel hR1.bind (g2.noSub (chosen_false hf))
      obtain ⟨tn, st3, e3, g3⟩ := sound_good hE hR2.bind hR2.inv hR2.sub hR2.rel hl
        (by rw [show means (fullView d.toEnv tg sc.ids sc.packets) (.lit n) = some pt0 from h3]; simp)
      have hR3 := g3.ready hR2.rel hR2.bind (g3.noSub (chosen_false hl))
      rw [stmt, e1] at he
      dsimp only at he
      rw [e2] at he
      dsimp only at he
      rw [e3] at he
      dsimp only at he
      cases e4 : stmt d s st3 with
      | error x => rw [e4] at he; cases he
      | ok r =>
        obtain ⟨u, st4⟩ := r
        rw [e4] at he; cases he
        have n1 := sound_notes hE hR.bind hR.inv hR.sub hR.rel ha e1
        have n2 := sound_notes hE hR1.bind hR1.inv hR1.sub hR1.rel hf e2
        have n3 := sound_notes hE hR2.bind hR2.inv hR2.sub hR2.rel hl e3
        have n4 := stmt_notes hE hL s hR3 hs h4 e4
        rw [refersAll, refersAll, refersAll, refersAll, List.append_nil]
        have := (n1.trans (n2.trans n3)).trans n4
        exact this
    · cases hd
  | .for_ xs es s, sc, sc', st, st', txt, ss0, b0, hR, hs, hd, he => by
    rw [steps] at hs
    split at hs
    · rename_i hc
      rw [Bool.and_eq_true, Bool.and_eq_true, Bool.and_eq_true] at hc
      obtain ⟨⟨-, hfr⟩, hso⟩ := hc
      have hfor := forget_fresh hfr
      have hb : ({ sc.toBind with packets := forget xs sc.toBind.packets } : Bind) = sc.toBind := by rw [hfor]
      rw [does, hb] at hd
      rw [uses, hb]
      split at hd
      · rename_i ps0 q0 b1 h1 h2
        have hR0 : Ready { st with rhs := some true } sc := hR.of_fields rfl rfl rfl rfl
        have hm : meanings (fullView d.toEnv tg sc.ids sc.packets) es ≠ none := by
          rw [show meanings (fullView d.toEnv tg sc.ids sc.packets) es = some ps0 from h1]; simp
        obtain ⟨ts, st1, e1, g1⟩ := sounds_good hE hR0.bind (hR0.true rfl) hR0.sub hR0.rel hso hm
        have hR1 : Ready { st1 with rhs := none } sc := (g1.ready hR0.rel hR0.bind).of_fields rfl rfl rfl rfl
        have n1 := sounds_notes hE hR0.bind (hR0.true rfl) hR0.sub hR0.rel hso hm e1
        rw [stmt, e1] at he
        dsimp only at he
        cases e2 : stmt d s { st1 with rhs := none } with
        | error x => rw [e2] at he; cases he
        | ok r =>
          obtain ⟨u, st2⟩ := r
          rw [e2] at he; cases he
          have n2 := stmt_notes hE hL s hR1 hs h2 e2
          exact ((n1.from (st := st) rfl rfl).to (st2 := { st1 with rhs := none }) rfl rfl).trans n2
      · cases hd
    · cases hs
  | .rep s, sc, sc', st, st', txt, ss0, b0, hR, hs, hd, he => by
    rw [steps] at hs
    rw [does, Option.map_eq_some_iff] at hd
    obtain ⟨⟨q0, b1⟩, h1, -⟩ := hd
    rw [stmt] at he
    cases e2 : stmt d s st with
    | error x => rw [e2] at he; cases he
    | ok r =>
      obtain ⟨u, st2⟩ := r
      rw [e2] at he; cases he
      rw [uses]
      exact stmt_notes hE hL s hR hs h1 e2
  | .with_ a c s, sc, sc', st, st', txt, ss0, b0, hR, hs, hd, he => by
    rw [steps] at hs
    split at hs
    · rename_i hc
      rw [Bool.and_eq_true, Bool.and_eq_true] at hc
      rw [Option.map_eq_some_iff] at hs
      obtain ⟨r, hr, -⟩ := hs
      rw [does, Option.map_eq_some_iff] at hd
      obtain ⟨⟨q0, b1⟩, h1, -⟩ := hd
      have hb : sc.toBind.inWith (viewFull d.toEnv tg sc.toBind) a c = (sc.within d.toEnv a c).toBind := by
        show sc.toBind.inWith _ a c = sc.toBind.inWith _ a c
        unfold Bind.inWith
        rw [within_alias d.toEnv (viewFull d.toEnv tg sc.toBind) (fun _ => rfl), within_alias d.toEnv (View.of d.names (dkeys d.loopable) [] [] [] []) (fun _ => rfl)]
      rw [hb] at h1
      rw [uses, hb]
      rw [stmt] at he
      have := stmt_notes hE hL s (bindWith_ready hR hc.1.1 hc.2) hr h1 he
      exact this.from rfl rfl
    · cases hs
  | .loop a c i o l s, sc, sc', st, st', txt, ss0, b0, hR, hs, hd, he => by
    rw [steps] at hs
    split at hs
    · rename_i hc
      simp only [Bool.and_eq_true] at hc
      obtain ⟨⟨⟨⟨ha, -⟩, hpc⟩, hi⟩, hl⟩ := hc
      rw [Option.map_eq_some_iff] at hs
      obtain ⟨r, hr, -⟩ := hs
      rw [does] at hd
      split at hd
      · rename_i hloop
        split at hd
        · rename_i k q q0 b1 hk hq h1
          rw [Bool.and_eq_true, Bool.and_eq_true] at hloop
          have hlc : (dkeys d.loopable).contains c = true := hloop.1.1
          rw [List.contains_eq_mem, decide_eq_true_eq] at hlc
          have hlen : st.ids.length = sc.known.length := by
            rw [← hR.rel.known, List.length_map]
          obtain ⟨hfor, hxp, hxf⟩ := index_ok (n := sc.known.length + 1) hR hi
          rw [stmt, if_pos hlc, catItems_ok hL] at he
          dsimp only at he
          rw [show dget d.keyOf (lower c) = some k from hk] at he
          dsimp only at he
          rw [hlen, loopIndex_eq] at he
          cases e : stmt d s ((bindLoop a c (indexVar i (sc.known.length + 1)) st).depend k) with
          | error x => rw [e] at he; cases he
          | ok y =>
            obtain ⟨u, st2⟩ := y
            rw [e] at he
            have he := congrArg (fun r : Except PyErr (Str × St) => r.toOption.map Prod.snd) he
            have he : some st2 = some st' := he
            rw [Option.some_inj] at he
            subst he
            rw [uses, hk]
            have n1 : Notes tg st (bindLoop a c (indexVar i (sc.known.length + 1)) st) [] := .nil rfl rfl
            have n2 := stmt_notes hE hL s (bindLoop_ready (k := k) hR ha hpc hxp hfor) hr h1 e
            exact (n1.trans (Notes.depend _ k)).trans n2
        · cases hd
      · cases hd
    · cases hs
  | .func f xs s, sc, sc', st, st', txt, ss0, b0, hR, hs, hd, he => by
    rw [steps] at hs
    split at hs
    · rename_i hc
      rw [Bool.and_eq_true, Bool.and_eq_true] at hc
      obtain ⟨⟨-, hfr⟩, -⟩ := hc
      rw [Option.bind_eq_some_iff] at hs
      obtain ⟨r, hr, hs⟩ := hs
      have hfor := forget_fresh hfr
      have hb : ({ sc.toBind with packets := forget xs sc.toBind.packets } : Bind) = sc.toBind := by rw [hfor]
      rw [does, Option.map_eq_some_iff, hb] at hd
      obtain ⟨⟨q0, b1⟩, h1, -⟩ := hd
      rw [stmt] at he
      cases e2 : stmt d s st with
      | error x => rw [e2] at he; cases he
      | ok r =>
        obtain ⟨u, st2⟩ := r
        rw [e2] at he; cases he
        rw [uses, hb]
        exact stmt_notes hE hL s hR hr h1 e2
    · cases hs
theorem stmts_notes (hE : EnvOk d.toEnv tg) (hL : DicOk d) : (ss : List Stmt) → ∀ {sc sc' : Scope} {st st' : St} {ts : List Str} {ss0 : List PyS} {b0 : Bind}, Ready st sc →
    allSteps d.toEnv tg ss sc = some sc' → doesAll (loopsOf d) (viewFull d.toEnv tg) ss sc.toBind = some (ss0, b0) → stmts d ss st = .ok (ts, st') →
    Notes tg st st' (usesAll (loopsOf d) (viewFull d.toEnv tg) (keysOf d.loopable) ss sc.toBind)
  | [], sc, sc', st, st', ts, ss0, b0, hR, hs, hd, he => by
    rw [stmts] at he; cases he
    rw [usesAll]; exact .nil rfl rfl
  | s :: r, sc, sc', st, st', ts, ss0, b0, hR, hs, hd, he => by
    rw [allSteps, Option.bind_eq_some_iff] at hs
    obtain ⟨sc1, hs1, hs2⟩ := hs
    rw [doesAll] at hd
    split at hd
    · rename_i q0 b1 h1
      rw [Option.map_eq_some_iff] at hd
      obtain ⟨⟨q1, b2⟩, h2, -⟩ := hd
      obtain ⟨t, st1, e1, ps1, hg1, hD1⟩ := stmt_good hE hL s hR hs1 h1
      rw [usesAll, after_eq h1]
      rw [hD1.bind] at h2 ⊢
      rw [stmts, e1] at he
      dsimp only at he
      cases e2 : stmts d r st1 with
      | error x => rw [e2] at he; cases he
      | ok y =>
        obtain ⟨us, st2⟩ := y
        rw [e2] at he; cases he
        exact (stmt_notes hE hL s hR hs1 h1 e1).trans (stmts_notes hE hL r hD1.ready hs2 h2 e2)
    · cases hd
theorem arms_notes (hE : EnvOk d.toEnv tg) (hL : DicOk d) : (cs : List Expr) → (bs : List Stmt) → ∀ {sc sc' : Scope} {st st' : St} {txt : Str} {ss0 : List PyS} {b0 : Bind},
    Ready st sc → armSteps d.toEnv tg cs bs sc = some sc' → doesArms (loopsOf d) (viewFull d.toEnv tg) cs bs sc.toBind = some (ss0, b0) →
    arms d cs bs st = .ok (txt, st') → Notes tg st st' (usesArms (loopsOf d) (viewFull d.toEnv tg) (keysOf d.loopable) cs bs sc.toBind)
  | [], [], sc, sc', st, st', txt, ss0, b0, hR, hs, hd, he => by
    have : usesArms (loopsOf d) (viewFull d.toEnv tg) (keysOf d.loopable) [] [] sc.toBind = [] := by rw [usesArms] <;> nofun
    rw [this]
    rw [arms] at he <;> first | (cases he; exact .nil rfl rfl) | nofun
  | [], [s], sc, sc', st, st', txt, ss0, b0, hR, hs, hd, he => by
    rw [armSteps] at hs
    rw [doesArms] at hd
    rw [arms] at he
    cases e2 : stmt d s st with
    | error x => rw [e2] at he; cases he
    | ok r =>
      obtain ⟨u, st2⟩ := r
      rw [e2] at he; cases he
      rw [usesArms]
      exact stmt_notes hE hL s hR hs hd e2
  | [], _ :: _ :: _, sc, sc', st, st', txt, ss0, b0, hR, hs, hd, he => by rw [armSteps] at hs <;> first | cases hs | nofun
  | _ :: _, [], sc, sc', st, st', txt, ss0, b0, hR, hs, hd, he => by rw [armSteps] at hs <;> first | cases hs | nofun
  | c :: cs, s :: bs, sc, sc', st, st', txt, ss0, b0, hR, hs, hd, he => by
    rw [armSteps] at hs
    split at hs
    · rename_i hc
      rw [Option.bind_eq_some_iff] at hs
      obtain ⟨sc1, hs1, hs2⟩ := hs
      rw [doesArms] at hd
      split at hd
      · rename_i p0 q0 b1 h0 h1
        rw [Option.map_eq_some_iff] at hd
        obtain ⟨⟨r0, b2⟩, h2, -⟩ := hd
        obtain ⟨t, st1, e1, g1⟩ := sound_good hE hR.bind hR.inv hR.sub hR.rel hc
          (by rw [show means (fullView d.toEnv tg sc.ids sc.packets) c = some p0 from h0]; simp)
        have hR1 := g1.ready hR.rel hR.bind (g1.noSub (chosen_false hc))
        obtain ⟨u, st2, e2, ss, hg2, hD2⟩ := stmt_good hE hL s hR1 hs1 h1
        rw [usesArms, after_eq h1]
        rw [hD2.bind] at h2 ⊢
        obtain ⟨w, st3, e3, -⟩ := arms_good hE hL cs bs hD2.ready hs2 h2
        rw [arms, e1] at he
        dsimp only at he
        rw [e2] at he
        dsimp only at he
        rw [e3] at he
        cases he
        have n1 := sound_notes hE hR.bind hR.inv hR.sub hR.rel hc e1
        have n2 := stmt_notes hE hL s hR1 hs1 h1 e2
        have n3 := arms_notes hE hL cs bs hD2.ready hs2 h2 e3
        exact (n1.trans n2).trans n3
      · cases hd
    · cases hs
end

end DrelMeaning
end Verif
