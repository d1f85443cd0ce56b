import Verif.Lemmas.DrelStmtMain
import Verif.Lemmas.DrelLoop
/-! # Statements are translated to what they stand for: compound statements -/
namespace Verif
namespace DrelMeaning
open DrelPy PyText
variable [CaseFold]
set_option linter.unusedSectionVars false
variable {d : Dic} {tg : Str}

/-! ## Values for a category -/

theorem plus_good {la lb : Nat} {a b : Str} {A B : Py} (ha : Good la a A) (h1 : 10 ≤ la) (hb : Good lb b B) (h2 : 11 ≤ lb) :
    Good 7 (a ++ "+".toList ++ b) (.bin "+".toList A B) :=
  Good.bin (ot := [.op "+".toList]) ha hb (by omega) (by omega) (by omega) (by omega) (by omega) (by omega) (by omega) ⟨1, by decide⟩
    ⟨'+', by decide, by decide⟩ (.inl ⟨'+', by decide, by decide⟩) (fun r => rfl) (fun r => ⟨by decide, by decide, by decide⟩)

theorem addValue_good {n v : Str} {e : Py} {lvl : Nat} (hn : plain n = true) (hv : Good lvl v e) (h1 : 1 ≤ lvl) :
    ∃ s, fancyLine n v = s ++ "\n".toList ∧ GroupText s [addValue n e] := by
  have hs := strGood hn (q := '\'') (by decide)
  have hget := (GoodP.dotted (s := "__dreltarget.get".toList) (a := "__dreltarget".toList) (r := ["get".toList]) (by decide +kernel)).call
    (.two hs.good (by omega) (GoodP.list .nil).good (by omega))
  have hplus := plus_good hget.good (by omega) (GoodP.list (.one hv h1)).good (by omega)
  have hdict := GoodP.dict (.cons hs.good (by omega) hplus (by omega) .nil)
  have hup := (GoodP.dotted (s := "__dreltarget.update".toList) (a := "__dreltarget".toList) (r := ["update".toList]) (by decide +kernel)).call
    (.one hdict.good (by omega))
  refine ⟨_, ?_, GroupText.expr hup.good (by omega)⟩
  unfold fancyLine
  rw [show "__dreltarget.update({".toList = "__dreltarget.update".toList ++ "(".toList ++ "{".toList from rfl,
    show ":__dreltarget.get(".toList = ":".toList ++ "__dreltarget.get".toList ++ "(".toList from rfl,
    show ",[])+[".toList = [','] ++ ("[".toList ++ "]".toList) ++ ")".toList ++ "+".toList ++ "[".toList from rfl,
    show "]})".toList = "]".toList ++ "}".toList ++ ")".toList from rfl]
  simp only [commas, entries, List.append_assoc, List.cons_append, List.nil_append]

theorem addValues_good (hE : EnvOk d.toEnv tg) {sc : Scope} {c : Str} : ∀ {os : List Str} {vs : List Expr} {st : St} {l0 : List PyS}, Ready st sc →
    st.rhs = some true → allSound d.toEnv sc true false vs = true → addValues (fullView d.toEnv tg sc.ids sc.packets) c os vs = some l0 →
    ∃ txt st' l, fancyLines d.toEnv c os vs st = .ok (txt, st') ∧ Ready st' sc ∧ Ext st.withtable st'.withtable ∧
      ((os = [] ∧ txt = []) ∨ (os ≠ [] ∧ GroupText txt l)) ∧
      ∀ W, Ext st'.withtable W → addValues (viewOf d.toEnv tg sc.ids sc.packets W) c os vs = some l
  | [], [], st, l0, hR, _, _, _ => ⟨[], st, [], by rw [fancyLines] <;> nofun, hR, .refl _, .inl ⟨rfl, rfl⟩, fun W _ => by rw [addValues]⟩
  | [], _ :: _, st, l0, _, _, _, h => by rw [addValues] at h <;> first | cases h | nofun
  | _ :: _, [], st, l0, _, _, _, h => by rw [addValues] at h <;> first | cases h | nofun
  | o :: os, v :: vs, st, l0, hR, hr, hs, h => by
    rw [allSound, List.all_cons, Bool.and_eq_true] at hs
    rw [addValues] at h
    split at h
    · rename_i n e r h1 h2 h3
      have hn := item_nameOf h1
      obtain ⟨-, k, ns, hk, hmem⟩ := nameOf_item (env := d.toEnv) (tg := tg) (ids := sc.ids) (packets := sc.packets) hn []
      have hplain := (hE.names k ns hk n hmem).1
      obtain ⟨t, st1, e1, s1⟩ := sound_good hE hR.bind (hR.true hr) hR.sub hR.rel hs.1 (by rw [h2]; simp)
      have hs1 := s1.noSub (chosen_false hs.1)
      obtain ⟨u, st2, l, e2, hR2, hx2, ht2, hm2⟩ := addValues_good hE (s1.ready hR.rel hR.bind hs1) (s1.inv.rhs rfl) hs.2 h3
      obtain ⟨p, hp, hpm⟩ := s1.good
      obtain ⟨line, hline, hg⟩ := addValue_good hplain hp.1 (plvl_pos v)
      refine ⟨fancyLine n t ++ u, st2, addValue n p :: l, ?_, hR2, s1.ext.trans hx2, .inr ⟨by simp, ?_⟩, fun W hW => ?_⟩
      · rw [fancyLines, hn]
        dsimp only
        rw [e1]
        dsimp only
        rw [e2]
      · rw [hline]
        rcases ht2 with ⟨rfl, rfl⟩ | ⟨-, hg2⟩
        · have hl : l = [] := by
            have := hm2 _ (.refl _)
            cases vs with
            | nil => rw [addValues] at this; cases this; rfl
            | cons a b => rw [addValues] at this <;> first | cases this | nofun
          rw [hl, List.append_nil]
          exact hg.nl
        · exact hg.cons hg2
      · have i1 := (nameOf_item (env := d.toEnv) (tg := tg) (ids := sc.ids) (packets := sc.packets) hn W).1
        rw [addValues, i1, hpm W (hx2.trans hW), hm2 W hW]
    · cases h

/-! ## Lines of expressions -/

theorem unlines_good : ∀ {ts : List Str} {ps : List Py}, TextsGood ts ps → ts ≠ [] → GroupText (unlines ts) (ps.map fun e => .expr [e])
  | _, _, .nil, h => absurd rfl h
  | _, _, @TextsGood.cons lvl s e ss es hg h1 hs, _ => by
    rw [unlines]
    cases hs with
    | nil => rw [unlines, List.append_nil]; exact (GroupText.expr hg h1).nl
    | @cons lvl' s' e' ss' es' hg' h1' hs' =>
      exact (GroupText.expr hg h1).cons (unlines_good (.cons hg' h1' hs') (by simp))

theorem copies_good : ∀ {ts : List Str} {ps : List Py}, TextsGood ts ps →
    TextsGood (ts.map fun t => "copy(".toList ++ t ++ ")".toList) (ps.map fun e => apply "copy".toList [] [e])
  | _, _, .nil => .nil
  | _, _, @TextsGood.cons lvl s e ss es hg h1 hs => by
    have := (GoodP.name (s := "copy".toList) (by decide)).call (.one hg h1)
    exact .cons (lvl := 11) this.good (by omega) (copies_good hs)

/-! ## Aliases -/

theorem within_alias (env : Env) (mk : View) (hmk : ∀ c, mk.loopable c = (dkeys env.loopable).contains c) (c : Str) :
    currentPacket mk c = { cat := c, index := if c ∈ dkeys env.loopable then "looped_cat".toList else [], loop := false } := by
  unfold currentPacket
  rw [hmk]
  simp only [List.contains_eq_mem, decide_eq_true_eq]

/-- The aliases the translator has, with their categories. -/
def knownOf (ids : Dict Str Alias) : Dict Str Str := ids.map fun p => (p.1, p.2.cat)

theorem knownOf_dset (ids : Dict Str Alias) (k : Str) (al : Alias) : knownOf (dset ids k al) = dset (knownOf ids) k al.cat := by
  induction ids with
  | nil => rfl
  | cons p r ih =>
    obtain ⟨j, v⟩ := p
    show knownOf (dset ((j, v) :: r) k al) = dset ((j, v.cat) :: knownOf r) k al.cat
    rw [dset, dset]
    split
    · rfl
    · rw [← ih]; rfl

theorem knownOf_ddel (ids : Dict Str Alias) (k : Str) : knownOf (ddel ids k) = ddel (knownOf ids) k := by
  unfold ddel knownOf
  rw [List.filter_map]
  rfl

theorem knownOf_with {env : Env} {st : St} {a c : Str} :
    knownOf (bindWith env a c st).ids = dset (match (knownOf st.ids).find? fun p => p.2 = c with
      | some p => ddel (knownOf st.ids) p.1
      | none => knownOf st.ids) a c := by
  unfold bindWith
  dsimp only
  rw [knownOf_dset]
  have hf : (knownOf st.ids).find? (fun p => decide (p.2 = c)) = (st.ids.find? fun p => decide (p.2.cat = c)).map fun p => (p.1, p.2.cat) := by
    unfold knownOf
    rw [List.find?_map]
    rfl
  rw [hf]
  cases st.ids.find? fun p => decide (p.2.cat = c) with
  | none => rfl
  | some p =>
    dsimp only [Option.map]
    rw [knownOf_ddel]

theorem bindWith_ready {env : Env} {st : St} {sc : Scope} {a c : Str} (hR : Ready st sc) (ha : varName a = true) (hc : plain c = true) :
    Ready (bindWith env a c st) (sc.within env a c) := by
  have hsome : ∀ p, st.ids.find? (fun p => decide (p.2.cat = c)) = some p → dget st.ids p.1 = some p.2 ∧ p.2.cat = c := by
    intro p hp
    refine ⟨dget_of_mem hR.rel.once (List.mem_of_find?_eq_some hp), ?_⟩
    have := List.find?_some hp
    simpa using this
  have hids : ∀ k, k ≠ a → (∀ al, dget st.ids k = some al → al.cat ≠ c) → dget (bindWith env a c st).ids k = dget st.ids k := by
    intro k hk hcat
    unfold bindWith
    dsimp only
    rw [dget_dset, if_neg (Ne.symm hk)]
    split
    · rename_i p hp
      obtain ⟨h1, h2⟩ := hsome p hp
      rw [dget_ddel, if_neg]
      rintro rfl
      exact hcat _ h1 h2
    · rfl
  have hself : dget (bindWith env a c st).ids a = some { cat := c, index := if c ∈ dkeys env.loopable then "looped_cat".toList else [], loop := false } := by
    unfold bindWith
    dsimp only
    rw [dget_dset_self]
  have hsub : ∀ k al, k ≠ a → dget (bindWith env a c st).ids k = some al → dget st.ids k = some al := by
    intro k al hk h
    unfold bindWith at h
    dsimp only at h
    rw [dget_dset, if_neg (Ne.symm hk)] at h
    split at h
    · rename_i p hp
      rw [dget_ddel] at h
      split at h
      · cases h
      · exact h
    · exact h
  refine ⟨⟨?_, hR.bind.packets⟩, ⟨rfl, rfl, fun h => (by cases h), hR.inv.vars, hR.inv.once⟩, hR.sub, ⟨hR.rel.packets, ?_, ?_, ?_⟩⟩
  · intro k al h
    by_cases hk : k = a
    · subst hk
      rw [hself] at h
      cases h
      exact ⟨varName_ident ha, hc, fun h => (by cases h)⟩
    · exact hR.bind.ids k al (hsub k al hk h)
  · unfold bindWith
    dsimp only
    refine nodup_dkeys_dset _ _ _ ?_
    split
    · exact nodup_dkeys_ddel _ _ hR.rel.once
    · exact hR.rel.once
  · intro k hk
    show dget (bindWith env a c st).ids k = dget (dset sc.ids a _) k
    rw [dget_dset]
    by_cases hka : k = a
    · subst hka
      rw [if_pos rfl, hself]
      rw [within_alias env _ (fun _ => rfl)]
    · rw [if_neg (Ne.symm hka)]
      have hk1 : k ∉ sc.dead ∧ ∀ al, dget sc.ids k = some al → al.cat ≠ c := by
        have hk : k ∉ (sc.dead ++ (sc.ids.filter fun p => p.2.cat = c).map (·.1)).filter (· ≠ a) := hk
        rw [List.mem_filter, List.mem_append] at hk
        constructor
        · intro h; exact hk ⟨.inl h, by simpa using hka⟩
        · intro al hal hcat
          refine hk ⟨.inr ?_, by simpa using hka⟩
          rw [List.mem_map]
          exact ⟨(k, al), List.mem_filter.2 ⟨dget_mem hal, by simpa using hcat⟩, rfl⟩
      rw [hids k hka, hR.rel.ids k hk1.1]
      intro al hal
      rw [hR.rel.ids k hk1.1] at hal
      exact hk1.2 al hal
  · show knownOf (bindWith env a c st).ids = _
    rw [knownOf_with, show knownOf st.ids = sc.known from hR.rel.known]
    rfl

theorem bindLoop_ready {st : St} {sc : Scope} {a c x k : Str} (hR : Ready st sc) (ha : varName a = true) (hc : plain c = true) (hx : pyName x = true)
    (hp : forget [x] sc.packets = sc.packets) : Ready ((bindLoop a c x st).depend k) (sc.around a c x) := by
  obtain ⟨f1, f2, f3, f4, f5⟩ := depend_fields (bindLoop a c x st) k
  have hself : ∀ y, dget ((bindLoop a c x st).depend k).ids y = if a = y then some { cat := c, index := x, loop := true } else dget st.ids y := by
    intro y
    rw [f1]
    exact dget_dset _ _ _ _
  refine ⟨⟨?_, ?_⟩, ⟨rfl, rfl, fun h => (by cases h), ?_, ?_⟩, ?_, ⟨?_, ?_, ?_, ?_⟩⟩
  · intro y al h
    rw [hself] at h
    split at h
    · rename_i hy
      subst hy
      cases h
      exact ⟨varName_ident ha, hc, fun _ => hx⟩
    · exact hR.bind.ids y al h
  · rw [f2]; exact hR.bind.packets
  · rw [f4]; exact hR.inv.vars
  · rw [f4]; exact hR.inv.once
  · rw [f5]; exact hR.sub
  · rw [f2]
    show st.packets = forget [x] sc.packets
    rw [hp]; exact hR.rel.packets
  · rw [f1]; exact nodup_dkeys_dset _ _ _ hR.rel.once
  · intro y hy
    rw [hself]
    show _ = dget (dset sc.ids a _) y
    rw [dget_dset]
    split
    · rfl
    · rename_i hay
      refine hR.rel.ids y fun h => hy ?_
      show y ∈ sc.dead.filter (· ≠ a)
      rw [List.mem_filter]
      exact ⟨h, by simpa using Ne.symm hay⟩
  · show knownOf ((bindLoop a c x st).depend k).ids = dset sc.known a c
    rw [f1, ← show knownOf st.ids = sc.known from hR.rel.known]
    exact knownOf_dset _ _ _

theorem catItems_ok (hL : DicOk d) (c : Str) :
    catItems d.toEnv c = .ok ((d.names.filter fun p => p.1.1 = lower c).filterMap fun p => p.2.head?) := by
  unfold catItems
  have : ∀ l : List ((Str × Str) × List Str), (∀ p ∈ l, p.2 ≠ []) →
      (l.mapM fun p => match p.2 with
        | [] => (.error .index : Except PyErr Str)
        | n :: _ => .ok n) = .ok (l.filterMap fun p => p.2.head?) := by
    intro l
    induction l with
    | nil => intro _; rfl
    | cons p r ih =>
      intro h
      rw [List.mapM_cons, ih fun q hq => h q (List.mem_cons_of_mem _ hq)]
      obtain ⟨k, ns⟩ := p
      cases ns with
      | nil => exact absurd rfl (h (k, []) List.mem_cons_self)
      | cons n ns => rfl
  exact this _ fun p hp => hL.named p (List.mem_filter.1 hp).1

theorem loopNames_plain (hE : EnvOk d.toEnv tg) (hL : DicOk d) {c x : Str} (h : x ∈ (loopsOf d).names c) : plain x = true := by
  have h1 := List.mem_eraseDups.1 (hL.order _ _ h)
  rw [List.mem_filterMap] at h1
  obtain ⟨p, hp, hx⟩ := h1
  have h2 : dget d.names p.1 = some p.2 := dget_of_mem hL.once (List.mem_filter.1 hp).1
  exact (hE.names p.1 p.2 h2 x (List.mem_of_mem_head? hx)).1

theorem someRows_view (v v' : View) (n : Nat) (o l : Str) : someRows v n o l = someRows v' n o l := by
  unfold someRows
  rw [means, means]

/-- The index of a loop is not a variable that holds a packet. -/
theorem index_ok {sc : Scope} {st : St} {i : Str} {n : Nat} (hR : Ready st sc) (hi : (i.isEmpty || fresh sc i) = true) :
    forget [indexVar i n] sc.packets = sc.packets ∧ pyName (indexVar i n) = true ∧ freeName (indexVar i n) = true := by
  unfold indexVar
  by_cases h : i = []
  · rw [if_pos h]
    refine ⟨?_, ownIndex_name n, ownIndex_free n⟩
    show ddel sc.packets _ = sc.packets
    refine ddel_none ?_
    cases hd : dget sc.packets ("__pi".toList ++ Nat.toDigits 10 n) with
    | none => rfl
    | some c =>
      rw [← hR.rel.packets] at hd
      have := hR.bind.packets _ _ hd
      have hf : ident ("__pi".toList ++ Nat.toDigits 10 n) = false := by
        show (_ && ("__pi".toList ++ Nat.toDigits 10 n).take 2 != "__".toList) = false
        rw [show ("__pi".toList ++ Nat.toDigits 10 n).take 2 = "__".toList from rfl]
        simp
      rw [hf] at this; cases this
  · rw [if_neg h]
    have hfr : fresh sc i = true := by
      rw [Bool.or_eq_true, List.isEmpty_iff] at hi
      exact hi.resolve_left h
    simp only [fresh, Bool.and_eq_true, varName] at hfr
    exact ⟨forget_fresh (by simp only [List.all_cons, List.all_nil, fresh, varName, Bool.and_true, Bool.and_eq_true]; exact hfr),
      hfr.1.1.1.1.1.1, hfr.1.1.1.1.2⟩

theorem fresh_parts {sc : Scope} {x : Str} (h : fresh sc x = true) : pyName x = true ∧ freeName x = true := by
  simp only [fresh, Bool.and_eq_true, varName] at h
  exact ⟨h.1.1.1.1.1.1, h.1.1.1.1.2⟩

theorem fresh_all {sc : Scope} {xs : List Str} (h : xs.all (fresh sc) = true) : xs.all pyName = true ∧ xs.all freeName = true := by
  rw [List.all_eq_true] at h
  constructor
  · rw [List.all_eq_true]; exact fun x hx => (fresh_parts (h x hx)).1
  · rw [List.all_eq_true]; exact fun x hx => (fresh_parts (h x hx)).2

theorem tight_plvl {e : Expr} (h : tight e = true) : 10 ≤ plvl e := by
  cases e with
  | op o a b => cases o <;> first | (simp [plvl]; done) | (simp [tight, level] at h; done)
  | not a => simp [tight, level] at h
  | _ => simp [plvl]

theorem steps_do {env : Env} {i : Str} {a f t : Expr} {s : Stmt} {sc sc' : Scope} (h : steps env tg (.do_ i a f t s) sc = some sc') :
    fresh sc i = true ∧ allSound env sc false false [a, f, t] = true ∧ tight f = true ∧
      ∃ n, t = .lit n ∧ (digits n && n.any (· != '0')) = true ∧ steps env tg s sc = some sc' := by
  cases t with
  | lit n =>
    rw [steps] at h
    split at h
    · rename_i hc
      rw [Bool.and_eq_true, Bool.and_eq_true, Bool.and_eq_true] at hc
      exact ⟨hc.1.1.1, hc.1.1.2, hc.1.2, n, rfl, hc.2, h⟩
    · cases h
  | _ =>
    rw [steps, if_neg] at h
    · cases h
    all_goals simp

/-! ## All statements -/

mutual
theorem stmt_good (hE : EnvOk d.toEnv tg) (hL : DicOk d) : (s : Stmt) → ∀ {sc sc' : Scope} {st : St} {ss0 : List PyS} {b0 : Bind}, Ready st sc →
    steps d.toEnv tg s sc = some sc' → does (loopsOf d) (viewFull d.toEnv tg) s sc.toBind = some (ss0, b0) →
    ∃ txt st', stmt d s st = .ok (txt, st') ∧ ∃ ss, GroupText txt ss ∧ Done d.toEnv tg sc sc' b0 st st' (fun mk => does (loopsOf d) mk s sc.toBind) ss
  | .seq ss, sc, sc', st, ss0, b0, hR, hs, hd => by
    rw [steps] at hs
    split at hs
    · cases hs
    · rename_i hne
      rw [does] at hd
      obtain ⟨ts, st', e, ps, hg, hD⟩ := stmts_good hE hL ss hR hs hd
      have hne' : ss ≠ [] := by simpa using hne
      refine ⟨unlines ts, st', by rw [stmt, e], ps, hg hne', hD.ready, hD.ext, hD.bind, hD.ids, hD.dead, fun W hW => ?_⟩
      try dsimp only
      rw [does]; exact hD.does W hW
  | .assign ts o vs, sc, sc', st, ss0, b0, hR, hs, hd => assign_good hE hR hs hd
  | .fancy c os vs, sc, sc', st, ss0, b0, hR, hs, hd => by
    rw [steps] at hs
    split at hs
    · rename_i hc
      cases hs
      rw [Bool.and_eq_true, Bool.not_eq_true', List.isEmpty_eq_false_iff] at hc
      rw [does, Option.map_eq_some_iff] at hd
      obtain ⟨l0, h0, he⟩ := hd
      cases he
      have hR1 : Ready { st with rhs := some true } sc := hR.of_fields rfl rfl rfl rfl
      obtain ⟨txt, st', l, e, hR2, hx, hg, hm⟩ := addValues_good hE hR1 rfl hc.2 h0
      refine ⟨txt, { st' with rhs := none }, ?_, l, ?_, hR2.of_fields rfl rfl rfl rfl, hx, rfl, rfl, fun x hx => hx, fun W hW => ?_⟩
      · rw [stmt, e]
      · rcases hg with ⟨h, -⟩ | ⟨-, h⟩
        · exact absurd h hc.1
        · exact h
      · try dsimp only
        rw [does, show addValues (viewAt d.toEnv tg W sc.toBind) c os vs = some l from hm W hW]
        rfl
    · cases hs
  | .exprs es, sc, sc', st, ss0, b0, hR, hs, hd => by
    rw [steps] at hs
    split at hs
    · rename_i hc
      cases hs
      rw [Bool.and_eq_true, Bool.not_eq_true', List.isEmpty_eq_false_iff] at hc
      rw [does, Option.map_eq_some_iff] at hd
      obtain ⟨l0, h0, he⟩ := hd
      cases he
      obtain ⟨ts, st', e, s1⟩ := sounds_good hE hR.bind hR.inv hR.sub hR.rel hc.2
        (by rw [show meanings (fullView d.toEnv tg sc.ids sc.packets) es = some l0 from h0]; simp)
      obtain ⟨ps, hps, hl, hm⟩ := s1.good
      refine ⟨unlines ts, st', by rw [stmt, e], _, unlines_good hps (TextsGood.ne_nil hps hl hc.1), s1.ready hR.rel hR.bind, s1.ext, rfl, rfl,
        fun x hx => hx, fun W hW => ?_⟩
      try dsimp only
      rw [does, show meanings (viewAt d.toEnv tg W sc.toBind) es = some ps from hm W hW]
      rfl
    · cases hs
  | .print e, sc, sc', st, ss0, b0, hR, hs, hd => by
    rw [steps] at hs
    split at hs
    · rename_i hc
      cases hs
      rw [does, Option.map_eq_some_iff] at hd
      obtain ⟨p0, h0, he⟩ := hd
      cases he
      obtain ⟨t, st', e1, s1⟩ := sound_good hE hR.bind hR.inv hR.sub hR.rel hc
        (by rw [show means (fullView d.toEnv tg sc.ids sc.packets) e = some p0 from h0]; simp)
      obtain ⟨p, hp, hm⟩ := s1.good
      have hg := (GoodP.name (s := "print".toList) (by decide)).call' (.one hp.1 (plvl_pos e)) (.inr rfl)
      refine ⟨_, st', by rw [stmt, e1]; rfl, _, GroupText.expr hg.good (by omega), s1.ready hR.rel hR.bind (s1.noSub (chosen_false hc)), s1.ext, rfl, rfl,
        fun x hx => hx, fun W hW => ?_⟩
      try dsimp only
      rw [does, show means (viewAt d.toEnv tg W sc.toBind) e = some p from hm W hW]
      rfl
    · cases hs
  | .brk, sc, sc', st, ss0, b0, hR, hs, hd => by
    rw [steps] at hs; rw [does] at hd
    cases hs; cases hd
    exact ⟨_, st, by rw [stmt], _, GroupText.brk, hR, .refl _, rfl, rfl, fun x hx => hx, fun W _ => by rw [does]⟩
  | .next, sc, sc', st, ss0, b0, hR, hs, hd => by
    rw [steps] at hs; rw [does] at hd
    cases hs; cases hd
    exact ⟨_, st, by rw [stmt], _, GroupText.cont, hR, .refl _, rfl, rfl, fun x hx => hx, fun W _ => by rw [does]⟩
  | .ite c s cs bs, sc, sc', st, ss0, b0, hR, hs, hd => by
    rw [steps] at hs
    split at hs
    · rename_i hc
      rw [Option.bind_eq_some_iff] at hs
      obtain ⟨sc1, hs1, hs2⟩ := hs
      rw [does] at hd
      split at hd
      · rename_i p0 q0 b1 h0 h1
        rw [Option.map_eq_some_iff] at hd
        obtain ⟨⟨r0, b2⟩, h2, he⟩ := hd
        cases he
        obtain ⟨t, st1, e1, g1⟩ := sound_good hE hR.bind hR.inv hR.sub hR.rel hc
          (by rw [show means (fullView d.toEnv tg sc.ids sc.packets) c = some p0 from h0]; simp)
        have hR1 := g1.ready hR.rel hR.bind (g1.noSub (chosen_false hc))
        obtain ⟨p, hp, hpm⟩ := g1.good
        obtain ⟨u, st2, e2, ss, hg2, hD2⟩ := stmt_good hE hL s (st := { st1 with inif := true }) (hR1.of_fields rfl rfl rfl rfl) hs1 h1
        have hb := hD2.bind
        rw [hb] at h2
        obtain ⟨w, st3, e3, es, hg3, hD3⟩ := arms_good hE hL cs bs hD2.ready hs2 h2
        have hx2 : Ext st1.withtable st2.withtable := hD2.ext
        refine ⟨_, { st3 with inif := st1.inif }, ?_, _, GroupText.ite hp.1 (plvl_pos c) hg2 hg3, hD3.ready.of_fields rfl rfl rfl rfl,
          (g1.ext.trans hx2).trans hD3.ext, hD3.bind, hD3.ids.trans hD2.ids, fun x hx => hD3.dead x (hD2.dead x hx), fun W hW => ?_⟩
        · rw [stmt, e1]
          dsimp only
          rw [e2]
          dsimp only
          rw [e3]
          rfl
        · have hW : Ext st3.withtable W := hW
          try dsimp only
          rw [does, show means (viewAt d.toEnv tg W sc.toBind) c = some p from hpm W ((hx2.trans hD3.ext).trans hW)]
          have a2 := hD2.does W (hD3.ext.trans hW)
          have a3 := hD3.does W hW
          try dsimp only at a2 a3
          rw [a2]
          dsimp only
          rw [a3]
          rfl
      · cases hd
    · cases hs
  | .do_ i a f t s, sc, sc', st, ss0, b0, hR, hs, hd => by
    obtain ⟨hi, hall, hti, n, rfl, hn, hs⟩ := steps_do hs
    simp only [allSound, List.all_cons, List.all_nil, Bool.and_true, Bool.and_eq_true] at hall
    obtain ⟨ha, hf, hl⟩ := hall
    have hfor : forget [i] sc.packets = sc.packets := forget_fresh (by rw [List.all_cons, hi]; rfl)
    rw [does] at hd
    rw [show ({ sc.toBind with packets := forget [i] sc.toBind.packets } : Bind) = sc.toBind by rw [hfor]] at hd
    split at hd
    · rename_i pa0 pf0 pt0 q0 b1 h1 h2 h3 h4
      rw [Option.map_eq_some_iff] at hd
      obtain ⟨l0, -, he⟩ := hd
      cases he
      obtain ⟨ta, st1, e1, g1⟩ := sound_good hE hR.bind hR.inv hR.sub hR.rel ha
        (by rw [show means (fullView d.toEnv tg sc.ids sc.packets) a = some pa0 from h1]; simp)
      have hR1 := g1.ready hR.rel hR.bind (g1.noSub (chosen_false ha))
      obtain ⟨tf, st2, e2, g2⟩ := sound_good hE hR1.bind hR1.inv hR1.sub hR1.rel hf
        (by rw [show means (fullView d.toEnv tg sc.ids sc.packets) f = some pf0 from h2]; simp)
      have hR2 := g2.ready hR1.rel hR1.bind (g2.noSub (chosen_false hf))
      obtain ⟨tn, st3, e3, g3⟩ := sound_good hE hR2.bind hR2.inv hR2.sub hR2.rel hl
        (by rw [show means (fullView d.toEnv tg sc.ids sc.packets) (.lit n) = some pt0 from h3]; simp)
      have hR3 := g3.ready hR2.rel hR2.bind (g3.noSub (chosen_false hl))
      obtain ⟨u, st4, e4, ss, hg4, hD4⟩ := stmt_good hE hL s hR3 hs h4
      obtain ⟨pa, hpa, hma⟩ := g1.good
      obtain ⟨pf, hpf, hmf⟩ := g2.good
      obtain ⟨pn, hpn, hmn⟩ := g3.good
      have hone : Good 11 "1".toList (.num "1".toList) := (number_good (s := "1".toList) (by decide)).1.good
      have hplus := plus_good hpf.1 (tight_plvl hti) hone (by omega)
      have hcall := (GoodP.name (s := "range".toList) (by decide)).call
        (.cons hpa.1 (plvl_pos a) (.two hplus (by omega) hpn.1 (plvl_pos _)))
      obtain ⟨hpi, hfi⟩ := fresh_parts hi
      have hg := GroupText.for (xs := [i]) (by simp) (by rw [List.all_cons, hpi]; rfl) (by rw [List.all_cons, hfi]; rfl)
        (.one hcall.good (by omega)) (by simp) hg4
      refine ⟨_, st4, ?_, _, hg, hD4.ready, ((g1.ext.trans g2.ext).trans g3.ext).trans hD4.ext, hD4.bind, hD4.ids, hD4.dead, fun W hW => ?_⟩
      · rw [stmt, e1]
        dsimp only
        rw [e2]
        dsimp only
        rw [e3]
        dsimp only
        rw [e4]
        dsimp only
        congr 2
        rw [show " in range(".toList = " in ".toList ++ "range".toList ++ "(".toList from rfl,
          show "+1,".toList = "+".toList ++ "1".toList ++ [','] from rfl, show "):".toList = ")".toList ++ ":".toList from rfl,
          show ",".toList = [','] from rfl]
        simp only [commas, List.append_assoc, List.cons_append, List.nil_append]
      · try dsimp only
        rw [does]
        rw [show ({ sc.toBind with packets := forget [i] sc.toBind.packets } : Bind) = sc.toBind by rw [hfor]]
        have a4 := hD4.does W hW
        try dsimp only at a4
        rw [show means (viewAt d.toEnv tg W sc.toBind) a = some pa from hma W (((g2.ext.trans g3.ext).trans hD4.ext).trans hW),
          show means (viewAt d.toEnv tg W sc.toBind) f = some pf from hmf W ((g3.ext.trans hD4.ext).trans hW),
          show means (viewAt d.toEnv tg W sc.toBind) (.lit n) = some pn from hmn W (hD4.ext.trans hW), a4]
        dsimp only
        rw [lastOf]
        rw [if_pos hn]
        rfl
    · cases hd
  | .for_ xs es s, sc, sc', st, ss0, b0, hR, hs, hd => by
    rw [steps] at hs
    split at hs
    · rename_i hc
      rw [Bool.and_eq_true, Bool.and_eq_true, Bool.and_eq_true, Bool.not_eq_true', Bool.not_eq_true', List.isEmpty_eq_false_iff,
        List.isEmpty_eq_false_iff] at hc
      obtain ⟨⟨⟨hx, hes⟩, hfr⟩, hso⟩ := hc
      have hfor := forget_fresh hfr
      rw [does] at hd
      rw [show ({ sc.toBind with packets := forget xs sc.toBind.packets } : Bind) = sc.toBind by rw [hfor]] at hd
      split at hd
      · rename_i ps0 q0 b1 h1 h2
        cases hd
        have hR0 : Ready { st with rhs := some true } sc := hR.of_fields rfl rfl rfl rfl
        obtain ⟨ts, st1, e1, g1⟩ := sounds_good hE hR0.bind (hR0.true rfl) hR0.sub hR0.rel hso
          (by rw [show meanings (fullView d.toEnv tg sc.ids sc.packets) es = some ps0 from h1]; simp)
        have hR1 : Ready { st1 with rhs := none } sc := (g1.ready hR0.rel hR0.bind).of_fields rfl rfl rfl rfl
        obtain ⟨u, st2, e2, ss, hg2, hD2⟩ := stmt_good hE hL s hR1 hs h2
        obtain ⟨ps, hps, hl, hm⟩ := g1.good
        obtain ⟨hxp, hxf⟩ := fresh_all hfr
        have hg := GroupText.for hx hxp hxf (copies_good hps) (by simpa using TextsGood.ne_nil hps hl hes) hg2
        have hx2 : Ext st1.withtable st2.withtable := hD2.ext
        refine ⟨_, st2, ?_, _, hg, hD2.ready, g1.ext.trans hx2, hD2.bind, hD2.ids, hD2.dead, fun W hW => ?_⟩
        · rw [stmt, e1]
          dsimp only
          rw [e2]
        · try dsimp only
          rw [does]
          rw [show ({ sc.toBind with packets := forget xs sc.toBind.packets } : Bind) = sc.toBind by rw [hfor]]
          have a2 := hD2.does W hW
          try dsimp only at a2
          rw [show meanings (viewAt d.toEnv tg W sc.toBind) es = some ps from hm W (hx2.trans hW), a2]
      · cases hd
    · cases hs
  | .rep s, sc, sc', st, ss0, b0, hR, hs, hd => by
    rw [steps] at hs
    rw [does, Option.map_eq_some_iff] at hd
    obtain ⟨⟨q0, b1⟩, h1, he⟩ := hd
    cases he
    obtain ⟨u, st', e, ss, hg, hD⟩ := stmt_good hE hL s hR hs h1
    refine ⟨_, st', by rw [stmt, e], _, hg.while, hD.ready, hD.ext, hD.bind, hD.ids, hD.dead, fun W hW => ?_⟩
    have := hD.does W hW
    try dsimp only at this ⊢
    rw [does, this]
    rfl
  | .with_ a c s, sc, sc', st, ss0, b0, hR, hs, hd => by
    rw [steps] at hs
    split at hs
    · rename_i hc
      rw [Bool.and_eq_true, Bool.and_eq_true] at hc
      rw [Option.map_eq_some_iff] at hs
      obtain ⟨r, hr, rfl⟩ := hs
      rw [does, Option.map_eq_some_iff] at hd
      obtain ⟨⟨q0, b1⟩, h1, he⟩ := hd
      cases he
      have hb : ∀ mk : View, (∀ c, mk.loopable c = (dkeys d.toEnv.loopable).contains c) →
          sc.toBind.inWith mk a c = (sc.within d.toEnv a c).toBind := by
        intro mk hmk
        show sc.toBind.inWith mk a c = sc.toBind.inWith _ a c
        unfold Bind.inWith
        rw [within_alias d.toEnv mk hmk, within_alias d.toEnv _ (fun _ => rfl)]
      rw [hb _ (fun _ => rfl)] at h1
      obtain ⟨u, st', e, ss, hg, hD⟩ := stmt_good hE hL s (bindWith_ready hR hc.1.1 hc.2) hr h1
      have hids := hD.ids
      refine ⟨u, st', by rw [stmt, e], ss, hg, ?_, hD.ext, ?_, rfl, ?_, fun W hW => ?_⟩
      · refine ⟨hD.ready.bind, hD.ready.inv, hD.ready.sub, ⟨hD.ready.rel.packets, hD.ready.rel.once, fun k hk => ?_, hD.ready.rel.known⟩⟩
        have hk : k ∉ a :: r.dead := hk
        rw [List.mem_cons, not_or] at hk
        rw [hD.ready.rel.ids k hk.2, hids]
        show dget (dset sc.ids a _) k = dget sc.ids k
        rw [dget_dset, if_neg (Ne.symm hk.1)]
      · rw [hD.bind]
      · intro x hx
        by_cases hxa : x = a
        · subst hxa; exact List.mem_cons_self
        · refine List.mem_cons_of_mem _ (hD.dead x ?_)
          show x ∈ (sc.dead ++ (sc.ids.filter fun p => p.2.cat = c).map (·.1)).filter (· ≠ a)
          rw [List.mem_filter]
          exact ⟨List.mem_append_left _ hx, by simpa using hxa⟩
      · have a1 := hD.does W hW
        dsimp only at a1 ⊢
        rw [does, hb _ (fun _ => rfl), a1]
        rfl
    · cases hs
  | .loop a c i o l s, sc, sc', st, ss0, b0, hR, hs, hd => by
    rw [steps] at hs
    split at hs
    · rename_i hc
      simp only [Bool.and_eq_true] at hc
      obtain ⟨⟨⟨⟨ha, -⟩, hpc⟩, hi⟩, hl⟩ := hc
      rw [Option.map_eq_some_iff] at hs
      obtain ⟨r, hr, rfl⟩ := hs
      rw [does] at hd
      split at hd
      · rename_i hloop
        split at hd
        · rename_i k q q0 b1 hk hq h1
          cases hd
          have hloop' := hloop
          rw [Bool.and_eq_true, Bool.and_eq_true, Bool.not_eq_true', List.isEmpty_eq_false_iff] at hloop
          obtain ⟨⟨hlc, hne⟩, hin⟩ := hloop
          have hlc : (dkeys d.loopable).contains c = true := hlc
          rw [List.contains_eq_mem, decide_eq_true_eq] at hlc
          have hlen : st.ids.length = sc.known.length := by
            rw [← hR.rel.known, List.length_map]
          obtain ⟨hfor, hxp, hxf⟩ := index_ok (n := sc.known.length + 1) hR hi
          obtain ⟨u, st', e, ss, hg, hD⟩ := stmt_good hE hL s (bindLoop_ready (k := k) hR ha hpc hxp hfor) hr h1
          have hlim : o ≠ [] → pyName l = true ∧ isPi l = false ∧ l ≠ "a".toList := by
            intro ho
            rw [Bool.or_eq_true, List.isEmpty_iff] at hl
            have := hl.resolve_left ho
            simp only [limits, Bool.and_eq_true, Bool.not_eq_true', bne_iff_ne, varName] at this
            exact ⟨this.1.1.1.1, this.1.1.2, this.1.2⟩
          have hgood := loop_good (n := sc.known.length + 1) hne (fun x hx => loopNames_plain hE hL hx) (hL.keys _ _ hk) hxp hxf hlim hq hg
          obtain ⟨f1, f2, f3, f4, f5⟩ := depend_fields (bindLoop a c (indexVar i (sc.known.length + 1)) st) k
          refine ⟨_, st', ?_, _, hgood, ?_, ?_, ?_, rfl, ?_, fun W hW => ?_⟩
          · rw [stmt, if_pos hlc, catItems_ok hL]
            dsimp only
            rw [show dget d.keyOf (lower c) = some k from hk]
            dsimp only
            rw [hlen, loopIndex_eq, e]
            rfl
          · refine ⟨hD.ready.bind, hD.ready.inv, hD.ready.sub, ⟨hD.ready.rel.packets, hD.ready.rel.once, fun y hy => ?_, hD.ready.rel.known⟩⟩
            have hy : y ∉ a :: r.dead := hy
            rw [List.mem_cons, not_or] at hy
            rw [hD.ready.rel.ids y hy.2, hD.ids]
            show dget (dset sc.ids a _) y = dget sc.ids y
            rw [dget_dset, if_neg (Ne.symm hy.1)]
          · have := hD.ext
            rw [f4] at this
            exact this
          · rw [hD.bind]
          · intro y hy
            by_cases hya : y = a
            · subst hya; exact List.mem_cons_self
            · refine List.mem_cons_of_mem _ (hD.dead y ?_)
              show y ∈ sc.dead.filter (· ≠ a)
              rw [List.mem_filter]
              exact ⟨hy, by simpa using hya⟩
          · have a1 := hD.does W hW
            have a1 : does (loopsOf d) (viewAt d.toEnv tg W) s (sc.toBind.inLoop a c (indexVar i (sc.known.length + 1))) = some (ss, r.toBind) := a1
            dsimp only
            rw [does]
            rw [if_pos (show ((viewAt d.toEnv tg W sc.toBind).loopable c && !((loopsOf d).names c).isEmpty &&
              !sc.inner.contains (indexVar i (sc.known.length + 1))) = true from hloop'), hk, a1,
              someRows_view _ (viewFull d.toEnv tg sc.toBind), hq]
        · cases hd
      · cases hd
    · cases hs
  | .func f xs s, sc, sc', st, ss0, b0, hR, hs, hd => by
    rw [steps] at hs
    split at hs
    · rename_i hc
      rw [Bool.and_eq_true, Bool.and_eq_true, Bool.and_eq_true] at hc
      obtain ⟨⟨⟨hf, hff⟩, hfr⟩, hnd⟩ := hc
      rw [Option.bind_eq_some_iff] at hs
      obtain ⟨r, hr, hs⟩ := hs
      split at hs
      · rename_i hpk
        cases hs
        have hfor := forget_fresh hfr
        rw [does, Option.map_eq_some_iff] at hd
        obtain ⟨⟨q0, b1⟩, h1, he⟩ := hd
        cases he
        rw [show ({ sc.toBind with packets := forget xs sc.toBind.packets } : Bind) = sc.toBind by rw [hfor]] at h1
        obtain ⟨u, st', e, ss, hg, hD⟩ := stmt_good hE hL s hR hr h1
        obtain ⟨hxp, hxf⟩ := fresh_all hfr
        have hfp : pyName f = true := by rw [varName, Bool.and_eq_true] at hf; exact hf.1
        have hret := hg.cons (GroupText.ret (Good.ofName hfp) (by omega))
        have hdef := GroupText.def hfp hff hxp hxf (of_decide_eq_true hnd) hret
        refine ⟨_, st', ?_, _, hdef, ?_, hD.ext, by rw [hD.bind], rfl, hD.dead, fun W hW => ?_⟩
        · rw [stmt, e]
          dsimp only
          rw [show "\nreturn ".toList = "\n".toList ++ "return ".toList from rfl]
          simp only [List.append_assoc]
        · refine ⟨hD.ready.bind, hD.ready.inv, hD.ready.sub, ⟨hD.ready.rel.packets.trans hpk, hD.ready.rel.once, fun k hk => ?_, hD.ready.rel.known⟩⟩
          rw [hD.ready.rel.ids k hk, hD.ids]
        · have a1 := hD.does W hW
          dsimp only at a1 ⊢
          rw [does]
          rw [show ({ sc.toBind with packets := forget xs sc.toBind.packets } : Bind) = sc.toBind by rw [hfor]]
          rw [a1]
          rfl
      · cases hs
    · cases hs
theorem stmts_good (hE : EnvOk d.toEnv tg) (hL : DicOk d) : (ss : List Stmt) → ∀ {sc sc' : Scope} {st : St} {ss0 : List PyS} {b0 : Bind}, Ready st sc →
    allSteps d.toEnv tg ss sc = some sc' → doesAll (loopsOf d) (viewFull d.toEnv tg) ss sc.toBind = some (ss0, b0) →
    ∃ ts st', stmts d ss st = .ok (ts, st') ∧ ∃ ps, (ss ≠ [] → GroupText (unlines ts) ps) ∧
      Done d.toEnv tg sc sc' b0 st st' (fun mk => doesAll (loopsOf d) mk ss sc.toBind) ps
  | [], sc, sc', st, ss0, b0, hR, hs, hd => by
    rw [allSteps] at hs; rw [doesAll] at hd
    cases hs; cases hd
    exact ⟨[], st, by rw [stmts], [], fun h => absurd rfl h, hR, .refl _, rfl, rfl, fun x hx => hx, fun W _ => by rw [doesAll]⟩
  | s :: r, sc, sc', st, ss0, b0, hR, hs, hd => by
    rw [allSteps, Option.bind_eq_some_iff] at hs
    obtain ⟨sc1, hs1, hs2⟩ := hs
    rw [doesAll] at hd
    split at hd
    · rename_i q0 b1 h1
      rw [Option.map_eq_some_iff] at hd
      obtain ⟨⟨q1, b2⟩, h2, he⟩ := hd
      cases he
      obtain ⟨t, st1, e1, ps1, hg1, hD1⟩ := stmt_good hE hL s hR hs1 h1
      rw [hD1.bind] at h2
      obtain ⟨ts, st2, e2, ps2, hg2, hD2⟩ := stmts_good hE hL r hD1.ready hs2 h2
      refine ⟨t :: ts, st2, ?_, ps1 ++ ps2, fun _ => ?_, hD2.ready, hD1.ext.trans hD2.ext, hD2.bind, hD2.ids.trans hD1.ids,
        fun x hx => hD2.dead x (hD1.dead x hx), fun W hW => ?_⟩
      · rw [stmts, e1]
        dsimp only
        rw [e2]
      · rw [unlines]
        by_cases hr : r = []
        · subst hr
          rw [stmts] at e2
          cases e2
          have h3 := hD2.does _ (.refl _)
          try dsimp only at h3
          rw [doesAll, Option.some_inj, Prod.mk.injEq] at h3
          rw [← h3.1]
          rw [unlines, List.append_nil, List.append_nil]
          exact hg1.nl
        · exact hg1.cons (hg2 hr)
      · have a1 := hD1.does W (hD2.ext.trans hW)
        have a2 := hD2.does W hW
        try dsimp only at a1 a2 ⊢
        rw [doesAll, a1]
        dsimp only
        rw [a2]
        rfl
    · cases hd
theorem arms_good (hE : EnvOk d.toEnv tg) (hL : DicOk d) : (cs : List Expr) → (bs : List Stmt) → ∀ {sc sc' : Scope} {st : St} {ss0 : List PyS} {b0 : Bind}, Ready st sc →
    armSteps d.toEnv tg cs bs sc = some sc' → doesArms (loopsOf d) (viewFull d.toEnv tg) cs bs sc.toBind = some (ss0, b0) →
    ∃ txt st', arms d cs bs st = .ok (txt, st') ∧ ∃ ps, PartsText txt ps ∧
      Done d.toEnv tg sc sc' b0 st st' (fun mk => doesArms (loopsOf d) mk cs bs sc.toBind) ps
  | [], [], sc, sc', st, ss0, b0, hR, hs, hd => by
    rw [armSteps] at hs; rw [doesArms] at hd
    cases hs; cases hd
    exact ⟨[], st, by rw [arms] <;> nofun, [], .inl ⟨rfl, rfl⟩, hR, .refl _, rfl, rfl, fun x hx => hx, fun W _ => by rw [doesArms]⟩
  | [], [s], sc, sc', st, ss0, b0, hR, hs, hd => by
    rw [armSteps] at hs
    rw [doesArms] at hd
    obtain ⟨u, st', e, ss, hg, hD⟩ := stmt_good hE hL s hR hs hd
    refine ⟨_, st', by rw [arms, e]; rfl, ss, PartsText.else hg, hD.ready, hD.ext, hD.bind, hD.ids, hD.dead, fun W hW => ?_⟩
    try dsimp only
    rw [doesArms]; exact hD.does W hW
  | [], _ :: _ :: _, sc, sc', st, ss0, b0, hR, hs, hd => by rw [armSteps] at hs <;> first | cases hs | nofun
  | _ :: _, [], sc, sc', st, ss0, b0, hR, hs, hd => by rw [armSteps] at hs <;> first | cases hs | nofun
  | c :: cs, s :: bs, sc, sc', st, ss0, b0, hR, hs, hd => by
    rw [armSteps] at hs
    split at hs
    · rename_i hc
      rw [Option.bind_eq_some_iff] at hs
      obtain ⟨sc1, hs1, hs2⟩ := hs
      rw [doesArms] at hd
      split at hd
      · rename_i p0 q0 b1 h0 h1
        rw [Option.map_eq_some_iff] at hd
        obtain ⟨⟨r0, b2⟩, h2, he⟩ := hd
        cases he
        obtain ⟨t, st1, e1, g1⟩ := sound_good hE hR.bind hR.inv hR.sub hR.rel hc
          (by rw [show means (fullView d.toEnv tg sc.ids sc.packets) c = some p0 from h0]; simp)
        have hR1 := g1.ready hR.rel hR.bind (g1.noSub (chosen_false hc))
        obtain ⟨p, hp, hpm⟩ := g1.good
        obtain ⟨u, st2, e2, ss, hg2, hD2⟩ := stmt_good hE hL s hR1 hs1 h1
        rw [hD2.bind] at h2
        obtain ⟨w, st3, e3, es, hg3, hD3⟩ := arms_good hE hL cs bs hD2.ready hs2 h2
        refine ⟨_, st3, ?_, _, PartsText.elif hp.1 (plvl_pos c) hg2 hg3, hD3.ready,
          (g1.ext.trans hD2.ext).trans hD3.ext, hD3.bind, hD3.ids.trans hD2.ids, fun x hx => hD3.dead x (hD2.dead x hx), fun W hW => ?_⟩
        · rw [arms, e1]
          dsimp only
          rw [e2]
          dsimp only
          rw [e3]
          rfl
        · try dsimp only
          rw [doesArms, show means (viewAt d.toEnv tg W sc.toBind) c = some p from hpm W ((hD2.ext.trans hD3.ext).trans hW)]
          have a2 := hD2.does W (hD3.ext.trans hW)
          have a3 := hD3.does W hW
          try dsimp only at a2 a3
          rw [a2]
          dsimp only
          rw [a3]
          rfl
      · cases hd
    · cases hs
end

end DrelMeaning
end Verif
