import Verif.Lemmas.DrelStmtAll
import Verif.Spec.DrelUses
/-! # Dependencies noted by the translator -/
namespace Verif
namespace DrelMeaning
open DrelPy PyText
variable [CaseFold]
set_option linter.unusedSectionVars false

/-- The names `l`, and no others but the target, have been noted between two states. -/
structure Notes (tg : Str) (st st' : St) (l : List Str) : Prop where
  names : ∀ n, n ≠ lower tg → ((∃ m ∈ st'.depends, lower m = n) ↔ (∃ m ∈ st.depends, lower m = n) ∨ ∃ m ∈ l, lower m = n)
  more : ∀ n ∈ st.depends, n ∈ st'.depends
  table : ∀ k ∈ dkeys st'.withtable, k ∈ dkeys st.withtable ∨ (k ∈ st'.depends ∧ k ≠ lower tg)

variable {env : Env} {tg : Str} {ids : Dict Str Alias} {packets : Dict Str Str} {rhs : Bool}

theorem Notes.nil {st st' : St} (h1 : st'.depends = st.depends) (h2 : st'.withtable = st.withtable) : Notes tg st st' [] :=
  ⟨fun n _ => by rw [h1]; simp, by rw [h1]; exact fun _ h => h, by rw [h2]; exact fun _ h => .inl h⟩

theorem Notes.trans {st st1 st2 : St} {a b : List Str} (h : Notes tg st st1 a) (h' : Notes tg st1 st2 b) : Notes tg st st2 (a ++ b) := by
  refine ⟨fun n hn => ?_, fun n hn => h'.more n (h.more n hn), fun k hk => ?_⟩
  · rw [h'.names n hn, h.names n hn, or_assoc]
    simp only [List.mem_append, or_and_right, exists_or]
  · rcases h'.table k hk with hk | hk
    · exact (h.table k hk).imp id fun h => ⟨h'.more k h.1, h.2⟩
    · exact .inr hk

theorem Notes.to {st st1 st2 : St} {a : List Str} (h : Notes tg st st1 a) (h1 : st2.depends = st1.depends) (h2 : st2.withtable = st1.withtable) :
    Notes tg st st2 a := by
  have := h.trans (Notes.nil (tg := tg) h1 h2)
  rwa [List.append_nil] at this

theorem Notes.from {st st1 st2 : St} {a : List Str} (h : Notes tg st1 st2 a) (h1 : st1.depends = st.depends) (h2 : st1.withtable = st.withtable) :
    Notes tg st st2 a := (Notes.nil (tg := tg) h1 h2).trans h

theorem mem_depend {st : St} {n m : Str} : m ∈ (st.depend n).depends ↔ m ∈ st.depends ∨ m = n := by
  unfold St.depend
  split
  · rename_i h
    constructor
    · exact .inl
    · rintro (h' | rfl)
      · exact h'
      · exact h
  · simp

theorem Notes.depend (st : St) (n : Str) : Notes tg st (st.depend n) [n] := by
  refine ⟨fun x _ => ?_, fun x hx => mem_depend.2 (.inl hx), ?_⟩
  · simp only [mem_depend, or_and_right, exists_or, List.mem_singleton]
  · rw [(depend_fields st n).2.2.2.1]; exact fun _ h => .inl h

theorem Notes.dependAll : ∀ (ns : List Str) (st : St), Notes tg st (st.dependAll ns) ns
  | [], st => by rw [St.dependAll]; exact .nil rfl rfl
  | n :: r, st => by
    rw [St.dependAll]
    exact (Notes.depend st n).trans (Notes.dependAll r _)

theorem Notes.congr {st st' : St} {a b : List Str} (h : Notes tg st st' a)
    (hab : ∀ n, n ≠ lower tg → ((∃ m ∈ a, lower m = n) ↔ ∃ m ∈ b, lower m = n)) : Notes tg st st' b :=
  ⟨fun n hn => by rw [h.names n hn, hab n hn], h.more, h.table⟩

theorem Notes.fold {st st' : St} {n : Str} (h : Notes tg st st' [lower n]) : Notes tg st st' [n] :=
  h.congr fun m _ => by simp [CaseFold.lower_lower]

/-- The target is not noted. -/
theorem Notes.target {st st' : St} {n : Str} (hn : lower n = lower tg) (h1 : st'.depends = st.depends) (h2 : st'.withtable = st.withtable) :
    Notes tg st st' [n] :=
  (Notes.nil (tg := tg) h1 h2).congr fun m hm => by
    simp only [List.not_mem_nil, false_and, exists_false, List.mem_singleton, exists_eq_left, false_iff]
    rw [hn]; exact fun h => hm h.symm

theorem dkeys_dset_mem {β : Type} {d : Dict Str β} {k x : Str} {v : β} (h : x ∈ dkeys (dset d k v)) : x ∈ dkeys d ∨ x = k := by
  rw [← dget_isSome] at h
  obtain ⟨w, hw⟩ := h
  rw [dget_dset] at hw
  split at hw
  · rename_i e; exact .inr e.symm
  · exact .inl (dget_isSome.1 ⟨w, hw⟩)

theorem special_notes (hE : EnvOk env tg) {al : Alias} {a txt : Str} {st st' : St} (h : specialAttr env al a st = .ok (txt, st')) :
    ∃ n, nameOf env (lower al.cat) (lower a) = .ok n ∧ Notes tg st st' [n] := by
  unfold specialAttr at h
  cases hn : nameOf env (lower al.cat) (lower a) with
  | error x => rw [hn] at h; cases h
  | ok n =>
    rw [hn] at h
    dsimp only at h
    rw [hE.target] at h
    dsimp only at h
    refine ⟨n, rfl, ?_⟩
    split at h
    · rename_i he
      cases h
      exact Notes.target he rfl rfl
    · split at h
      · cases h
        exact (Notes.depend st _).fold
      · split at h
        · cases h
          exact (Notes.depend st _).fold
        · cases h
          have h1 := (Notes.depend (tg := tg) { st with withtable := dset st.withtable (lower n) (withVar st.withtable.length, st.withtable.length, st.inif) } (Verif.lower n)).fold
          refine ⟨h1.names, h1.more, fun k hk => ?_⟩
          rw [(depend_fields _ _).2.2.2.1] at hk
          rcases dkeys_dset_mem hk with hk | rfl
          · exact .inl hk
          · exact .inr ⟨mem_depend.2 (.inr rfl), ‹_›⟩

theorem tag_notes (hE : EnvOk env tg) {t a txt : Str} {st st' : St} (h : tagAttr env t a st = .ok (txt, st')) :
    ∃ n, nameOf env t a = .ok n ∧ Notes tg st st' [n] := by
  unfold tagAttr at h
  cases hn : nameOf env t a with
  | error x => rw [hn] at h; cases h
  | ok n =>
    rw [hn] at h
    dsimp only at h
    rw [hE.target] at h
    dsimp only at h
    refine ⟨n, rfl, ?_⟩
    split at h
    · rename_i he
      cases h
      exact Notes.target he.symm rfl rfl
    · cases h
      exact (Notes.depend st _).fold

theorem plain_notes {p a txt : Str} {st st' : St} (h : plainAttr env p a st = .ok (txt, st')) :
    ∃ l, Notes tg st st' l ∧ (match (dget st.packets p).or (if st.sub = [] then none else some st.sub) with
      | some c => ∃ n, nameOf env c a = .ok n ∧ l = [n]
      | none => l = []) := by
  unfold plainAttr at h
  cases hp : dget st.packets p with
  | some c =>
    rw [hp] at h
    dsimp only at h
    cases hn : nameOf env c a with
    | error x => rw [hn] at h; cases h
    | ok n =>
      rw [hn] at h; cases h
      exact ⟨[n], (Notes.depend st n).to rfl rfl, n, hn, rfl⟩
  | none =>
    rw [hp] at h
    dsimp only at h
    by_cases hs : st.sub = []
    · rw [if_neg (by simpa using hs)] at h
      cases h
      refine ⟨[], Notes.nil rfl rfl, ?_⟩
      rw [if_pos hs]; rfl
    · rw [if_pos hs] at h
      rw [if_neg hs]
      cases hn : nameOf env st.sub a with
      | error x => rw [hn] at h; cases h
      | ok n =>
        rw [hn] at h; cases h
        exact ⟨[n], (Notes.depend st n).to rfl rfl, n, hn, rfl⟩

theorem item_view {c a n : Str} (h : nameOf env c a = .ok n) : (fullView env tg ids packets).item c a = some n :=
  (nameOf_item (env := env) (tg := tg) (ids := ids) (packets := packets) h []).1

theorem keyNames_keysOf {c : Str} {ks : List Str} (h : keyNames env c = .ok ks) : ks = (keysOf env.loopable c).map lower := by
  unfold keyNames at h
  unfold keysOf
  cases hd : dget env.loopable c with
  | none => rw [hd] at h; cases h
  | some x =>
    rw [hd] at h; cases h
    rw [List.map_map]; rfl

mutual
theorem expr_notes (hE : EnvOk env tg) (hB : BindOk ids packets) : (e : Expr) → ∀ (top : Bool) {st st' : St} {txt : Str},
    Inv ids packets rhs st → st.sub = [] → fits (catsOf env ids) (ownOf env ids) rhs top e = true → expr env e st = .ok (txt, st') →
    Notes tg st st' (refers (fullView env tg ids packets) (keysOf env.loopable) e)
  | .name s, top, st, st', txt, hI, hs, hf, h => by
    rw [expr] at h; cases h
    rw [refers]; exact .nil rfl rfl
  | .tag s, top, st, st', txt, hI, hs, hf, h => by rw [fits] at hf; cases hf
  | .lit s, top, st, st', txt, hI, hs, hf, h => by
    rw [expr] at h; cases h
    rw [refers]; exact .nil rfl rfl
  | .group es, top, st, st', txt, hI, hs, hf, h => by
    rw [fits, Bool.and_eq_true] at hf
    rw [expr] at h
    have hne : es.isEmpty = false := by simpa using hf.1
    rw [hne, if_neg (by simp)] at h
    cases hx : exprs env es st with
    | error x => rw [hx] at h; cases h
    | ok r =>
      obtain ⟨ts, st1⟩ := r
      rw [hx] at h; cases h
      rw [refers]
      exact exprs_notes hE hB es hI hs hf.2 hx
  | .list es, top, st, st', txt, hI, hs, hf, h => by
    rw [fits, Bool.and_eq_true] at hf
    rw [expr] at h
    rw [refers]
    cases hemp : es.isEmpty with
    | true =>
      rw [hemp, if_pos rfl] at h; cases h
      rw [List.isEmpty_iff] at hemp
      subst hemp
      rw [refersAll]; exact .nil rfl rfl
    | false =>
      rw [hemp, if_neg (by simp)] at h
      cases hx : exprs env es st with
      | error x => rw [hx] at h; cases h
      | ok r =>
        obtain ⟨ts, st1⟩ := r
        rw [hx] at h; cases h
        exact exprs_notes hE hB es hI hs hf.2 hx
  | .table ks vs, top, st, st', txt, hI, hs, hf, h => by
    rw [fits, Bool.and_eq_true, Bool.and_eq_true, beq_iff_eq] at hf
    rw [expr] at h
    rw [refers]
    cases hemp : ks.isEmpty with
    | true =>
      rw [hemp, if_pos rfl] at h; cases h
      rw [List.isEmpty_iff] at hemp
      subst hemp
      have hv : vs = [] := List.length_eq_zero_iff.1 hf.1.1.symm
      subst hv
      rw [refersAll]; exact .nil rfl rfl
    | false =>
      rw [hemp, if_neg (by simp)] at h
      cases hx : exprs env vs st with
      | error x => rw [hx] at h; cases h
      | ok r =>
        obtain ⟨ts, st1⟩ := r
        rw [hx] at h; cases h
        exact exprs_notes hE hB vs hI hs hf.2 hx
  | .attr p a, top, st, st', txt, hI, hs, hf, h => by
    rw [fits, Bool.and_eq_true, Bool.or_eq_true, Bool.and_eq_true, Bool.and_eq_true, Bool.and_eq_true, beq_iff_eq] at hf
    obtain ⟨-, hf⟩ := hf
    rw [expr] at h
    rw [refers]
    cases hx : expr env p st with
    | error x => rw [hx] at h; cases h
    | ok r =>
      obtain ⟨t, st1⟩ := r
      rw [hx] at h
      dsimp only at h
      rcases hf with htag | ⟨⟨h9, hpi⟩, hfp⟩
      · cases p with
        | tag s =>
          obtain ⟨rfl, rfl⟩ : s = t ∧ st = st1 := by rw [expr] at hx; cases hx; exact ⟨rfl, rfl⟩
          unfold attrText at h
          rw [hI.ids] at h
          have hnm : itemNamed (fullView env tg ids packets) (.tag s) a =
            (match dget ids s with
              | some al => some ((fullView env tg ids packets).item (lower al.cat) (lower a)).toList
              | none => some ((fullView env tg ids packets).item s a).toList) := rfl
          rw [hnm]
          cases hal : dget ids s with
          | some al =>
            rw [hal] at h
            obtain ⟨n, hn, hN⟩ := special_notes hE h
            dsimp only
            rw [item_view hn]
            exact hN
          | none =>
            rw [hal] at h
            cases s with
            | nil => cases htag
            | cons c s =>
              have hc : c = '_' := by
                have h : tagName (c :: s) = true := htag
                unfold tagName at h
                split at h
                · rename_i he; exact (List.cons.inj he).1
                · cases h
              dsimp only at h
              rw [if_pos ⟨rfl, hc⟩] at h
              obtain ⟨n, hn, hN⟩ := tag_notes hE h
              dsimp only
              rw [item_view hn]
              exact hN
        | _ => cases htag
      · have ho := expr_good hE hB p true hI hs hfp hx
        have hnote := expr_notes hE hB p true hI hs hfp hx
        cases hw : isWord p with
        | true =>
          cases p with
          | name x =>
            obtain ⟨rfl, rfl⟩ : x = t ∧ st = st1 := by
              rw [expr, nameText_var (by simpa [notPi] using hpi)] at hx
              cases hx; exact ⟨rfl, rfl⟩
            rw [fits] at hfp
            unfold attrText at h
            rw [hI.ids] at h
            have hnm : itemNamed (fullView env tg ids packets) (.name x) a =
              (dget ids x).map fun al => ((fullView env tg ids packets).item (lower al.cat) (lower a)).toList := rfl
            rw [hnm]
            cases hal : dget ids x with
            | some al =>
              rw [hal] at h
              obtain ⟨n, hn, hN⟩ := special_notes hE h
              dsimp only [Option.map]
              rw [item_view hn]
              exact hN
            | none =>
              rw [hal] at h
              have hplain : plainAttr env x a st = .ok (txt, st') := by
                cases x with
                | nil => cases hfp
                | cons c r =>
                  dsimp only at h
                  rw [if_neg] at h
                  · exact h
                  · rintro ⟨-, rfl⟩
                    simp only [varName, Bool.and_eq_true, List.head?_cons, Option.any_some] at hfp
                    exact absurd hfp.2 (by decide)
              obtain ⟨l, hN, hl⟩ := plain_notes (tg := tg) hplain
              rw [hI.packets, if_pos hs, Option.or_none] at hl
              dsimp only [Option.map]
              rw [refers, List.nil_append]
              show Notes tg st st' (match dget packets x with | some c => ((fullView env tg ids packets).item c a).toList | none => [])
              cases hpk : dget packets x with
              | some c =>
                rw [hpk] at hl
                obtain ⟨n, hn, rfl⟩ := hl
                dsimp only
                rw [item_view hn]
                exact hN
              | none =>
                rw [hpk] at hl
                subst hl
                exact hN
          | _ => cases hw
        | false =>
          have hid := ho.notId hw
          obtain ⟨hb1, hb2⟩ := not_bound hB hid
          unfold attrText at h
          rw [ho.inv.ids, hb1] at h
          have hplain : plainAttr env t a st1 = .ok (txt, st') := by
            cases t with
            | nil =>
              obtain ⟨q, hq, -⟩ := ho.good
              obtain ⟨c, hc, -⟩ := hq.1.start
              cases hc
            | cons c r =>
              dsimp only at h
              rw [if_neg] at h
              · exact h
              · rintro ⟨h1, rfl⟩
                exact ho.head h1 hw rfl
          obtain ⟨l, hN, hl⟩ := plain_notes (tg := tg) hplain
          rw [ho.inv.packets, hb2, Option.none_or, ho.sub] at hl
          have hit : itemNamed (fullView env tg ids packets) p a = none := by
            cases p with
            | name x => cases hw
            | tag x => rw [fits] at hfp; cases hfp
            | _ => rfl
          have hpk : packetOf (fullView env tg ids packets) p = chosen env tg ids packets p := by
            cases p with
            | name x => cases hw
            | sub p' i =>
              show category _ p' = category _ p'
              cases p' <;> rfl
            | _ => rfl
          rw [hit]
          dsimp only
          rw [hpk]
          cases hch : chosen env tg ids packets p with
          | some c =>
            rw [hch] at hl
            obtain ⟨n, hn, rfl⟩ := hl
            dsimp only
            rw [item_view hn]
            exact hnote.trans hN
          | none =>
            rw [hch] at hl
            subst hl
            exact hnote.trans hN
  | .sub p i, top, st, st', txt, hI, hs, hf, h => by
    rw [fits, Bool.and_eq_true] at hf
    obtain ⟨hfp, hfi⟩ := hf
    rw [refers]
    have next : ∀ {c : Str} {ks : List Str} {u : Str} {st1 : St}, keyNames env c = .ok ks →
        category (fullView env tg ids packets) p = some c → expr env i (st.dependAll ks) = .ok (u, st1) →
        Notes tg st { st1 with sub := c } (match category (fullView env tg ids packets) p with
          | some c => keysOf env.loopable c ++ refers (fullView env tg ids packets) (keysOf env.loopable) i
          | none => refers (fullView env tg ids packets) (keysOf env.loopable) p ++ refers (fullView env tg ids packets) (keysOf env.loopable) i) := by
      intro c ks u st1 hk hcat hx
      obtain ⟨f1, f2, f3, f4, f5⟩ := dependAll_fields ks st
      rw [hcat]
      have h1 := (Notes.dependAll (tg := tg) ks st).trans (expr_notes hE hB i false (hI.of_fields f1 f2 f3 f4) (f5.trans hs) hfi hx)
      have h2 := h1.to (st2 := { st1 with sub := c }) rfl rfl
      refine h2.congr fun n _ => ?_
      rw [keyNames_keysOf hk]
      have hl : ∀ x : Str, lower (lower x) = lower x := CaseFold.lower_lower
      simp only [List.mem_append, or_and_right, exists_or, List.mem_map]
      refine or_congr ⟨?_, ?_⟩ Iff.rfl
      · rintro ⟨m, ⟨x, hx, rfl⟩, rfl⟩
        exact ⟨x, hx, (hl x).symm⟩
      · rintro ⟨x, hx, rfl⟩
        exact ⟨_, ⟨x, hx, rfl⟩, hl x⟩
    cases hc : isCategory (catsOf env ids) p with
    | true =>
      rw [hc, if_pos rfl, Bool.and_eq_true] at hfp
      cases p with
      | tag s =>
        rw [expr] at h
        cases hk : keyNames env s.tail with
        | error x => rw [hk] at h; cases h
        | ok ks =>
          rw [hk] at h
          dsimp only at h
          cases hx : expr env i (st.dependAll ks) with
          | error x => rw [hx] at h; cases h
          | ok r =>
            obtain ⟨u, st1⟩ := r
            rw [hx] at h; cases h
            exact next hk rfl hx
      | name x =>
        rw [expr_sub_other (by simp)] at h
        have hv : varName x = true ∧ isPi x = false := by simpa [named] using hfp.2
        rw [expr, nameText_var hv.2] at h
        dsimp only at h
        have hl : ∃ c, lookedUp env x st = some c ∧ category (fullView env tg ids packets) (.name x) = some c := by
          unfold lookedUp
          rw [hI.ids]
          cases hal : dget ids x with
          | some al => exact ⟨_, rfl, by
              show (match dget ids x with | some al => some al.cat | none => _) = _
              rw [hal]⟩
          | none =>
            simp only [isCategory, catsOf, hal, Option.isSome_none, Bool.false_or] at hc
            refine ⟨x, if_pos (by simpa using hc), ?_⟩
            show (match dget ids x with | some al => some al.cat | none => if (dkeys env.loopable).contains x then some x else none) = _
            rw [hal]
            exact if_pos hc
        obtain ⟨c, hl, hcat⟩ := hl
        rw [hl] at h
        dsimp only at h
        cases hk : keyNames env c with
        | error x => rw [hk] at h; cases h
        | ok ks =>
          rw [hk] at h
          dsimp only at h
          cases hx : expr env i (st.dependAll ks) with
          | error x => rw [hx] at h; cases h
          | ok r =>
            obtain ⟨u, st1⟩ := r
            rw [hx] at h; cases h
            exact next hk hcat hx
      | _ => cases hc
    | false =>
      rw [hc, if_neg (by simp), Bool.and_eq_true, Bool.and_eq_true, beq_iff_eq] at hfp
      obtain ⟨⟨h9, hpi⟩, hfp⟩ := hfp
      rw [expr_sub_other (notTag hfp)] at h
      cases hx : expr env p st with
      | error x => rw [hx] at h; cases h
      | ok r =>
        obtain ⟨t, st1⟩ := r
        rw [hx] at h
        dsimp only at h
        have ho := expr_good hE hB p false hI hs hfp hx
        rw [lookedUp_none hE hB ho hx hc hpi] at h
        dsimp only at h
        cases hy : expr env i st1 with
        | error x => rw [hy] at h; cases h
        | ok r =>
          obtain ⟨u, st2⟩ := r
          rw [hy] at h; cases h
          have hcn : category (fullView env tg ids packets) p = none := by
            rw [← cat_none (tg := tg) (packets := packets) hc []]
            cases p <;> rfl
          rw [hcn]
          exact (expr_notes hE hB p false hI hs hfp hx).trans (expr_notes hE hB i false ho.inv (ho.sub_nil hfp) hfi hy)
  | .items p es, top, st, st', txt, hI, hs, hf, h => by
    rw [fits, Bool.and_eq_true, Bool.and_eq_true, Bool.and_eq_true, beq_iff_eq, decide_eq_true_eq] at hf
    obtain ⟨⟨⟨h9, hfp⟩, hlen2⟩, hfe⟩ := hf
    rw [expr] at h
    rw [refers]
    cases hx : expr env p st with
    | error x => rw [hx] at h; cases h
    | ok r =>
      obtain ⟨t, st1⟩ := r
      rw [hx] at h
      dsimp only at h
      have ho := expr_good hE hB p false hI hs hfp hx
      cases hy : exprs env es st1 with
      | error x => rw [hy] at h; cases h
      | ok r =>
        obtain ⟨us, st2⟩ := r
        rw [hy] at h; cases h
        exact (expr_notes hE hB p false hI hs hfp hx).trans (exprs_notes hE hB es ho.inv (ho.sub_nil hfp) hfe hy)
  | .slice p parts, top, st, st', txt, hI, hs, hf, h => by
    rw [fits, Bool.and_eq_true, Bool.and_eq_true, Bool.and_eq_true, Bool.and_eq_true, beq_iff_eq, decide_eq_true_eq, decide_eq_true_eq] at hf
    obtain ⟨⟨⟨⟨h9, hfp⟩, hlen1⟩, hlen3⟩, hfe⟩ := hf
    rw [expr] at h
    rw [refers]
    cases hx : expr env p st with
    | error x => rw [hx] at h; cases h
    | ok r =>
      obtain ⟨t, st1⟩ := r
      rw [hx] at h
      dsimp only at h
      have ho := expr_good hE hB p false hI hs hfp hx
      cases hy : exprs env parts st1 with
      | error x => rw [hy] at h; cases h
      | ok r =>
        obtain ⟨us, st2⟩ := r
        rw [hy] at h
        dsimp only at h
        cases hu : sliceText us with
        | error x => rw [hu] at h; cases h
        | ok u =>
          rw [hu] at h; cases h
          exact (expr_notes hE hB p false hI hs hfp hx).trans (exprs_notes hE hB parts ho.inv (ho.sub_nil hfp) hfe hy)
  | .slices p, top, st, st', txt, hI, hs, hf, h => by rw [fits] at hf; cases hf
  | .int0, top, st, st', txt, hI, hs, hf, h => by rw [fits] at hf; cases hf
  | .call f args, top, st, st', txt, hI, hs, hf, h => by
    rw [fits, Bool.or_eq_true, beq_iff_eq, Bool.and_eq_true, Bool.and_eq_true, Bool.and_eq_true] at hf
    rw [expr] at h
    rw [refers]
    by_cases hc : f = "Current_Row".toList
    · rw [if_pos hc] at h; cases h
      rw [if_pos hc]; exact .nil rfl rfl
    · rw [if_neg hc] at h
      rw [if_neg hc]
      cases hy : exprs env args st with
      | error x => rw [hy] at h; cases h
      | ok r =>
        obtain ⟨us, st2⟩ := r
        rw [hy] at h; cases h
        exact exprs_notes hE hB args hI hs (hf.resolve_left hc).2 hy
  | .op o a b, top, st, st', txt, hI, hs, hf, h => by
    rw [fits, Bool.and_eq_true, Bool.and_eq_true, Bool.and_eq_true, Bool.and_eq_true, decide_eq_true_eq, decide_eq_true_eq] at hf
    obtain ⟨⟨⟨⟨h1, h2⟩, h3⟩, hfa⟩, hfb⟩ := hf
    rw [expr] at h
    rw [refers]
    cases hx : expr env a st with
    | error x => rw [hx] at h; cases h
    | ok r =>
      obtain ⟨t, st1⟩ := r
      rw [hx] at h
      dsimp only at h
      have ho := expr_good hE hB a false hI hs hfa hx
      cases hy : expr env b st1 with
      | error x => rw [hy] at h; cases h
      | ok r =>
        obtain ⟨u, st2⟩ := r
        rw [hy] at h; cases h
        exact (expr_notes hE hB a false hI hs hfa hx).trans (expr_notes hE hB b false ho.inv (ho.sub_nil hfa) hfb hy)
  | .sign minus a, top, st, st', txt, hI, hs, hf, h => by
    rw [fits] at hf
    rw [expr] at h
    rw [refers]
    cases hx : expr env a st with
    | error x => rw [hx] at h; cases h
    | ok r =>
      obtain ⟨t, st1⟩ := r
      rw [hx] at h; cases h
      exact expr_notes hE hB a false hI hs hf hx
  | .not a, top, st, st', txt, hI, hs, hf, h => by
    rw [fits, Bool.and_eq_true, decide_eq_true_eq] at hf
    rw [expr] at h
    rw [refers]
    cases hx : expr env a st with
    | error x => rw [hx] at h; cases h
    | ok r =>
      obtain ⟨t, st1⟩ := r
      rw [hx] at h; cases h
      exact expr_notes hE hB a false hI hs hf.2 hx
theorem exprs_notes (hE : EnvOk env tg) (hB : BindOk ids packets) : (es : List Expr) → ∀ {st st' : St} {ts : List Str},
    Inv ids packets rhs st → st.sub = [] → allFit (catsOf env ids) (ownOf env ids) rhs es = true → exprs env es st = .ok (ts, st') →
    Notes tg st st' (refersAll (fullView env tg ids packets) (keysOf env.loopable) es)
  | [], st, st', ts, hI, hs, hf, h => by
    rw [exprs] at h; cases h
    rw [refersAll]; exact .nil rfl rfl
  | e :: r, st, st', ts, hI, hs, hf, h => by
    rw [allFit, Bool.and_eq_true] at hf
    rw [exprs] at h
    rw [refersAll]
    cases hx : expr env e st with
    | error x => rw [hx] at h; cases h
    | ok y =>
      obtain ⟨t, st1⟩ := y
      rw [hx] at h
      dsimp only at h
      have ho := expr_good hE hB e false hI hs hf.1 hx
      cases hy : exprs env r st1 with
      | error x => rw [hy] at h; cases h
      | ok y =>
        obtain ⟨us, st2⟩ := y
        rw [hy] at h; cases h
        exact (expr_notes hE hB e false hI hs hf.1 hx).trans (exprs_notes hE hB r ho.inv (ho.sub_nil hf.1) hf.2 hy)
end

end DrelMeaning
end Verif
