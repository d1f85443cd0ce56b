import Verif.Lemmas.DrelTotal
import Verif.Lemmas.PyStmtText
import Verif.Spec.DrelStepFits
/-! # What is said of an expression depends on the names in it -/
namespace Verif
namespace DrelMeaning
open DrelPy PyText
variable [CaseFold]
set_option linter.unusedSectionVars false

section
variable {v : View} {f : Str → Option Alias}

theorem category_agree (e : Expr) (h : ∀ x ∈ namesIn e, v.alias x = f x) : category v e = category { v with alias := f } e := by
  cases e with
  | name x => rw [namesIn] at h; simp only [category, h x (by simp)]
  | _ => rfl

theorem packetOf_agree (e : Expr) (h : ∀ x ∈ namesIn e, v.alias x = f x) : packetOf v e = packetOf { v with alias := f } e := by
  cases e with
  | sub p i =>
    rw [namesIn] at h
    exact category_agree p fun x hx => h x (List.mem_append_left _ hx)
  | _ => rfl

theorem item_agree (e : Expr) (a : Str) (h : ∀ x ∈ namesIn e, v.alias x = f x) : item v e a = item { v with alias := f } e a := by
  cases e with
  | name x => rw [namesIn] at h; simp only [item, h x (by simp)]; rfl
  | tag x => rw [namesIn] at h; simp only [item, h x (by simp)]; rfl
  | _ => rfl

mutual
theorem means_agree : (e : Expr) → (∀ x ∈ namesIn e, v.alias x = f x) → means v e = means { v with alias := f } e
  | .name s, _ => by rw [means, means]
  | .tag _, _ => by rw [means, means]
  | .lit _, _ => by rw [means, means]
  | .int0, _ => by rw [means, means]
  | .slices _, _ => by rw [means, means]
  | .group es, h => by
    rw [namesIn] at h
    rw [means, means, meanings_agree es h]
  | .list es, h => by
    rw [namesIn] at h
    rw [means, means, meanings_agree es h]
  | .table ks vs, h => by
    rw [namesIn] at h
    rw [means, means, meanings_agree vs h]
  | .attr p a, h => by
    rw [namesIn] at h
    rw [means, means, means_agree p h, item_agree p a h, packetOf_agree p h]
  | .sub p i, h => by
    rw [namesIn] at h
    have h1 := fun x hx => h x (List.mem_append_left _ hx)
    have h2 := fun x hx => h x (List.mem_append_right _ hx)
    rw [means, means, means_agree p h1, means_agree i h2, category_agree p h1]
  | .items p es, h => by
    rw [namesIn] at h
    rw [means, means, means_agree p fun x hx => h x (List.mem_append_left _ hx), meanings_agree es fun x hx => h x (List.mem_append_right _ hx)]
  | .slice p es, h => by
    rw [namesIn] at h
    rw [means, means, means_agree p fun x hx => h x (List.mem_append_left _ hx), meanings_agree es fun x hx => h x (List.mem_append_right _ hx)]
  | .call g args, h => by
    rw [namesIn] at h
    rw [means, means, meanings_agree args h]
  | .op o a b, h => by
    rw [namesIn] at h
    rw [means, means, means_agree a fun x hx => h x (List.mem_append_left _ hx), means_agree b fun x hx => h x (List.mem_append_right _ hx)]
  | .sign m a, h => by
    rw [namesIn] at h
    rw [means, means, means_agree a h]
  | .not a, h => by
    rw [namesIn] at h
    rw [means, means, means_agree a h]
theorem meanings_agree : (es : List Expr) → (∀ x ∈ namesInAll es, v.alias x = f x) → meanings v es = meanings { v with alias := f } es
  | [], _ => by rw [meanings, meanings]
  | e :: r, h => by
    rw [namesInAll] at h
    rw [meanings, meanings, means_agree e fun x hx => h x (List.mem_append_left _ hx), meanings_agree r fun x hx => h x (List.mem_append_right _ hx)]
end
end

section
variable {cats cats' : Str → Bool} {own own' : Str → Str → Bool} {rhs : Bool}

theorem isCategory_agree (e : Expr) (h : ∀ x ∈ namesIn e, cats x = cats' x) : isCategory cats e = isCategory cats' e := by
  cases e with
  | name x => rw [namesIn] at h; exact h x (by simp)
  | _ => rfl

theorem ownItem_agree (e : Expr) (a : Str) (h : ∀ x ∈ namesIn e, own x = own' x) : ownItem own e a = ownItem own' e a := by
  cases e with
  | name x => rw [namesIn] at h; exact congrFun (h x (by simp)) a
  | tag x => rw [namesIn] at h; exact congrFun (h x (by simp)) a
  | _ => rfl

mutual
theorem fits_agree : (e : Expr) → (top : Bool) → (∀ x ∈ namesIn e, cats x = cats' x ∧ own x = own' x) → fits cats own rhs top e = fits cats' own' rhs top e
  | .name s, _, _ => by rw [fits, fits]
  | .tag _, _, _ => by rw [fits, fits]
  | .lit _, _, _ => by rw [fits, fits]
  | .int0, _, _ => by rw [fits, fits]
  | .slices _, _, _ => by rw [fits, fits]
  | .group es, _, h => by
    rw [namesIn] at h
    rw [fits, fits, allFit_agree es h]
  | .list es, _, h => by
    rw [namesIn] at h
    rw [fits, fits, allFit_agree es h]
  | .table ks vs, _, h => by
    rw [namesIn] at h
    rw [fits, fits, allFit_agree vs h]
  | .attr p a, _, h => by
    rw [namesIn] at h
    rw [fits, fits, fits_agree p true h, ownItem_agree p a fun x hx => (h x hx).2]
  | .sub p i, top, h => by
    rw [namesIn] at h
    have h1 := fun x hx => h x (List.mem_append_left _ hx)
    have h2 := fun x hx => h x (List.mem_append_right _ hx)
    rw [fits, fits, fits_agree p false h1, fits_agree i false h2, isCategory_agree p fun x hx => (h1 x hx).1]
  | .items p es, _, h => by
    rw [namesIn] at h
    rw [fits, fits, fits_agree p false fun x hx => h x (List.mem_append_left _ hx), allFit_agree es fun x hx => h x (List.mem_append_right _ hx)]
  | .slice p es, _, h => by
    rw [namesIn] at h
    rw [fits, fits, fits_agree p false fun x hx => h x (List.mem_append_left _ hx), allFit_agree es fun x hx => h x (List.mem_append_right _ hx)]
  | .call g args, _, h => by
    rw [namesIn] at h
    rw [fits, fits, allFit_agree args h]
  | .op o a b, _, h => by
    rw [namesIn] at h
    rw [fits, fits, fits_agree a false fun x hx => h x (List.mem_append_left _ hx), fits_agree b false fun x hx => h x (List.mem_append_right _ hx)]
  | .sign m a, _, h => by
    rw [namesIn] at h
    rw [fits, fits, fits_agree a false h]
  | .not a, _, h => by
    rw [namesIn] at h
    rw [fits, fits, fits_agree a false h]
theorem allFit_agree : (es : List Expr) → (∀ x ∈ namesInAll es, cats x = cats' x ∧ own x = own' x) → allFit cats own rhs es = allFit cats' own' rhs es
  | [], _ => by rw [allFit, allFit]
  | e :: r, h => by
    rw [namesInAll] at h
    rw [allFit, allFit, fits_agree e false fun x hx => h x (List.mem_append_left _ hx), allFit_agree r fun x hx => h x (List.mem_append_right _ hx)]
end
end

/-! ## Expressions in statements -/

/-- What the translator has noted agrees with what is bound, but for the names lost sight of. -/
structure Rel (st : St) (sc : Scope) : Prop where
  packets : st.packets = sc.packets
  once : (dkeys st.ids).Nodup
  ids : ∀ k, k ∉ sc.dead → dget st.ids k = dget sc.ids k
  known : (st.ids.map fun p => (p.1, p.2.cat)) = sc.known

theorem Rel.of {st st' : St} {sc : Scope} (h : Rel st sc) (h1 : st'.ids = st.ids) (h2 : st'.packets = st.packets) : Rel st' sc :=
  ⟨h2.trans h.packets, by rw [h1]; exact h.once, by rw [h1]; exact h.ids, by rw [h1]; exact h.known⟩

/-- The state between statements. -/
structure Ready (st : St) (sc : Scope) : Prop where
  bind : BindOk st.ids st.packets
  inv : Inv st.ids st.packets false st
  sub : st.sub = []
  rel : Rel st sc

variable {env : Env} {tg : Str}

theorem sound_names {sc : Scope} {rhs top : Bool} {e : Expr} (h : sound env sc rhs top e = true) {st : St} (hr : Rel st sc) :
    ∀ x ∈ namesIn e, dget st.ids x = dget sc.ids x := by
  rw [sound, Bool.and_eq_true, List.all_eq_true] at h
  intro x hx
  have := h.2 x hx
  exact hr.ids x (by simpa using this)

theorem sound_fits {sc : Scope} {rhs top : Bool} {e : Expr} (h : sound env sc rhs top e = true) {st : St} (hr : Rel st sc) :
    fits (catsOf env st.ids) (ownOf env st.ids) rhs top e = true := by
  have hn := sound_names h hr
  rw [sound, Bool.and_eq_true] at h
  rw [← h.1]
  refine fits_agree e top fun x hx => ?_
  refine ⟨?_, funext fun a => ?_⟩
  · unfold catsOf
    rw [hn x hx]
  · unfold ownOf
    rw [hn x hx]

theorem sound_means {sc : Scope} {rhs top : Bool} {e : Expr} (h : sound env sc rhs top e = true) {st : St} (hr : Rel st sc)
    (var : Str → Option Str) :
    means { viewOf env tg st.ids st.packets [] with var := var } e = means { viewOf env tg sc.ids sc.packets [] with var := var } e := by
  rw [hr.packets]
  exact means_agree (f := dget sc.ids) e (sound_names h hr)

/-- What is said of the translation of an expression in a statement. -/
structure Step (env : Env) (tg : Str) (sc : Scope) (rhs : Bool) (e : Expr) (st : St) (txt : Str) (st' : St) : Prop where
  ids : st'.ids = st.ids
  packets : st'.packets = st.packets
  inv : Inv st'.ids st'.packets rhs st'
  ext : Ext st.withtable st'.withtable
  sub : (if st'.sub = [] then none else some st'.sub) = chosen env tg sc.ids sc.packets e
  good : ∃ p, GoodAt e txt p ∧ ∀ W, Ext st'.withtable W → means (viewOf env tg sc.ids sc.packets W) e = some p

theorem sound_good (hE : EnvOk env tg) {sc : Scope} {rhs top : Bool} {e : Expr} {st : St} (hB : BindOk st.ids st.packets)
    (hI : Inv st.ids st.packets rhs st) (hsub : st.sub = []) (hr : Rel st sc) (h : sound env sc rhs top e = true)
    (hm : means (fullView env tg sc.ids sc.packets) e ≠ none) : ∃ txt st', expr env e st = .ok (txt, st') ∧ Step env tg sc rhs e st txt st' := by
  have hf := sound_fits h hr
  obtain ⟨⟨txt, st'⟩, h1⟩ := expr_total hE hB e top hI hsub hf (by
    rw [show fullView env tg st.ids st.packets = { viewOf env tg st.ids st.packets [] with var := fun n => some n } from rfl,
      sound_means h hr]
    exact Option.isSome_iff_ne_none.2 hm)
  have ho := expr_good hE hB e top hI hsub hf h1
  obtain ⟨p, hp, hmean⟩ := ho.good
  refine ⟨txt, st', h1, ho.inv.ids, ho.inv.packets, by rw [ho.inv.ids, ho.inv.packets]; exact ho.inv, ho.ext, ?_, p, hp, fun W hW => ?_⟩
  · rw [ho.sub]
    have := packetOf_agree (v := viewOf env tg st.ids sc.packets []) (f := dget sc.ids) e (sound_names h hr)
    rw [hr.packets]
    cases e with
    | sub p i => exact this
    | _ => rfl
  · rw [← hmean W hW]
    exact (sound_means h hr (dget (varsOf W))).symm

theorem Step.ready {sc : Scope} {rhs : Bool} {e : Expr} {st st' : St} {txt : Str} (hr : Rel st sc) (hB : BindOk st.ids st.packets)
    (h : Step env tg sc rhs e st txt st') (hs : st'.sub = []) : Ready st' sc :=
  ⟨by rw [h.ids, h.packets]; exact hB, ⟨rfl, rfl, fun h => (by cases h), h.inv.vars, h.inv.once⟩, hs, hr.of h.ids h.packets⟩

theorem Step.noSub {sc : Scope} {rhs : Bool} {e : Expr} {st st' : St} {txt : Str} (h : Step env tg sc rhs e st txt st')
    (hc : chosen env tg sc.ids sc.packets e = none) : st'.sub = [] := by
  have := h.sub
  rw [hc] at this
  by_cases hs : st'.sub = []
  · exact hs
  · rw [if_neg hs] at this; cases this

/-- Nothing is chosen by an expression that is not allowed to. -/
theorem chosen_false {sc : Scope} {rhs : Bool} {e : Expr} (h : sound env sc rhs false e = true) : chosen env tg sc.ids sc.packets e = none := by
  rw [sound, Bool.and_eq_true] at h
  cases e with
  | sub p i =>
    have h1 := h.1
    rw [fits] at h1
    cases hc : isCategory (catsOf env sc.ids) p with
    | true => rw [hc, if_pos rfl] at h1; simp at h1
    | false => exact cat_none hc []
  | _ => rfl

/-- What is said of the translation of several expressions. -/
structure Steps (env : Env) (tg : Str) (sc : Scope) (rhs : Bool) (es : List Expr) (st : St) (ts : List Str) (st' : St) : Prop where
  ids : st'.ids = st.ids
  packets : st'.packets = st.packets
  inv : Inv st'.ids st'.packets rhs st'
  ext : Ext st.withtable st'.withtable
  sub : st'.sub = []
  good : ∃ ps, TextsGood ts ps ∧ ps.length = es.length ∧ ∀ W, Ext st'.withtable W → meanings (viewOf env tg sc.ids sc.packets W) es = some ps

theorem meanings_cons {v : View} {e : Expr} {es : List Expr} (h : meanings v (e :: es) ≠ none) : means v e ≠ none ∧ meanings v es ≠ none := by
  rw [meanings] at h
  constructor
  · intro h1; rw [h1] at h; exact h rfl
  · intro h1; rw [h1] at h
    cases hm : means v e <;> rw [hm] at h <;> exact h rfl

theorem sounds_good (hE : EnvOk env tg) {sc : Scope} {rhs : Bool} : ∀ {es : List Expr} {st : St}, BindOk st.ids st.packets →
    Inv st.ids st.packets rhs st → st.sub = [] → Rel st sc → allSound env sc rhs false es = true →
    meanings (fullView env tg sc.ids sc.packets) es ≠ none →
    ∃ ts st', exprs env es st = .ok (ts, st') ∧ Steps env tg sc rhs es st ts st'
  | [], st, _, hI, hs, _, _, _ => ⟨[], st, by rw [exprs], rfl, rfl, hI, .refl _, hs, [], .nil, rfl, fun W _ => by rw [meanings]⟩
  | e :: es, st, hB, hI, hs, hr, h, hm => by
    rw [allSound, List.all_cons, Bool.and_eq_true] at h
    obtain ⟨m1, m2⟩ := meanings_cons hm
    obtain ⟨t, st1, h1, s1⟩ := sound_good hE hB hI hs hr h.1 m1
    have hs1 := s1.noSub (chosen_false h.1)
    obtain ⟨ts, st2, h2, s2⟩ := sounds_good hE (es := es) (by rw [s1.ids, s1.packets]; exact hB) s1.inv hs1 (hr.of s1.ids s1.packets) h.2 m2
    obtain ⟨p, hp, hpm⟩ := s1.good
    obtain ⟨ps, hps, hl, hpsm⟩ := s2.good
    refine ⟨t :: ts, st2, ?_, s2.ids.trans s1.ids, s2.packets.trans s1.packets, s2.inv, s1.ext.trans s2.ext, s2.sub, p :: ps,
      .cons hp.1 (plvl_pos e) hps, by simp [hl], fun W hW => ?_⟩
    · rw [exprs, h1]; dsimp only; rw [h2]
    · rw [meanings, hpm W (s2.ext.trans hW), hpsm W hW]

theorem Steps.ready {sc : Scope} {rhs : Bool} {es : List Expr} {st st' : St} {ts : List Str} (hr : Rel st sc) (hB : BindOk st.ids st.packets)
    (h : Steps env tg sc rhs es st ts st') : Ready st' sc :=
  ⟨by rw [h.ids, h.packets]; exact hB, ⟨rfl, rfl, fun h => (by cases h), h.inv.vars, h.inv.once⟩, h.sub, hr.of h.ids h.packets⟩

end DrelMeaning
end Verif
