import Verif.Lemmas.DrelAgree
/-! # Statements are translated to what they stand for -/
namespace Verif
namespace DrelMeaning
open DrelPy PyText
variable [CaseFold]
set_option linter.unusedSectionVars false
variable {tg : Str}

/-- What names refer to, given the variables of the current packet. -/
abbrev viewAt (env : Env) (tg : Str) (W : Dict Str (Str × Nat × Bool)) : Bind → View := fun b => viewOf env tg b.ids b.packets W

/-- What names refer to, when every item of the current packet has a variable. -/
abbrev viewFull (env : Env) (tg : Str) : Bind → View := fun b => fullView env tg b.ids b.packets

theorem Ready.of_fields {st st' : St} {sc : Scope} (h : Ready st sc) (h1 : st'.ids = st.ids) (h2 : st'.packets = st.packets)
    (h3 : st'.sub = st.sub) (h4 : st'.withtable = st.withtable) : Ready st' sc :=
  ⟨by rw [h1, h2]; exact h.bind, ⟨rfl, rfl, fun h => (by cases h), by rw [h4]; exact h.inv.vars, by rw [h4]; exact h.inv.once⟩,
    h3.trans h.sub, h.rel.of h1 h2⟩

theorem Ready.true {st : St} {sc : Scope} (h : Ready st sc) (hr : st.rhs = some true) : Inv st.ids st.packets true st :=
  ⟨rfl, rfl, fun _ => hr, h.inv.vars, h.inv.once⟩

/-- What is said of the translation of a statement. -/
structure Done (env : Env) (tg : Str) (sc sc' : Scope) (b0 : Bind) (st st' : St) (run : (Bind → View) → Option (List PyS × Bind)) (ss : List PyS) :
    Prop where
  ready : Ready st' sc'
  ext : Ext st.withtable st'.withtable
  bind : b0 = sc'.toBind
  ids : sc'.ids = sc.ids
  dead : ∀ x, x ∈ sc.dead → x ∈ sc'.dead
  does : ∀ W, Ext st'.withtable W → run (viewAt env tg W) = some (ss, sc'.toBind)

/-! ## Targets -/

theorem packetVar_assignable (i : Nat) : assignable (.name (packetVar i)) = true := by
  have : ∀ s : Str, assignable (.name ('_' :: s)) = true := fun s => rfl
  exact this _

theorem current_assignable {env : Env} {ids : Dict Str Alias} {packets : Dict Str Str} {W : Dict Str (Str × Nat × Bool)}
    (hW : ∀ k w, dget W k = some w → assignable (.name w.1) = true) {al : Alias} {a : Str} {p : Py}
    (h : current (viewOf env tg ids packets W) al a = some p) : assignable p = true := by
  unfold current at h
  rw [Option.bind_eq_some_iff] at h
  obtain ⟨n, -, h⟩ := h
  split at h
  · cases h; rfl
  · unfold orTarget at h
    split at h
    · cases h; rfl
    · split at h
      · cases h; rfl
      · rw [Option.map_eq_some_iff] at h
        obtain ⟨v, hv, rfl⟩ := h
        have hv : dget (varsOf W) (lower n) = some v := hv
        rw [dget_varsOf, Option.map_eq_some_iff] at hv
        obtain ⟨w, hw, rfl⟩ := hv
        exact hW _ _ hw

theorem target_assignable {env : Env} {ids : Dict Str Alias} {packets : Dict Str Str} {W : Dict Str (Str × Nat × Bool)}
    (hW : ∀ k w, dget W k = some w → assignable (.name w.1) = true) {t : Expr} (ht : isTarget ids (catsOf env ids) t = true) {p : Py}
    (h : means (viewOf env tg ids packets W) t = some p) : assignable p = true := by
  cases t with
  | name x =>
    rw [isTarget, Bool.and_eq_true, Bool.and_eq_true] at ht
    have hpi := ht.1.2
    simp only [isPi, Bool.not_eq_true', Bool.or_eq_false_iff, decide_eq_false_iff_not] at hpi
    rw [means, if_neg hpi.2, if_neg hpi.1] at h
    cases h
    have := ht.1.1
    rw [freeName, Bool.and_eq_true] at this
    exact this.2
  | attr q a =>
    rw [means] at h
    cases q with
    | tag t =>
      unfold item at h
      dsimp only at h
      cases hd : dget ids t with
      | some al =>
        rw [show (viewOf env tg ids packets W).alias t = some al from hd] at h
        exact current_assignable hW h
      | none =>
        rw [show (viewOf env tg ids packets W).alias t = none from hd] at h
        dsimp only at h
        rw [Option.bind_eq_some_iff] at h
        obtain ⟨n, -, h⟩ := h
        unfold orTarget at h
        split at h <;> (cases h; rfl)
    | name x =>
      rw [isTarget] at ht
      obtain ⟨al, hal⟩ := Option.isSome_iff_exists.1 ht
      unfold item at h
      dsimp only at h
      have hal' : (viewOf env tg ids packets W).alias x = some al := hal
      rw [hal'] at h
      exact current_assignable hW h
    | _ => cases ht
  | sub q i =>
    rw [isTarget, Bool.not_eq_true'] at ht
    rw [means, cat_none ht] at h
    dsimp only at h
    split at h
    · cases h; rfl
    · cases h
  | items q es =>
    rw [means] at h
    split at h
    · cases h; rfl
    · cases h
  | slice q es =>
    rw [means] at h
    split at h
    · rw [Option.map_eq_some_iff] at h
      obtain ⟨i, -, rfl⟩ := h
      rfl
    · cases h
  | _ => cases ht

theorem targets_assignable {env : Env} {ids : Dict Str Alias} {packets : Dict Str Str} {W : Dict Str (Str × Nat × Bool)}
    (hW : ∀ k w, dget W k = some w → assignable (.name w.1) = true) : ∀ {ts : List Expr}, ts.all (isTarget ids (catsOf env ids)) = true →
    ∀ {ps : List Py}, meanings (viewOf env tg ids packets W) ts = some ps → ps.all assignable = true
  | [], _, ps, h => by rw [meanings] at h; cases h; rfl
  | t :: ts, ht, ps, h => by
    rw [List.all_cons, Bool.and_eq_true] at ht
    rw [meanings] at h
    split at h
    · rename_i e r h1 h2
      cases h
      rw [List.all_cons, target_assignable hW ht.1 h1, targets_assignable hW ht.2 h2]
      rfl
    · cases h

theorem Inv.assignable {ids : Dict Str Alias} {packets : Dict Str Str} {rhs : Bool} {st : St} (h : Inv ids packets rhs st) :
    ∀ k w, dget st.withtable k = some w → assignable (.name w.1) = true := by
  intro k w hk
  obtain ⟨i, hi⟩ := List.getElem?_of_mem (dget_mem hk)
  rw [h.vars i k w hi]
  exact packetVar_assignable i

/-! ## Packets -/

theorem ddel_none {p : Dict Str Str} {x : Str} (h : dget p x = none) : ddel p x = p := by
  rw [dget_eq_none] at h
  unfold ddel
  rw [List.filter_eq_self]
  intro q hq
  simp only [ne_eq, decide_not, Bool.not_eq_true', decide_eq_false_iff_not]
  rintro rfl
  exact h (mem_dkeys (k := q.1) (v := q.2) hq)

theorem forget_fresh {sc : Scope} : ∀ {xs : List Str}, xs.all (fresh sc) = true → forget xs sc.packets = sc.packets
  | [], _ => rfl
  | x :: xs, h => by
    rw [List.all_cons, Bool.and_eq_true] at h
    have h1 := h.1
    simp only [fresh, Bool.and_eq_true] at h1
    have h2 : dget sc.packets x = none := Option.isNone_iff_eq_none.1 h1.1.2
    unfold forget
    rw [List.foldl_cons, ddel_none h2]
    exact forget_fresh h.2

theorem holding_none {v : View} {p : Dict Str Str} : ∀ {ts vs : List Expr}, noPackets v p ts vs = true → holding v ts vs p = p
  | [], vs, _ => by cases vs <;> rw [holding]
  | t :: ts, vs, h => by
    rw [noPackets, Bool.and_eq_true, List.all_cons, Bool.and_eq_true] at h
    obtain ⟨h1, h2, h3⟩ := h
    have ih : ∀ {us : List Expr}, (us.all fun e => (packetOf v e).isNone) = true → holding v ts us p = p := fun hu =>
      holding_none (by rw [noPackets, Bool.and_eq_true]; exact ⟨hu, h3⟩)
    have htail : (vs.tail.all fun e => (packetOf v e).isNone) = true := by
      cases vs with
      | nil => rfl
      | cons e es => rw [List.all_cons, Bool.and_eq_true] at h1; exact h1.2
    cases t with
    | name x =>
      have hx : dget p x = none := Option.isNone_iff_eq_none.1 h2
      cases vs with
      | nil => rw [holding, ddel_none hx]; exact ih rfl
      | cons e es =>
        rw [List.all_cons, Bool.and_eq_true] at h1
        rw [holding, Option.isNone_iff_eq_none.1 h1.1]
        dsimp only
        rw [ddel_none hx]
        exact ih h1.2
    | _ =>
      rw [holding]
      · exact ih htail
      all_goals nofun

/-- What a view says of packets does not depend on the variables of the current packet. -/
theorem holding_view {v : View} {var : Str → Option Str} : ∀ (ts vs : List Expr) (p : Dict Str Str),
    holding { v with var := var } ts vs p = holding v ts vs p := by
  have hc : ∀ e, category { v with var := var } e = category v e := by intro e; cases e <;> rfl
  have hp : ∀ e, packetOf { v with var := var } e = packetOf v e := by
    intro e
    cases e with
    | sub p i => exact hc p
    | _ => rfl
  intro ts
  induction ts with
  | nil => intro vs p; cases vs <;> rw [holding, holding]
  | cons t ts ih =>
    intro vs p
    cases t with
    | name x =>
      cases vs with
      | nil => rw [holding, holding, ih]
      | cons e es => rw [holding, holding, ih, hp]
    | _ =>
      rw [holding, holding, ih]
      all_goals nofun

theorem varName_ident {x : Str} (h : varName x = true) : ident x = true := by
  rw [varName, Bool.and_eq_true] at h
  obtain ⟨c, r, rfl, hc, hall, -⟩ := pyName_parts h.1
  have hal : c.isAlpha = true := h.2
  have hd : c.isDigit = false := by
    cases hd : c.isDigit with
    | false => rfl
    | true =>
      simp only [Char.isDigit, Char.isAlpha, Char.isUpper, Char.isLower, Bool.and_eq_true, Bool.or_eq_true, decide_eq_true_eq] at hal hd
      exfalso
      have h1 := hd.1; have h2 := hd.2
      simp only [UInt32.le_iff_toNat_le] at hal h1 h2
      rcases hal with ⟨a, b⟩ | ⟨a, b⟩
      · have := Nat.le_trans a h2; revert this; decide
      · have := Nat.le_trans a h2; revert this; decide
  have hu : c ≠ '_' := by rintro rfl; revert hal; decide
  rw [ident, hall]
  simp only [List.head?_cons, Option.all_some, hd, Bool.not_false, Bool.and_self, Bool.true_and, bne_iff_ne, ne_eq]
  intro h
  cases r with
  | nil => simp at h
  | cons d r =>
    simp only [List.take_succ_cons, List.take_zero] at h
    have : c = '_' := by injection h
    exact hu this

end DrelMeaning
end Verif
