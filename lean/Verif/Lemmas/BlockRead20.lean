import Verif.Lemmas.WriteDoc20
import Verif.Props.ReadBack
/-! # The entries of a block of CIF 2.0 -/
set_option linter.unusedSectionVars false
namespace Verif.RoundTrip
open Print Reader Lex Block
variable [CaseFold]

/-- Not an empty list. -/
def NotEmptyList (v : PyVal) : Prop := v ≠ .slist [] ∧ v ≠ .list []

/-- An entry with writable values that does not end in an empty list. -/
def EntryOk20 (st : Style) (hints : List Hint) (e : Entry) : Prop :=
  WritableEntry20 st hints e ∧ e.Filled ∧ match e with
    | .item _ _ => True
    | .loop _ vs => ∀ v, vs.getLast? = some v → NotEmptyList v

theorem last_column {n m : Nat} {vs col : List PyVal} (hn : n ≠ 0) (hm : vs.length = m * n) (h : Entry.IsColumn n (n - 1) vs col) :
    vs.getLast? = col.getLast? := by
  have hlen := isColumn_length h (by omega) hm
  rw [List.getLast?_eq_getElem?, List.getLast?_eq_getElem?, hlen, hm]
  cases m with
  | zero =>
    have : vs = [] := List.length_eq_zero_iff.1 (by simpa using hm)
    have hc : col = [] := List.length_eq_zero_iff.1 hlen
    simp [this, hc]
  | succ m =>
    have := h m
    rw [if_pos (by omega)] at this
    have e : (m + 1) * n - 1 = m * n + (n - 1) := by rw [Nat.succ_mul]; omega
    rw [e]
    exact this.symm

/-- A writable block has entries, which are writable. -/
theorem writable_in20 {st : Style} {hints : List Hint} {b : Block} (hw : WF b) (hf : Full b) (hs : saves ∉ b.keys) (hb : WritableBlock20 st hints b) :
    ∃ es, docOf b b.order = some es ∧ (Entry.allNames es).map lower = b.printed ∧
      ∀ e ∈ es, EntryIn b e ∧ EntryOk20 st hints e ∧ (∀ t ∈ e.names, lower t ∈ b.keys) ∧ (StandsApart hints b → EntryApart hints e) := by
  have htidy : Tidy b := by
    refine ⟨?_, hb.rect, hb.solid⟩
    intro n hn
    obtain ⟨h1, h2⟩ := (hw.orderName n).1 hn
    obtain ⟨v, hv, -⟩ := hb.items n h1 (not_looped (by rw [hw.keysLower n h1]; exact h2))
    exact ⟨v, hv⟩
  rw [printed_eq]
  apply docOf_in
  intro r hr
  obtain ⟨e, q1, q2, q3, q4⟩ := entryOf_in hw hf htidy hs hr
  refine ⟨e, q1, q2, q3, ?_⟩
  have hkey : ∀ t ∈ e.names, lower t ∈ b.keys := by
    intro t ht
    have : lower t ∈ namesAt b r := by rw [← q2]; exact List.mem_map_of_mem ht
    cases r with
    | name n =>
      simp only [namesAt, List.mem_singleton] at this
      rw [this]
      exact ((hw.orderName n).1 hr).1
    | loop n =>
      rw [namesAt] at this
      split at this
      · rename_i l hl
        exact hf _ (mem_allLooped.2 ⟨n, l, dget_mem hl, this⟩)
      · simp at this
  have hname : ∀ t, lower t ∈ b.keys → dget b.trueCase (lower t) = some t → WritableName20 t := by
    intro t hk htc
    obtain ⟨t', h1, h2⟩ := hb.names _ hk
    rw [htc] at h1
    simp only [Option.some.injEq] at h1
    rw [h1]; exact h2
  have hlow : ∀ t, lower t ∈ b.keys → b.lookup (lower t) = b.lookup t := fun t h =>
    lookup_lower (ne_saves hs (by rw [CaseFold.lower_lower]; exact h)) (ne_saves hs h) (CaseFold.lower_lower _)
  have hloop : ∀ t, b.loopOf (lower t) = b.loopOf t := fun t => by unfold loopOf; rw [CaseFold.lower_lower]
  cases e with
  | item t v =>
    have hk := hkey t (by simp [Entry.names])
    refine ⟨⟨⟨hname t hk q3.2.2, ?_⟩, trivial, trivial⟩, hkey, ?_⟩
    · obtain ⟨v', h1, h2⟩ := hb.items _ hk (by rw [hloop]; exact q3.2.1)
      rw [hlow t hk, q3.1] at h1
      simp only [Option.some.injEq] at h1
      rw [h1]; exact h2
    · rintro ha d rfl
      exact ha.tables _ hk (by rw [hloop]; exact q3.2.1) d (by rw [hlow t hk]; exact q3.1) t q3.2.2
  | loop ts vs =>
    obtain ⟨p1, p2, p3⟩ := q4
    have hcol : ∀ t ∈ ts, ∃ l, b.lookup t = some (.list l) ∧ l ≠ [] ∧ (∀ v ∈ l, Writable20 st (asked hints) v) ∧ l.getLast? ≠ some (.slist []) ∧
        l.getLast? ≠ some (.list []) := by
      intro t ht
      have hk := hkey t ht
      obtain ⟨l, h1, h2⟩ := hb.loops _ hk (by
        rw [hloop, (q3.1 t ht).1]
        simpa using p1)
      rw [hlow t hk] at h1
      exact ⟨l, h1, h2⟩
    have hne : vs ≠ [] := by
      rintro rfl
      cases ts with
      | nil => exact p1 rfl
      | cons t ts =>
        obtain ⟨c, h1, h2⟩ := q3.2 0 t rfl
        obtain ⟨l, h3, h4, -⟩ := hcol t (by simp)
        rw [h1] at h3
        simp only [Option.some.injEq, PyVal.list.injEq] at h3
        have := isColumn_length (m := 0) h2 (by simp) (by simp)
        exact h4 (by rw [← h3]; exact List.length_eq_zero_iff.1 this)
    refine ⟨⟨⟨fun t ht => hname t (hkey t ht) (q3.1 t ht).2, hne, ?_⟩, ⟨p1, hne, p2⟩, ?_⟩, hkey, ?_⟩
    · intro v hv
      obtain ⟨t, ht, l, h1, h2⟩ := p3 v hv
      obtain ⟨l', h3, -, h4, -⟩ := hcol t ht
      rw [h1] at h3
      simp only [Option.some.injEq, PyVal.list.injEq] at h3
      exact h4 v (by rw [← h3]; exact h2)
    · have hpos : ts.length ≠ 0 := by simpa using p1
      obtain ⟨m, hm⟩ := p2
      have hlast : ts.length - 1 < ts.length := by omega
      obtain ⟨c, h1, h2⟩ := q3.2 (ts.length - 1) ts[ts.length - 1] (List.getElem?_eq_getElem hlast)
      obtain ⟨l, h3, -, -, h5, h6⟩ := hcol _ (List.getElem_mem hlast)
      rw [h1] at h3
      simp only [Option.some.injEq, PyVal.list.injEq] at h3
      subst h3
      have e := last_column hpos (by rw [hm, Nat.mul_comm]) h2
      intro v hv
      rw [e] at hv
      exact ⟨fun e => h5 (by rw [hv, e]), fun e => h6 (by rw [hv, e])⟩
    · intro ha
      by_cases hlen : ts.length ≤ 1
      · exact .inl hlen
      · right
        intro v hv
        obtain ⟨t, ht, l, h1, h2⟩ := p3 v hv
        exact ha.loops _ (hkey t ht) l (by rw [hlow t (hkey t ht)]; exact h1) (by
          rw [hloop, (q3.1 t ht).1, List.length_map]
          omega) v h2

/-! ## Entries that can be stored -/

theorem names_asRead20 (e : Entry) : (asReadEntry20 e).names = e.names := by cases e <;> rfl

theorem allNames_asRead20 (es : List Entry) : Entry.allNames (es.map asReadEntry20) = Entry.allNames es := by
  simp [Entry.allNames, List.flatMap_map, names_asRead20]

theorem notNoneAll_map {l : List PyVal} (h : ∀ v ∈ l, notNone (asRead20 v) = true) : notNoneAll (asReads20 l) = true := by
  induction l with
  | nil => rfl
  | cons v r ih =>
    rw [asReads20, notNoneAll, h v (by simp), ih fun x hx => h x (by simp [hx])]
    rfl

theorem asRead20_notNone {st : Style} {ds : List (Option Str)} {v : PyVal} (h : Writable20 st ds v) : notNone (asRead20 v) = true := by
  induction h with
  | str _ => rfl
  | num _ => rfl
  | slist _ ih => rw [asRead20, notNone]; exact notNoneAll_map ih
  | list _ ih => rw [asRead20, notNone]; exact notNoneAll_map ih
  | sdict _ _ _ _ => rw [asRead20]; rfl

theorem asRead20_empty {v : PyVal} (h : asRead20 v = .slist [] ∨ asRead20 v = .list []) : ¬ NotEmptyList v := by
  cases v with
  | list l =>
    cases l with
    | nil => simp [NotEmptyList]
    | cons x r => simp [asRead20, asReads20] at h
  | slist l =>
    cases l with
    | nil => simp [NotEmptyList]
    | cons x r => simp [asRead20, asReads20] at h
  | _ => simp [asRead20] at h

theorem names20 {st : Style} {hints : List Hint} {e : Entry} (h : WritableEntry20 st hints e) : ∀ n ∈ e.names, WritableName20 n := by
  cases e with
  | item n v => simpa [Entry.names] using h.1
  | loop ns vs => exact h.1

/-- Entries that can be written give entries that can be stored. -/
theorem entriesOk_of20 {st : Style} {hints : List Hint} {std : Option Str} {es : List Entry} (hd : Entry.Distinct es) (he : ∀ e ∈ es, EntryOk20 st hints e)
    (hsv : ∀ e ∈ es, ∀ t ∈ e.names, CaseFold.lower t ≠ saves)
    (hs : std = some "CIF".toList → ∀ n ∈ Entry.allNames es, (CaseFold.lower n).length ≤ 75) : EntriesOk std (es.map asReadEntry20) := by
  refine ⟨?_, ?_, ?_, ?_⟩
  · unfold Entry.Distinct
    rw [allNames_asRead20]
    exact hd
  · intro e' h
    obtain ⟨e, hm, rfl⟩ := List.mem_map.1 h
    obtain ⟨hw, hf, hl⟩ := he e hm
    refine ⟨?_, ?_, ?_, ?_⟩
    · intro n hn
      rw [names_asRead20] at hn
      obtain ⟨t, rfl, -⟩ := names20 hw n hn
      intro e
      have := congrArg List.head? e
      simp only [List.head?_cons] at this
      exact absurd this (by decide)
    · cases e with
      | item n v => exact asRead20_notNone hw.2
      | loop ns vs =>
        intro v hv
        obtain ⟨u, hu, rfl⟩ := List.mem_map.1 hv
        exact asRead20_notNone (hw.2.2 u hu)
    · cases e with
      | item n v => trivial
      | loop ns vs =>
        have key : ∀ x, (vs.map asRead20).getLast? = some x → ∃ u, vs.getLast? = some u ∧ asRead20 u = x := by
          intro x hx
          rw [List.getLast?_map] at hx
          cases hv : vs.getLast? with
          | none => rw [hv] at hx; cases hx
          | some u =>
            rw [hv] at hx
            simp only [Option.map_some, Option.some.injEq] at hx
            exact ⟨u, rfl, hx⟩
        constructor
        · intro h; obtain ⟨u, h1, h2⟩ := key _ h; exact asRead20_empty (.inl h2) (hl u h1)
        · intro h; obtain ⟨u, h1, h2⟩ := key _ h; exact asRead20_empty (.inr h2) (hl u h1)
    · cases e with
      | item n v => trivial
      | loop ns vs => exact ⟨hf.1, by simpa using hf.2.1, by simpa using hf.2.2⟩
  · intro e' h n hn
    obtain ⟨e, hm, rfl⟩ := List.mem_map.1 h
    rw [names_asRead20] at hn
    exact hsv e hm n hn
  · intro hc n hn
    rw [allNames_asRead20] at hn
    exact hs hc n hn

/-! ## Same contents -/

/-- Blocks with the same entries, up to the way values are read, hold the same. -/
theorem sameRead20 {b rb : Block} (hw : WF b) (hf : Full b) (hs : saves ∉ b.keys) (hw' : WF rb) (hf' : Full rb) {es : List Entry}
    (h1 : (Entry.allNames es).map lower = b.printed) (h2 : ∀ e ∈ es, EntryIn b e ∧ e.Filled)
    (h3 : (Entry.allNames es).map lower = rb.printed) (h4 : ∀ e ∈ es, EntryIn rb (asReadEntry20 e)) : SameRead20 b rb := by
  have hpr : rb.printed = b.printed := by rw [← h1, ← h3]
  have hkeys : ∀ n, n ∈ rb.keys ↔ n ∈ b.keys := fun n => by rw [← printed_keys hw' hf', ← printed_keys hw hf, hpr]
  have hs' : saves ∉ rb.keys := fun h => hs ((hkeys _).1 h)
  have hfind : ∀ n ∈ b.keys, ∃ e ∈ es, ∃ t ∈ e.names, lower t = n := by
    intro n hn
    rw [← printed_keys hw hf, ← h1] at hn
    obtain ⟨t, ht, rfl⟩ := List.mem_map.1 hn
    obtain ⟨e, he, ht'⟩ := List.mem_flatMap.1 ht
    exact ⟨e, he, t, ht', rfl⟩
  have hloop : ∀ (x : Block) (k t : Str), lower k = lower t → x.loopOf k = x.loopOf t := fun x k t e => by unfold loopOf; rw [e]
  refine ⟨hpr, ?_, ?_, ?_, ?_⟩
  · intro n hn
    obtain ⟨e, he, t, ht, rfl⟩ := hfind n ((printed_keys hw hf).1 hn)
    have g1 := (h2 e he).1
    have g2 := h4 e he
    cases e with
    | item m v =>
      simp only [Entry.names, List.mem_singleton] at ht
      subst ht
      rw [g1.2.2, g2.2.2]
    | loop ts vs => rw [(g1.1 t ht).2, (g2.1 t ht).2]
  · intro k hlk
    by_cases hk : lower k ∈ b.keys
    · obtain ⟨e, he, t, ht, htk⟩ := hfind _ hk
      have g1 := (h2 e he).1
      have gf := (h2 e he).2
      have g2 := h4 e he
      rw [lookup_lower (b := b) (ne_saves hs hk) (ne_saves hs (by rw [htk]; exact hk)) htk.symm,
        lookup_lower (b := rb) (ne_saves hs hk) (ne_saves hs (by rw [htk]; exact hk)) htk.symm]
      cases e with
      | item m v =>
        simp only [Entry.names, List.mem_singleton] at ht
        subst ht
        rw [g1.1, g2.1, Option.map_some]
      | loop ts vs =>
        rw [hloop b k t htk.symm, (g1.1 t ht).1] at hlk
        exact absurd (List.map_eq_nil_iff.1 hlk) gf.1
    · rw [lookup_absent hk, lookup_absent (fun h => hk ((hkeys _).1 h))]
      rfl
  · intro k hlk l hl
    have hk : lower k ∈ b.keys := by
      apply Classical.byContradiction
      intro hk
      rw [lookup_absent hk] at hl
      cases hl
    obtain ⟨e, he, t, ht, htk⟩ := hfind _ hk
    have g1 := (h2 e he).1
    have g2 := h4 e he
    rw [lookup_lower (b := b) (ne_saves hs hk) (ne_saves hs (by rw [htk]; exact hk)) htk.symm] at hl
    rw [lookup_lower (b := rb) (ne_saves hs hk) (ne_saves hs (by rw [htk]; exact hk)) htk.symm]
    cases e with
    | item m v =>
      simp only [Entry.names, List.mem_singleton] at ht
      subst ht
      rw [hloop b k t htk.symm] at hlk
      exact absurd g1.2.1 hlk
    | loop ts vs =>
      obtain ⟨i, hi, rfl⟩ := List.getElem_of_mem ht
      obtain ⟨c, q1, q2⟩ := g1.2 i _ (List.getElem?_eq_getElem hi)
      obtain ⟨c', q3, q4⟩ := g2.2 i _ (List.getElem?_eq_getElem hi)
      rw [q1] at hl
      simp only [Option.some.injEq, PyVal.list.injEq] at hl
      subst hl
      rw [q3, isColumn_map asRead20 q2 q4]
  · intro k
    by_cases hk : lower k ∈ b.keys
    · obtain ⟨e, he, t, ht, htk⟩ := hfind _ hk
      have g1 := (h2 e he).1
      have g2 := h4 e he
      rw [hloop b k t htk.symm, hloop rb k t htk.symm]
      cases e with
      | item m v =>
        simp only [Entry.names, List.mem_singleton] at ht
        subst ht
        rw [g1.2.1, g2.2.1]
      | loop ts vs => rw [(g1.1 t ht).1, (g2.1 t ht).1]
    · rw [not_looped (fun h => hk (hf _ h)), not_looped (fun h => hk ((hkeys _).1 (hf' _ h)))]

/-! ## The block in the order in which it is written -/

theorem writable_ordered20 {st : Style} {hints : List Hint} {b : Block} (hb : WritableBlock20 st hints b) (req : List Str) (out : List Ref) :
    WritableBlock20 st hints { reordered b req with order := out } := by
  refine ⟨hb.names, ?_, ?_, ?_, ?_⟩
  · intro n hn hl
    have : (reordered b req).loopOf n = [] := hl
    rw [loopOf_reordered, reorder_ne_nil] at this
    exact hb.items n hn this
  · intro n hn hl
    have : (reordered b req).loopOf n ≠ [] := hl
    rw [loopOf_reordered, Ne, reorder_ne_nil] at this
    exact hb.loops n hn this
  · intro n l h
    have h : dget (reordered b req).loops n = some l := h
    rw [loops_reordered] at h
    cases h' : dget b.loops n with
    | none => rw [h'] at h; cases h
    | some l' =>
      rw [h'] at h
      simp only [Option.map_some, Option.some.injEq] at h
      subst h
      obtain ⟨len, h1⟩ := hb.rect n l' h'
      exact ⟨len, fun s hs => h1 s (mem_reorder.1 hs)⟩
  · intro n l h
    have h : dget (reordered b req).loops n = some l := h
    rw [loops_reordered] at h
    cases h' : dget b.loops n with
    | none => rw [h'] at h; cases h
    | some l' =>
      rw [h'] at h
      simp only [Option.map_some, Option.some.injEq] at h
      subst h
      rw [Ne, reorder_ne_nil]
      exact hb.solid n l' h'

theorem nodup_one {α : Type} {l : List α} (hn : l.Nodup) (h : 1 < l.length) : ∃ x ∈ l, ∃ y ∈ l, x ≠ y := by
  match l, hn, h with
  | a :: b :: r, hn, _ =>
    refine ⟨a, by simp, b, by simp, fun e => ?_⟩
    simp only [List.nodup_cons, List.mem_cons, not_or] at hn
    exact hn.1.1 e

theorem apart_ordered {hints : List Hint} {b : Block} (h : StandsApart hints b) {req : List Str} (hn : ∀ k, (reorder req (b.loopOf k)).Nodup) (out : List Ref) :
    StandsApart hints { reordered b req with order := out } := by
  refine ⟨?_, ?_⟩
  · intro n hk hl
    have : (reordered b req).loopOf n = [] := hl
    rw [loopOf_reordered, reorder_ne_nil] at this
    exact h.tables n hk this
  · intro n hk l hl hlen
    have hlen : 1 < ((reordered b req).loopOf n).length := hlen
    rw [loopOf_reordered] at hlen
    refine h.loops n hk l hl ?_
    obtain ⟨x, hx, y, hy, hxy⟩ := nodup_one (hn n) hlen
    rw [mem_reorder] at hx hy
    match hloop : b.loopOf n, hx, hy with
    | [a], hx, hy =>
      exfalso
      simp only [List.mem_singleton] at hx hy
      exact hxy (hx.trans hy.symm)
    | a :: c :: r, _, _ => simp

end Verif.RoundTrip
