import Verif.Lemmas.StoreDoc
import Verif.Lemmas.BlockValue
import Verif.Lemmas.Print
/-! # The entries of a block

What `docOf` says about the names, values and loops of a block, and when a block has entries at all. -/
set_option linter.unusedSectionVars false
namespace Verif.Print
open Block Reader
variable [CaseFold]

theorem heads_ok : ∀ {cols : List (List PyVal)}, (∀ c ∈ cols, c ≠ []) → ∃ hs ts, heads cols = some (hs, ts) ∧ hs.length = cols.length ∧
    ts.length = cols.length ∧ ∀ (i : Nat) (c : List PyVal), cols[i]? = some c → ∃ v c', c = v :: c' ∧ hs[i]? = some v ∧ ts[i]? = some c'
  | [], _ => ⟨[], [], rfl, rfl, rfl, by simp⟩
  | [] :: r, h => absurd rfl (h [] (by simp))
  | (v :: c) :: r, h => by
    obtain ⟨hs, ts, h1, h2, h3, h4⟩ := heads_ok (cols := r) fun c hc => h c (by simp [hc])
    refine ⟨v :: hs, c :: ts, by rw [heads, h1], by simp [h2], by simp [h3], ?_⟩
    intro i d hd
    cases i with
    | zero => simp at hd; exact ⟨v, c, hd.symm, rfl, rfl⟩
    | succ i => simpa using h4 i d (by simpa using hd)

theorem zipRows_cols' : ∀ (m : Nat) (cols : List (List PyVal)), cols ≠ [] → (∀ c ∈ cols, c.length = m) →
    (zipRows m cols).flatten.length = m * cols.length ∧
    (∀ i c, cols[i]? = some c → Entry.IsColumn cols.length i (zipRows m cols).flatten c) ∧
    ∀ v ∈ (zipRows m cols).flatten, ∃ c ∈ cols, v ∈ c
  | 0, cols, _, hc => by
    refine ⟨by simp [zipRows], ?_, by simp [zipRows]⟩
    intro i c h r
    have : c = [] := List.length_eq_zero_iff.1 (hc c (List.mem_of_getElem? h))
    subst this
    simp [zipRows]
  | m + 1, cols, hne, hc => by
    obtain ⟨hs, ts, h1, h2, h3, h4⟩ := heads_ok (cols := cols) fun c h e => by
      have := hc c h; rw [e] at this; simp at this
    have htl : ∀ t ∈ ts, t.length = m ∧ ∃ c ∈ cols, ∃ v, c = v :: t := by
      intro t ht
      obtain ⟨i, hi, rfl⟩ := List.getElem_of_mem ht
      have hi' : i < cols.length := by omega
      obtain ⟨v, c', e1, -, e3⟩ := h4 i cols[i] (List.getElem?_eq_getElem hi')
      rw [List.getElem?_eq_getElem hi] at e3
      simp only [Option.some.injEq] at e3
      have hm := List.getElem_mem hi'
      have := hc _ hm
      rw [e1] at this
      simp only [List.length_cons] at this
      rw [e3]
      exact ⟨by omega, cols[i], hm, v, e1⟩
    have hts : ts ≠ [] := by
      intro e; rw [e] at h3; exact hne (List.length_eq_zero_iff.1 h3.symm)
    obtain ⟨g1, g2, g3⟩ := zipRows_cols' m ts hts fun t ht => (htl t ht).1
    have e : (zipRows (m + 1) cols).flatten = hs ++ (zipRows m ts).flatten := by rw [zipRows, h1]; rfl
    rw [e]
    refine ⟨?_, ?_, ?_⟩
    · rw [List.length_append, g1, h2, h3, Nat.succ_mul]; omega
    · intro i c hi r
      obtain ⟨v, c', rfl, e2, e3⟩ := h4 i c hi
      have hlt : i < cols.length := by
        rcases Nat.lt_or_ge i cols.length with h | h
        · exact h
        · rw [List.getElem?_eq_none h] at hi; simp at hi
      rw [if_pos hlt]
      cases r with
      | zero => simp only [Nat.zero_mul, Nat.zero_add, List.getElem?_cons_zero]; rw [List.getElem?_append_left (by omega), e2]
      | succ r =>
        have := g2 i c' e3 r
        rw [h3, if_pos hlt] at this
        rw [List.getElem?_cons_succ, this, List.getElem?_append_right (by rw [Nat.succ_mul]; omega)]
        congr 1
        rw [Nat.succ_mul]; omega
    · intro v hv
      rcases List.mem_append.1 hv with hv | hv
      · obtain ⟨i, hi, rfl⟩ := List.getElem_of_mem hv
        have hi' : i < cols.length := by omega
        obtain ⟨v, c', e1, e2, -⟩ := h4 i cols[i] (List.getElem?_eq_getElem hi')
        rw [List.getElem?_eq_getElem hi] at e2
        simp only [Option.some.injEq] at e2
        exact ⟨cols[i], List.getElem_mem hi', by rw [e1, e2]; simp⟩
      · obtain ⟨t, ht, hv⟩ := g3 v hv
        obtain ⟨-, c, hc', v', rfl⟩ := htl t ht
        exact ⟨_, hc', by simp [hv]⟩

theorem rows_columns {m : Nat} {cols : List (List PyVal)} (hne : cols ≠ []) (hc : ∀ c ∈ cols, c.length = m) :
    (rows cols).flatten.length = m * cols.length ∧
    (∀ i c, cols[i]? = some c → Entry.IsColumn cols.length i (rows cols).flatten c) ∧
    ∀ v ∈ (rows cols).flatten, ∃ c ∈ cols, v ∈ c := by
  cases cols with
  | nil => exact absurd rfl hne
  | cons c r =>
    have : rows (c :: r) = zipRows m (c :: r) := by rw [rows, hc c (by simp)]
    rw [this]
    exact zipRows_cols' m _ hne hc

theorem spelled_some {b : Block} : ∀ {ns : List Str}, (∀ n ∈ ns, n ∈ dkeys b.trueCase) → ∃ ts, spelled b ns = some ts
  | [], _ => ⟨[], rfl⟩
  | n :: r, h => by
    obtain ⟨t, ht⟩ := dget_isSome.2 (h n (by simp))
    obtain ⟨ts, hts⟩ := spelled_some (ns := r) fun x hx => h x (by simp [hx])
    exact ⟨t :: ts, by rw [spelled, ht, hts]⟩

theorem spelled_lower {b : Block} (hw : ∀ p ∈ b.trueCase, lower p.2 = p.1) : ∀ {ns ts : List Str}, spelled b ns = some ts →
    ts.map lower = ns ∧ ∀ t ∈ ts, dget b.trueCase (lower t) = some t
  | [], ts, h => by simp only [spelled, Option.some.injEq] at h; subst h; simp
  | n :: r, ts, h => by
    rw [spelled] at h
    split at h
    · rename_i t ts' h1 h2
      simp only [Option.some.injEq] at h
      subst h
      obtain ⟨e1, e2⟩ := spelled_lower hw h2
      have e3 : lower t = n := hw _ (dget_mem h1)
      refine ⟨by simp [e1, e3], ?_⟩
      intro x hx
      rcases List.mem_cons.1 hx with rfl | hx
      · rw [e3]; exact h1
      · exact e2 x hx
    · cases h

theorem columns_get {b : Block} : ∀ {ns : List Str}, (∀ n ∈ ns, ∃ l, b.lookup n = some (.list l)) →
    ∃ cols, columns b ns = .ok cols ∧ cols.length = ns.length ∧ ∀ (i : Nat) (n : Str), ns[i]? = some n → ∃ l, cols[i]? = some l ∧ b.lookup n = some (.list l)
  | [], _ => ⟨[], rfl, rfl, by simp⟩
  | n :: r, h => by
    obtain ⟨l, hl⟩ := h n (by simp)
    obtain ⟨cols, h1, h2, h3⟩ := columns_get (ns := r) fun x hx => h x (by simp [hx])
    have hg : b.getItem n = .ok (.list l) := by
      unfold lookup at hl
      split at hl
      · rename_i v hv; simp only [Option.some.injEq] at hl; rw [hv, hl]
      · cases hl
    refine ⟨l :: cols, by rw [columns, hg]; simp only [columnValues, h1], by simp [h2], ?_⟩
    intro i x hx
    cases i with
    | zero => simp at hx; subst hx; exact ⟨l, rfl, hl⟩
    | succ i => simpa using h3 i x (by simpa using hx)

/-- What an entry of a block says about it. -/
def EntryIn (b : Block) : Entry → Prop
  | .item t v => b.lookup t = some v ∧ b.loopOf t = [] ∧ dget b.trueCase (lower t) = some t
  | .loop ts vs => (∀ t ∈ ts, b.loopOf t = ts.map lower ∧ dget b.trueCase (lower t) = some t) ∧
      ∀ i t, ts[i]? = some t → ∃ col, b.lookup t = some (.list col) ∧ Entry.IsColumn ts.length i vs col

/-- The names an element of the output order stands for. -/
def namesAt (b : Block) : Ref → List Str
  | .name s => [s]
  | .loop n =>
    match dget b.loops n with
    | some l => l
    | none => []

theorem printed_eq (b : Block) : b.printed = b.order.flatMap (namesAt b) := by
  unfold printed
  apply congrArg (fun f => List.flatMap f b.order)
  funext r
  cases r <;> rfl

/-- The values of a block with entries: single values, and columns of equal lengths in loops that have names. -/
structure Tidy (b : Block) : Prop where
  single : ∀ n, .name n ∈ b.order → ∃ v, b.lookup n = some v
  rect : Rect b
  solid : ∀ n l, dget b.loops n = some l → l ≠ []

theorem lookup_lower {b : Block} {k t : Str} (hk : k ≠ saves) (ht : t ≠ saves) (h : lower k = lower t) : b.lookup k = b.lookup t := by
  rw [lookup_eq b k hk, lookup_eq b t ht, h]

theorem not_looped {b : Block} {t : Str} (h : lower t ∉ allLooped b.loops) : b.loopOf t = [] := by
  unfold loopOf
  rw [List.find?_eq_none.2]
  intro p hp hd
  exact h (mem_allLooped.2 ⟨p.1, p.2, hp, of_decide_eq_true hd⟩)

theorem loopOf_in {b : Block} (hw : WF b) {n : Nat} {l : List Str} (h : dget b.loops n = some l) {t : Str} (ht : lower t ∈ l) :
    b.loopOf t = l := by
  unfold loopOf
  have hm := dget_mem h
  cases hf : b.loops.find? fun p => decide (lower t ∈ p.2) with
  | none =>
    have := List.find?_eq_none.1 hf _ hm
    simp [ht] at this
  | some p =>
    have h1 := List.find?_some hf
    have h2 := List.mem_of_find?_eq_some hf
    simp only [decide_eq_true_eq] at h1
    simp only
    exact (flatMap_unique hw.looped hw.loopsNodup h2 h1 hm ht).2

theorem lower_saves : lower saves = saves := by
  rw [CaseFold.lower_ascii saves (by decide)]
  decide

theorem ne_saves {b : Block} (hs : saves ∉ b.keys) {t : Str} (h : lower t ∈ b.keys) : t ≠ saves := by
  rintro rfl
  rw [lower_saves] at h
  exact hs h

theorem getItem_of_lookup {b : Block} {n : Str} {v : PyVal} (h : b.lookup n = some v) : b.getItem n = .ok v := by
  unfold lookup at h
  split at h
  · rename_i w hw; simp only [Option.some.injEq] at h; rw [hw, h]
  · cases h

/-- A tidy block has an entry for each element of its order. -/
theorem entryOf_in {b : Block} (hw : WF b) (hf : Full b) (ht : Tidy b) (hs : saves ∉ b.keys) {r : Ref} (hr : r ∈ b.order) :
    ∃ e, entryOf b r = some e ∧ e.names.map lower = namesAt b r ∧ EntryIn b e ∧
      (match e with
       | .item _ _ => True
       | .loop ts vs => ts ≠ [] ∧ ts.length ∣ vs.length ∧ ∀ v ∈ vs, ∃ t ∈ ts, ∃ l, b.lookup t = some (.list l) ∧ v ∈ l) := by
  cases r with
  | name n =>
    obtain ⟨hk, hl⟩ := (hw.orderName n).1 hr
    obtain ⟨v, hv⟩ := ht.single n hr
    obtain ⟨t, htc⟩ := dget_isSome.2 (hw.caseKeys n hk)
    have e1 : lower t = n := hw.caseVal _ (dget_mem htc)
    refine ⟨.item t v, by rw [entryOf, getItem_of_lookup hv, htc], by simp [Entry.names, namesAt, e1], ⟨?_, ?_, ?_⟩, trivial⟩
    · rw [← hv]
      exact lookup_lower (ne_saves hs (by rw [e1]; exact hk)) (ne_saves hs (by rw [hw.keysLower n hk]; exact hk)) (by rw [e1, hw.keysLower n hk])
    · exact not_looped (by rw [e1]; exact hl)
    · rw [e1]; exact htc
  | loop n =>
    obtain ⟨l, hl⟩ := dget_isSome.2 ((hw.orderLoop n).1 hr)
    have hin : ∀ s ∈ l, s ∈ b.keys := fun s h => hf s (mem_allLooped.2 ⟨n, l, dget_mem hl, h⟩)
    obtain ⟨ts, hts⟩ := spelled_some (b := b) (ns := l) fun s h => hw.caseKeys s (hin s h)
    obtain ⟨e1, e2⟩ := spelled_lower hw.caseVal hts
    obtain ⟨len, hlen⟩ := ht.rect n l hl
    have hcol : ∀ s ∈ l, ∃ c, b.lookup s = some (.list c) ∧ c.length = len := by
      intro s h
      obtain ⟨c, h1, h2⟩ := hlen s h
      refine ⟨c, ?_, h2⟩
      unfold column at h1
      split at h1
      · rename_i x hx; simp only [Option.some.injEq] at h1; rw [hx, h1]
      · cases h1
    obtain ⟨cols, h1, h2, h3⟩ := columns_get (b := b) (ns := l) fun s h => by
      obtain ⟨c, hc, -⟩ := hcol s h; exact ⟨c, hc⟩
    have hlen2 : ∀ c ∈ cols, c.length = len ∧ ∃ s ∈ l, b.lookup s = some (.list c) := by
      intro c hc
      obtain ⟨i, hi, rfl⟩ := List.getElem_of_mem hc
      have hi' : i < l.length := by omega
      obtain ⟨c', g1, g2⟩ := h3 i l[i] (List.getElem?_eq_getElem hi')
      rw [List.getElem?_eq_getElem hi] at g1
      simp only [Option.some.injEq] at g1
      obtain ⟨c2, g3, g4⟩ := hcol l[i] (List.getElem_mem hi')
      rw [g2] at g3
      simp only [Option.some.injEq, PyVal.list.injEq] at g3
      rw [g1]
      exact ⟨by rw [g3]; exact g4, l[i], List.getElem_mem hi', g2⟩
    have hne : cols ≠ [] := by
      intro e; rw [e] at h2; exact ht.solid n l hl (List.length_eq_zero_iff.1 h2.symm)
    obtain ⟨r1, r2, r3⟩ := rows_columns hne fun c hc => (hlen2 c hc).1
    have hlt : ts.length = l.length := by rw [← e1, List.length_map]
    have hlook : ∀ (i : Nat) (t : Str), ts[i]? = some t → ∃ s, l[i]? = some s ∧ lower t = s ∧ b.lookup t = b.lookup s := by
      intro i t hi
      have : (ts.map lower)[i]? = some (lower t) := by rw [List.getElem?_map, hi]; rfl
      rw [e1] at this
      have hk := hin _ (List.mem_of_getElem? this)
      exact ⟨_, this, rfl, lookup_lower (ne_saves hs hk) (ne_saves hs (by rw [CaseFold.lower_lower]; exact hk)) (by rw [CaseFold.lower_lower])⟩
    refine ⟨.loop ts (rows cols).flatten, by rw [entryOf, hl]; simp only [hts, h1], by simp only [Entry.names, namesAt, hl, e1], ⟨?_, ?_⟩, ?_, ?_, ?_⟩
    · intro t h
      refine ⟨?_, e2 t h⟩
      rw [e1]
      exact loopOf_in hw hl (by rw [← e1]; exact List.mem_map_of_mem h)
    · intro i t hi
      obtain ⟨s, g1, g2, g3⟩ := hlook i t hi
      obtain ⟨c, k1, k2⟩ := h3 i s g1
      exact ⟨c, by rw [g3, k2], by rw [hlt, ← h2]; exact r2 i c k1⟩
    · intro e
      apply ht.solid n l hl
      rw [← e1, e]; rfl
    · rw [r1, hlt, h2]
      exact Nat.dvd_mul_left _ _
    · intro v hv
      obtain ⟨c, hc, hv'⟩ := r3 v hv
      obtain ⟨-, s, hsl, hs2⟩ := hlen2 c hc
      rw [← e1] at hsl
      obtain ⟨t, ht1, rfl⟩ := List.mem_map.1 hsl
      obtain ⟨i, hi, rfl⟩ := List.getElem_of_mem ht1
      obtain ⟨s', -, g2, g3⟩ := hlook i _ (List.getElem?_eq_getElem hi)
      exact ⟨_, ht1, c, by rw [g3, ← g2]; exact hs2, hv'⟩

/-- Facts about the entries of a block. -/
theorem docOf_in {b : Block} (P : Entry → Prop) : ∀ {rs : List Ref}, (∀ r ∈ rs, ∃ e, entryOf b r = some e ∧ e.names.map lower = namesAt b r ∧ P e) →
    ∃ es, docOf b rs = some es ∧ (Entry.allNames es).map lower = rs.flatMap (namesAt b) ∧ ∀ e ∈ es, P e
  | [], _ => ⟨[], rfl, rfl, by simp⟩
  | r :: rs, h => by
    obtain ⟨e, h1, h2, h3⟩ := h r (by simp)
    obtain ⟨es, g1, g2, g3⟩ := docOf_in P (rs := rs) fun x hx => h x (by simp [hx])
    refine ⟨e :: es, by rw [docOf, h1, g1], ?_, ?_⟩
    · simp only [Entry.allNames] at g2
      simp only [Entry.allNames, List.flatMap_cons, List.map_append, h2, g2]
    · intro x hx
      rcases List.mem_cons.1 hx with rfl | hx
      · exact h3
      · exact g3 x hx

end Verif.Print
