import Verif.Lemmas.SemPacket
import Verif.Props.DeriveRead
/-! # C80, C81, C82: packets of categories -/
set_option linter.unusedSectionVars false
namespace Verif.SemPacket
open Block Validate
variable [CaseFold] {σ : Type}

/-! ## C80 -/

theorem Rows.nodup {h : Host σ} {v : PyVal} {nc : Bool} {keys : List Str} {s s' : σ} {rows : List (List (Str × PyVal))} (hr : Rows h v nc keys s rows s') :
    ∀ r ∈ rows, (r.map (·.1)).Nodup := by
  have one {s k row} (ht : TheRow h s k v nc row) : (row.map (·.1)).Nodup := by
    obtain ⟨names, cols, len, i, ht, _, _, _, _, h3⟩ := ht
    rw [h3.1]
    exact ht.names.2
  induction hr with
  | done => simp
  | row ht _ ih =>
    intro r hr
    rcases List.mem_cons.1 hr with rfl | hr
    · exact one ht
    · exact ih r hr
  | skip ht _ ih => exact ih
  | lost _ _ _ ih => exact ih
  | made _ _ _ ht _ ih =>
    intro r hr
    rcases List.mem_cons.1 hr with rfl | hr
    · exact one ht
    · exact ih r hr
  | idle _ _ _ _ _ ih => exact ih

theorem Latest.snoc {rows : List (List (Str × PyVal))} {r : List (Str × PyVal)} {d : Str} {x : PyVal} (h : Latest (r :: rows) d x) :
    Latest rows d x ∨ ((d, x) ∈ r ∧ ∀ r' ∈ rows, d ∉ r'.map (·.1)) := by
  obtain ⟨pre, r1, post, e, h1, h2⟩ := h
  cases pre with
  | nil =>
    simp only [List.nil_append, List.cons.injEq] at e
    obtain ⟨rfl, rfl⟩ := e
    exact .inr ⟨h1, h2⟩
  | cons a pre =>
    simp only [List.cons_append, List.cons.injEq] at e
    exact .inl ⟨pre, r1, post, e.2, h1, h2⟩

theorem Latest.present {rows : List (List (Str × PyVal))} {d : Str} {x : PyVal} (h : Latest rows d x) : ∃ r ∈ rows, d ∈ r.map (·.1) := by
  obtain ⟨pre, r1, post, e, h1, h2⟩ := h
  exact ⟨r1, by rw [e]; simp, List.mem_map.2 ⟨_, h1, rfl⟩⟩

theorem Latest.unique {d : Str} {x y : PyVal} : ∀ {rows : List (List (Str × PyVal))}, (∀ r ∈ rows, (r.map (·.1)).Nodup) → Latest rows d x → Latest rows d y → x = y
  | [], _, h, _ => by obtain ⟨r, hr, _⟩ := h.present; cases hr
  | r :: rows, hn, h1, h2 => by
    rcases h1.snoc with h1 | ⟨h1, g1⟩ <;> rcases h2.snoc with h2 | ⟨h2, g2⟩
    · exact Latest.unique (fun r hr => hn r (by simp [hr])) h1 h2
    · obtain ⟨r', hr, hd⟩ := h1.present
      exact absurd hd (g2 r' hr)
    · obtain ⟨r', hr, hd⟩ := h2.present
      exact absurd hd (g1 r' hr)
    · have e1 := dget_of_mem (hn r (by simp)) h1
      have e2 := dget_of_mem (hn r (by simp)) h2
      rw [e1] at e2
      injection e2

theorem firsts {keys : List Str} (sets : List (List PyVal)) (hs : sets.map List.head? = keys.map fun k => some (.str k)) :
    mapE firstKey sets = .ok (keys.map .str) := by
  induction sets generalizing keys with
  | nil => cases keys with
    | nil => rfl
    | cons _ _ => simp at hs
  | cons a r ih =>
    cases keys with
    | nil => simp at hs
    | cons k ks =>
      simp only [List.map_cons, List.cons.injEq] at hs
      cases a with
      | nil => simp at hs
      | cons x a =>
        simp only [List.head?_cons, Option.some.injEq] at hs
        simp only [mapE, firstKey, ih hs.2, hs.1, List.map_cons]

theorem caseless_iff {c : PyVal} : c ∈ Derive.caseless ↔ Caseless c := by
  simp [Derive.caseless, Caseless]

theorem semantic_gather {h : Host σ} {v : PyVal} {cat k0 : Str} {ks : List Str} {sets : List (List PyVal)} {c : PyVal} {nc : Bool} {s : σ}
    (hcat : dget h.keys cat = some sets) (hs : sets.map List.head? = (k0 :: ks).map fun k => some (.str k))
    (hc : h.dic.attrI k0 "_type.contents".toList = .ok c) (hnc : nc = true ↔ Caseless c) :
    keyedSemantic h v cat s = match gather h v nc ((k0 :: ks).map .str) {} none s with
      | (s1, .error e) => (s1, .error e)
      | (s1, .ok p) => (s1, withKey ((k0 :: ks).map .str) p) := by
  unfold keyedSemantic
  simp only [hcat, firsts sets hs]
  rw [show firstKey ((k0 :: ks).map PyVal.str) = .ok (.str k0) from rfl]
  have : caselessKey h.dic (.str k0) = .ok nc := by
    unfold caselessKey Derive.contentsAttr
    simp only [asText, hc]
    congr 1
    rw [Bool.eq_iff_iff, decide_eq_true_eq, caseless_iff, hnc]
  simp only [this]
  rfl

/-- C80: the packet of a category for a key value consists of the rows with this value of the loops of the category and of those nested in
it: all their values, each attribute as in the last row that has it, and the first of the keys that is there.
Missing: keys generated as `None` (`C80_again_fails`, `C80_unbound_fails`), and items whose names begin with two underscores
(`C80_underscores_fails`). -/
theorem C80_packet_partial {h : Host σ} {v : PyVal} {cat k0 : Str} {ks : List Str} {sets : List (List PyVal)} {c : PyVal} {nc : Bool} {s s' : σ}
    {rows : List (List (Str × PyVal))}
    (hcat : dget h.keys cat = some sets) (hs : sets.map List.head? = (k0 :: ks).map fun k => some (.str k))
    (hc : h.dic.attrI k0 "_type.contents".toList = .ok c) (hnc : nc = true ↔ Caseless c)
    (hr : Rows h v nc (k0 :: ks) s rows s') (hne : rows ≠ []) (hp : ∀ r ∈ rows, ∀ d ∈ r.map (·.1), PlainName d) :
    ∃ q, keyedSemantic h v cat s = (s', .ok q) ∧ q.packet.vals = rows.flatMap (fun r => r.map (·.2)) ∧
      (∀ a x, Latest rows (lower a) x → ∀ t, attrOf h q a t = (t, .ok x)) ∧
      (∀ a x, q.packet.attr a = .ok x → Latest rows (lower a) x) ∧
      ∃ k, q.key = [k] ∧ FirstPresent (k0 :: ks) rows k := by
  obtain ⟨p, hg, hm⟩ := gather_ok hr hp {} none
  have hattr := hm.attr hr.low
  have hhas : ∀ k, hasAttr p (.str k) = true ↔ ∃ r ∈ rows, lower k ∈ r.map (·.1) := by
    intro k
    unfold hasAttr
    rcases hattr k with ⟨x, h1, h2⟩ | ⟨h1, h2⟩
    · simp only [h2, true_iff]
      exact h1.present
    · simp only [h2, Bool.false_eq_true, false_iff, not_exists, not_and]
      exact h1
  obtain ⟨k, hk, hfirst⟩ : ∃ k, ((k0 :: ks).map PyVal.str).find? (hasAttr p) = some (.str k) ∧ FirstPresent (k0 :: ks) rows k := by
    obtain ⟨r, rs, e⟩ := List.exists_cons_of_ne_nil hne
    obtain ⟨k1, hk1, hk1r⟩ := hr.keyed r (by rw [e]; simp)
    cases hf : ((k0 :: ks).map PyVal.str).find? (hasAttr p) with
    | none =>
      rw [List.find?_eq_none] at hf
      exact absurd ((hhas k1).2 ⟨r, by rw [e]; simp, hk1r⟩) (hf _ (List.mem_map.2 ⟨k1, hk1, rfl⟩))
    | some y =>
      obtain ⟨h1, as, bs, h2, h3⟩ := List.find?_eq_some_iff_append.1 hf
      obtain ⟨as', l2, e1, e2, e3⟩ := List.map_eq_append_iff.1 h2
      obtain ⟨k, bs', e4, e5, e6⟩ := List.map_eq_cons_iff.1 e3
      subst e5
      refine ⟨k, rfl, as', bs', by rw [e1, e4], (hhas k).1 h1, ?_⟩
      intro k' hk' r hr hmem
      have := h3 (.str k') (by rw [← e2]; exact List.mem_map.2 ⟨k', hk', rfl⟩)
      rw [(hhas k').2 ⟨r, hr, hmem⟩] at this
      cases this
  refine ⟨⟨p, [k]⟩, ?_, ?_, ?_, ?_, k, rfl, hfirst⟩
  · rw [semantic_gather hcat hs hc hnc, hg]
    simp only
    unfold withKey
    rw [hk]
  · rw [hm.vals]; rfl
  · intro a x hx t
    rcases hattr a with ⟨y, h1, h2⟩ | ⟨h1, _⟩
    · unfold attrOf
      simp only [h2, Latest.unique hr.nodup h1 hx]
    · obtain ⟨r, hr, hd⟩ := hx.present
      exact absurd hd (h1 r hr)
  · intro a x hx
    rcases hattr a with ⟨y, h1, h2⟩ | ⟨_, h2⟩
    · rw [h2] at hx
      injection hx with hx
      rw [← hx]
      exact h1
    · rw [h2] at hx
      cases hx

/-- C80: without such a row a `ValueError` is raised. -/
theorem C80_none {h : Host σ} {v : PyVal} {cat k0 : Str} {ks : List Str} {sets : List (List PyVal)} {c : PyVal} {nc : Bool} {s s' : σ}
    (hcat : dget h.keys cat = some sets) (hs : sets.map List.head? = (k0 :: ks).map fun k => some (.str k))
    (hc : h.dic.attrI k0 "_type.contents".toList = .ok c) (hnc : nc = true ↔ Caseless c)
    (hr : Rows h v nc (k0 :: ks) s [] s') : keyedSemantic h v cat s = (s', .error .value) := by
  obtain ⟨p, hg, hm⟩ := gather_ok hr (by simp) {} none
  have hattr := hm.attr hr.low
  rw [semantic_gather hcat hs hc hnc, hg]
  simp only
  unfold withKey
  have : ((k0 :: ks).map PyVal.str).find? (hasAttr p) = none := by
    rw [List.find?_eq_none]
    intro x hx
    obtain ⟨k, _, rfl⟩ := List.mem_map.1 hx
    unfold hasAttr
    rcases hattr k with ⟨x, h1, _⟩ | ⟨_, h2⟩
    · obtain ⟨r, hr, _⟩ := h1.present
      cases hr
    · simp [h2]
  rw [this]

/-- C80: the loops of a block whose values are not to be provided (or that has no dictionary) are tables in the sense of C80: their columns are as they are
stored. -/
theorem C80_tables {E : Derive.Engine} {n : Nat} {keys : Dict Str (List (List PyVal))} {equivs : Dict Str (List Str)} {st : Derive.St}
    (hr : Reachable st.block) (hrect : st.block.Rect) (hp : st.provide = false) {i : Nat} {names : List Str} (hn : dget st.block.loops i = some names) :
    ∃ cols len, Table (ofEngine E n keys equivs) st names cols len ∧ ∀ d ∈ names, st.block.column d = some (cols d) := by
  obtain ⟨cols, len, hcol, hget, hl, hlow, hnd⟩ := loop_facts hr hrect hn
  refine ⟨cols, len, ⟨hr, ⟨i, hn⟩, ?_, hl⟩, hcol⟩
  intro d hd
  have hg := hget d hd
  have hs : d ≠ saves := by
    rintro rfl
    exact reachable_nosaves hr ((reachable_wf hr).2 _ (mem_allLooped.mpr ⟨i, names, dget_mem hn, hd⟩))
  unfold Block.getItem at hg
  rw [if_neg hs] at hg
  cases hf : st.block.getFullItemValue d with
  | error e => rw [hf] at hg; cases hg
  | ok p =>
    rw [hf] at hg
    obtain ⟨raw, b⟩ := p
    simp only [Except.ok.injEq] at hg
    subst hg
    unfold ofEngine
    simp only
    rw [Derive.C66_stored hs hf (.inr (.inr hp))]

/-! ## C81 -/

theorem keyDict_ok {p : Packet} {kv : Str → PyVal} : ∀ (ks : List Str) (acc : Dict Str (PyVal × Bool)), (∀ k ∈ ks, p.attr k = .ok (kv k)) → ks.Nodup →
    (∀ k ∈ ks, k ∉ dkeys acc) → keyDict p ks acc = .ok (acc ++ ks.map fun k => (k, kv k, true))
  | [], acc, _, _, _ => by simp [keyDict]
  | k :: r, acc, h, hn, ha => by
    rw [List.nodup_cons] at hn
    simp only [keyDict, h k (by simp)]
    rw [dset_of_not_mem _ _ _ (ha k (by simp)), keyDict_ok r _ (fun k hk => h k (by simp [hk])) hn.2 ?_]
    · simp
    · intro k' hk' hmem
      simp only [dkeys, List.map_append, List.map_cons, List.map_nil, List.mem_append, List.mem_cons, List.not_mem_nil, or_false] at hmem
      rcases hmem with hmem | rfl
      · exact ha k' (by simp [hk']) hmem
      · exact hn.1 hk'

/-- C81: an attribute that a packet does not have is derived, and is then the value in the row with the key of the packet.
Missing: rows whose keys differ from those of another row in case only (`C81_caseless_fails`). -/
theorem C81_derived_partial {h : Host σ} {q : SemPacket} {name : Str} {kv : Str → PyVal} {s s1 : σ} {v : PyVal} {e : PyErr} {names : List Str}
    {cols : Str → List PyVal} {len i : Nat}
    (hno : q.packet.attr name = .error e) (hn : name ∉ ["cif_dictionary", "fulldata", "key"].map String.toList)
    (hd : h.derive name s = (s1, .ok v)) (hkey : ∀ k ∈ q.key, q.packet.attr k = .ok (kv k)) (hnd : q.key.Nodup)
    (hT : KeyedTable h s1 (q.key.map fun k => (k, kv k, true)) names cols len) (hin : lower name ∈ names)
    (hi : Hit cols (q.key.map fun k => (k, kv k, true)) i) (hu : ∀ j, Hit cols (q.key.map fun k => (k, kv k, true)) j → j = i) :
    ∃ x, (cols (lower name))[i]? = some x ∧ attrOf h q name s = (s1, .ok x) := by
  obtain ⟨L, e1, hL⟩ := compound_table hT
  obtain ⟨k0, hk0⟩ := List.exists_mem_of_ne_nil _ hT.some_key
  obtain ⟨x0, hx0, _⟩ := hi k0 hk0
  have hlt : i < len := by
    rw [← hT.table.length _ (hT.keys _ hk0)]
    exact (List.getElem?_eq_some_iff.1 hx0).1
  have hrow := rowAt_row hT.table.length hlt hT.table.names.2
  have hone := (hL (packetOf (rowAt cols names i))).2 ⟨i, hi, hu, _, hrow, rfl⟩
  obtain ⟨x, h1, h2⟩ := row_attr hrow hT.table.names.2 hT.table.names.1 hin
  refine ⟨x, h1, ?_⟩
  have hkd := keyDict_ok (p := q.packet) q.key [] hkey hnd (by simp [dkeys])
  rw [List.nil_append] at hkd
  unfold attrOf
  rw [show own = ["cif_dictionary", "fulldata", "key"].map String.toList from rfl]
  simp only [hno, if_neg hn, hd, hkd, e1, only_ok.2 hone, h2]

/-- C81: what is raised while it is derived is raised for the attribute. -/
theorem C81_underivable {h : Host σ} {q : SemPacket} {name : Str} {s s1 : σ} {e x : PyErr}
    (hno : q.packet.attr name = .error e) (hn : name ∉ ["cif_dictionary", "fulldata", "key"].map String.toList)
    (hd : h.derive name s = (s1, .error x)) : attrOf h q name s = (s1, .error x) := by
  unfold attrOf
  rw [show own = ["cif_dictionary", "fulldata", "key"].map String.toList from rfl]
  simp only [hno, if_neg hn, hd]

/-! ## C82 -/

theorem findKey_iff {h : Host σ} {s : σ} {k t : Str} : findKey h s k = some t ↔ StandsFor h s k t := by
  unfold findKey StandsFor
  rw [List.find?_eq_some_iff_append]
  constructor
  · rintro ⟨h1, pre, post, h2, h3⟩
    refine ⟨pre, post, ?_, h1, fun x hx => by simpa using h3 x hx⟩
    cases hd : dget h.equivs k with
    | none => rw [hd] at h2; exact .inr ⟨dget_eq_none.1 hd, h2⟩
    | some l => rw [hd] at h2; exact .inl ⟨l, rfl, h2⟩
  · rintro ⟨pre, post, h2, h1, h3⟩
    refine ⟨h1, pre, post, ?_, fun x hx => by simpa using h3 x hx⟩
    rcases h2 with ⟨l, hd, h2⟩ | ⟨hd, h2⟩
    · rw [hd]; exact h2
    · rw [dget_eq_none.2 hd]; exact h2

theorem found_map {h : Host σ} {s : σ} {t : Str → Str} : ∀ ks : List Str, (∀ k ∈ ks, StandsFor h s k (t k)) → ks.filterMap (findKey h s) = ks.map t
  | [], _ => rfl
  | k :: r, hs => by
    rw [List.filterMap_cons, findKey_iff.2 (hs k (by simp))]
    simp only [List.map_cons, found_map r fun k hk => hs k (by simp [hk])]

theorem texts_ok (ks : List Str) : mapE asText (ks.map .str) = .ok ks := by
  induction ks with
  | nil => rfl
  | cons k r ih => simp only [List.map_cons, mapE, asText, ih]

theorem trueDict_ok {kd : Dict Str (PyVal × Bool)} {t : Str → Str} {w : Str → PyVal × Bool} : ∀ (ks : List Str) (acc : Dict Str (PyVal × Bool)),
    (∀ k ∈ ks, dget kd k = some (w k)) → (ks.map t).Nodup → (∀ k ∈ ks, t k ∉ dkeys acc) →
    trueDict kd ((ks.map t).zip ks) acc = .ok (acc ++ ks.map fun k => (t k, w k))
  | [], acc, _, _, _ => by simp [trueDict]
  | k :: r, acc, h, hn, ha => by
    rw [List.map_cons, List.nodup_cons] at hn
    simp only [List.map_cons, List.zip_cons_cons, trueDict, h k (by simp)]
    rw [dset_of_not_mem _ _ _ (ha k (by simp)), trueDict_ok r _ (fun k hk => h k (by simp [hk])) hn.2 ?_]
    · simp
    · intro k' hk' hmem
      simp only [dkeys, List.map_append, List.map_cons, List.map_nil, List.mem_append, List.mem_cons, List.not_mem_nil, or_false] at hmem
      rcases hmem with hmem | hmem
      · exact ha k' (by simp [hk']) hmem
      · exact hn.1 (hmem ▸ List.mem_map.2 ⟨k', hk', rfl⟩)

theorem trueDict_error {kd : Dict Str (PyVal × Bool)} : ∀ (l : List (Str × Str)) (acc : Dict Str (PyVal × Bool)),
    (∃ p ∈ l, p.2 ∉ dkeys kd) → trueDict kd l acc = .error .key
  | [], _, h => by obtain ⟨p, hp, _⟩ := h; cases hp
  | (t, k) :: r, acc, h => by
    unfold trueDict
    cases hg : dget kd k with
    | none => rfl
    | some v =>
      simp only
      apply trueDict_error
      obtain ⟨p, hp, hk⟩ := h
      rcases List.mem_cons.1 hp with rfl | hp
      · exact absurd hg (by rw [dget_eq_none.2 hk]; nofun)
      · exact ⟨p, hp, hk⟩

/-- C82: for a category with one set of keys the packet is the row with the given values of the keys (or of what stands for them in the block).
Missing: categories with nested looped categories (`C82_nested_fails`), and that it is an error if there is no such row
(`C82_none_fails`). -/
theorem C82_packet_partial {h : Host σ} {kd : Dict Str (PyVal × Bool)} {cat : Str} {ks : List Str} {t : Str → Str} {w : Str → PyVal × Bool} {s : σ}
    {names : List Str} {cols : Str → List PyVal} {len i : Nat} {row : List (Str × PyVal)}
    (hcat : dget h.keys cat = some [ks.map .str]) (ht : ∀ k ∈ ks, StandsFor h s k (t k)) (hnd : (ks.map t).Nodup)
    (hw : ∀ k ∈ ks, dget kd k = some (w k)) (hT : KeyedTable h s (ks.map fun k => (t k, w k)) names cols len)
    (hi : Hit cols (ks.map fun k => (t k, w k)) i) (hu : ∀ j, Hit cols (ks.map fun k => (t k, w k)) j → j = i)
    (hrow : IsRow names cols i row) (hp : ∀ d ∈ names, PlainName d) :
    ∃ q, multiSemantic h kd cat s = (s, .ok q) ∧ q.packet.vals = row.map (·.2) ∧ q.key = ks.map t ∧
      (∀ d x, (d, x) ∈ row → ∀ a, lower a = d → ∀ s', attrOf h q a s' = (s', .ok x)) ∧
      ∀ a x, q.packet.attr a = .ok x → (lower a, x) ∈ row := by
  obtain ⟨L, e1, hL⟩ := compound_table hT
  have hone := (hL (packetOf row)).2 ⟨i, hi, hu, _, hrow, rfl⟩
  obtain ⟨p', e2, h1, h2⟩ := merge_row (row := row) (by rw [hrow.1]; exact hp) {}
  have hm : Merged [row] {} p' := .cons h1 h2 (.nil p')
  have hlow : ∀ r ∈ [row], ∀ d ∈ r.map (·.1), lower d = d := by
    intro r hr
    rw [List.mem_singleton.1 hr, hrow.1]
    exact hT.table.names.1
  have hattr := hm.attr hlow
  have latest : ∀ {d x}, Latest [row] d x → (d, x) ∈ row := by
    intro d x hx
    rcases hx.snoc with hx | ⟨hx, _⟩
    · obtain ⟨r, hr, _⟩ := hx.present
      cases hr
    · exact hx
  refine ⟨⟨p', ks.map t⟩, ?_, ?_, rfl, ?_, ?_⟩
  · have htd := trueDict_ok (t := t) ks [] hw hnd (by simp [dkeys])
    rw [List.nil_append] at htd
    unfold multiSemantic
    simp only [hcat, gatherMulti, texts_ok, found_map ks ht, List.length_map, if_true, htd, e1, only_ok.2 hone, e2]
  · rw [h1]; simp
  · intro d x hx a ha s'
    subst ha
    rcases hattr a with ⟨y, g1, g2⟩ | ⟨g1, _⟩
    · unfold attrOf
      simp only [g2]
      have hn : (row.map (·.1)).Nodup := by rw [hrow.1]; exact hT.table.names.2
      have e3 := dget_of_mem hn (latest g1)
      have e4 := dget_of_mem hn hx
      rw [e3] at e4
      injection e4 with e4
      rw [e4]
    · exact absurd (List.mem_map.2 ⟨_, hx, rfl⟩) (g1 row (by simp))
  · intro a x hx
    rcases hattr a with ⟨y, g1, g2⟩ | ⟨_, g2⟩
    · rw [g2] at hx
      injection hx with hx
      rw [← hx]
      exact latest g1
    · rw [g2] at hx
      cases hx

/-- Where C82 fails: without such a row, or with several, there is no error but an empty packet. -/
theorem C82_none_fails {h : Host σ} {kd : Dict Str (PyVal × Bool)} {cat : Str} {ks : List Str} {t : Str → Str} {w : Str → PyVal × Bool} {s : σ}
    {names : List Str} {cols : Str → List PyVal} {len : Nat}
    (hcat : dget h.keys cat = some [ks.map .str]) (ht : ∀ k ∈ ks, StandsFor h s k (t k)) (hnd : (ks.map t).Nodup)
    (hw : ∀ k ∈ ks, dget kd k = some (w k)) (hT : KeyedTable h s (ks.map fun k => (t k, w k)) names cols len)
    (hno : ¬ ∃ i, Hit cols (ks.map fun k => (t k, w k)) i ∧ ∀ j, Hit cols (ks.map fun k => (t k, w k)) j → j = i) :
    multiSemantic h kd cat s = (s, .ok { packet := {}, key := ks.map t }) := by
  obtain ⟨L, e1, hL⟩ := compound_table hT
  have hone : only L = .error .value := only_error fun p hp => by
    obtain ⟨i, h1, h2, _⟩ := (hL p).1 hp
    exact hno ⟨i, h1, h2⟩
  have htd := trueDict_ok (t := t) ks [] hw hnd (by simp [dkeys])
  rw [List.nil_append] at htd
  unfold multiSemantic
  simp only [hcat, gatherMulti, texts_ok, found_map ks ht, List.length_map, if_true, htd, e1, hone]

theorem readAll_state {h : Host σ} {s : σ} (hr : ∀ d, (h.read d s).1 = s) : ∀ names : List Str, (readAll h names s).1 = s
  | [] => rfl
  | d :: ds => by
    unfold readAll
    have h1 := hr d
    have h2 := readAll_state hr ds
    rcases hd : h.read d s with ⟨s1, v⟩
    rw [hd] at h1
    simp only at h1
    subst h1
    cases v with
    | error e => rfl
    | ok v =>
      simp only
      rcases hx : readAll h ds s1 with ⟨s2, u⟩
      rw [hx] at h2
      cases u with
      | error e => exact h2
      | ok u => exact h2

theorem packets_state {h : Host σ} {s : σ} (hr : ∀ d, (h.read d s).1 = s) (n : Nat) : (packets h n s).1 = s := by
  unfold packets
  cases dget (h.block s).loops n with
  | none => rfl
  | some names =>
    simp only
    have h2 := readAll_state hr names
    rcases hx : readAll h names s with ⟨s2, u⟩
    rw [hx] at h2
    cases u with
    | error e => exact h2
    | ok u =>
      simp only
      cases mapE pyIter u with
      | error e => exact h2
      | ok u => exact h2

theorem compound_state {h : Host σ} {s : σ} (hr : ∀ d, (h.read d s).1 = s) (kd : List (Str × PyVal × Bool)) : (compoundPacket h kd s).1 = s := by
  unfold compoundPacket
  cases kd with
  | nil => rfl
  | cons e kd =>
    obtain ⟨k, v, nc⟩ := e
    simp only
    cases (h.block s).getLoop k with
    | error e => rfl
    | ok n =>
      simp only
      have h2 := packets_state hr n
      rcases hx : packets h n s with ⟨s2, u⟩
      rw [hx] at h2
      cases u with
      | error e => exact h2
      | ok u =>
        simp only
        split <;> exact h2

theorem gatherMulti_error {h : Host σ} {s : σ} (hr : ∀ d, (h.read d s).1 = s) {kd : Dict Str (PyVal × Bool)} {ks : List Str} {t : Str → Str}
    (ht : ∀ k ∈ ks, StandsFor h s k (t k)) (hk : ∃ k ∈ ks, k ∉ dkeys kd) :
    ∀ (sets : List (List PyVal)) (p : Packet) (last : Option (List Str)), ks.map PyVal.str ∈ sets → ∃ e s', gatherMulti h kd sets p last s = (s', .error e)
  | [], _, _, hm => nomatch hm
  | set :: r, p, last, hm => by
    rw [List.mem_cons] at hm
    by_cases he : ks.map PyVal.str = set
    · subst he
      unfold gatherMulti
      have : trueDict kd ((ks.map t).zip ks) [] = .error .key := by
        apply trueDict_error
        obtain ⟨k, h1, h2⟩ := hk
        refine ⟨(t k, k), ?_, h2⟩
        have : ((ks.map t).zip ks) = ks.map fun k => (t k, k) := by
          clear ht h1 h2 hm
          induction ks with
          | nil => rfl
          | cons a r ih => simp [ih]
        rw [this]
        exact List.mem_map.2 ⟨k, h1, rfl⟩
      simp only [texts_ok, found_map ks ht, List.length_map, if_true, this]
      exact ⟨_, _, rfl⟩
    · have hm' := hm.resolve_left he
      unfold gatherMulti
      cases mapE asText set with
      | error e => exact ⟨e, s, rfl⟩
      | ok names =>
        simp only
        split
        · cases trueDict kd ((names.filterMap (findKey h s)).zip names) [] with
          | error e => exact ⟨e, s, rfl⟩
          | ok td =>
            simp only
            have hc := compound_state hr td
            rcases hx : compoundPacket h td s with ⟨s1, u⟩
            rw [hx] at hc
            simp only at hc
            subst hc
            split
            · rename_i h1; cases h1; exact gatherMulti_error hr ht hk r p _ hm'
            · rename_i h1; cases h1; exact gatherMulti_error hr ht hk r p _ hm'
            · rename_i e' _ _ h1; cases h1; exact ⟨_, _, rfl⟩
            · rename_i h1
              cases h1
              split
              · exact ⟨_, _, rfl⟩
              · exact gatherMulti_error hr ht hk r _ _ hm'
        · exact gatherMulti_error hr ht hk r p _ hm'

/-- Where C82 fails: as soon as one of the categories nested in it has something for all its keys in the block, but one of the keys itself
is not among those given, there is no packet at all. -/
theorem C82_nested_fails {h : Host σ} {kd : Dict Str (PyVal × Bool)} {cat : Str} {sets : List (List PyVal)} {ks : List Str} {t : Str → Str} {s : σ}
    (hr : ∀ d, (h.read d s).1 = s) (hcat : dget h.keys cat = some sets) (hks : ks.map .str ∈ sets) (ht : ∀ k ∈ ks, StandsFor h s k (t k))
    (hk : ∃ k ∈ ks, k ∉ dkeys kd) : ∃ e, (multiSemantic h kd cat s).2 = .error e := by
  obtain ⟨e, s', he⟩ := gatherMulti_error hr ht hk sets {} none hks
  refine ⟨e, ?_⟩
  unfold multiSemantic
  simp only [hcat, he]

end Verif.SemPacket
