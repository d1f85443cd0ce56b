import Verif.Lemmas.ReadEndsBlocks
import Verif.Lemmas.LooseColl
import Verif.Lemmas.CollectionOps
import Verif.Lemmas.Match
import Verif.Spec.ReadEnds
/-! # What reading a text does to collections, and how it ends -/
set_option linter.unusedSectionVars false

namespace Verif

/-! ## Headings -/

theorem mem_many_cls {p : Char → Bool} : ∀ (n : Nat) (s : Str) (k : Nat), k ∈ Rx.many (Rx.lens (.cls p)) n s →
    ∃ w t, s = w ++ t ∧ w.length = k ∧ ∀ c ∈ w, p c = true
  | 0, s, k, h => by
    simp only [Rx.many, List.mem_singleton] at h
    exact ⟨[], s, rfl, by simp [h], by simp⟩
  | n + 1, s, k, h => by
    simp only [Rx.many, List.mem_append, List.mem_flatMap, List.mem_filter, List.mem_map, List.mem_singleton] at h
    rcases h with ⟨i, ⟨hi, _⟩, j, hj, rfl⟩ | rfl
    · have := cls_pos hi
      subst this
      cases s with
      | nil => simp [Rx.lens] at hi
      | cons c t =>
        have hc : p c = true := by
          simp only [Rx.lens] at hi
          split at hi
          · assumption
          · simp at hi
        obtain ⟨w, t', h1, h2, h3⟩ := mem_many_cls n _ _ hj
        simp only [List.drop_succ_cons, List.drop_zero] at h1
        refine ⟨c :: w, t', by simp [h1], by simp [h2]; omega, ?_⟩
        intro x hx
        rcases List.mem_cons.mp hx with rfl | hx
        · exact hc
        · exact h3 x hx
    · exact ⟨[], s, rfl, rfl, by simp⟩

theorem mem_plus_cls {p : Char → Bool} {s : Str} {k : Nat} (h : k ∈ Rx.lens (Rx.plus (.cls p)) s) :
    ∃ w t, s = w ++ t ∧ w.length = k ∧ w ≠ [] ∧ ∀ c ∈ w, p c = true := by
  obtain ⟨i, j, hi, hj, rfl⟩ := Rx.mem_seq h
  have := cls_pos hi
  subst this
  cases s with
  | nil => simp [Rx.lens] at hi
  | cons c t =>
    have hc : p c = true := by
      simp only [Rx.lens] at hi
      split at hi
      · assumption
      · simp at hi
    simp only [Rx.lens, List.drop_succ_cons, List.drop_zero] at hj
    obtain ⟨w, t', h1, h2, h3⟩ := mem_many_cls _ _ _ hj
    refine ⟨c :: w, t', by simp [h1], by simp [h2]; omega, by simp, ?_⟩
    intro x hx
    rcases List.mem_cons.mp hx with rfl | hx
    · exact hc
    · exact h3 x hx

theorem mem_saveWord {s : Str} {k : Nat} (h : k ∈ Rx.lens Pat.saveWord s) :
    k = 5 ∧ ∃ w t, s = w ++ t ∧ w.length = 5 ∧ asciiLower w = "save_".toList := by
  obtain ⟨i1, j1, hi1, hj1, q1⟩ := Rx.mem_seq h
  obtain ⟨rfl, c1, t1, rfl, e1⟩ := Rx.mem_letter hi1
  obtain ⟨i2, j2, hi2, hj2, q2⟩ := Rx.mem_seq hj1
  obtain ⟨rfl, c2, t2, rfl, e2⟩ := Rx.mem_letter hi2
  obtain ⟨i3, j3, hi3, hj3, q3⟩ := Rx.mem_seq hj2
  obtain ⟨rfl, c3, t3, rfl, e3⟩ := Rx.mem_letter hi3
  obtain ⟨i4, j4, hi4, hj4, q4⟩ := Rx.mem_seq hj3
  obtain ⟨rfl, c4, t4, rfl, e4⟩ := Rx.mem_letter hi4
  obtain ⟨rfl, t5, rfl⟩ := Rx.mem_ch hj4
  refine ⟨by omega, [c1, c2, c3, c4, '_'], t5, rfl, rfl, ?_⟩
  rcases e1 with rfl | rfl <;> rcases e2 with rfl | rfl <;> rcases e3 with rfl | rfl <;> rcases e4 with rfl | rfl <;> decide

theorem mem_dataWord {s : Str} {k : Nat} (h : k ∈ Rx.lens Pat.dataWord s) :
    k = 5 ∧ ∃ w t, s = w ++ t ∧ w.length = 5 ∧ asciiLower w = "data_".toList := by
  obtain ⟨i1, j1, hi1, hj1, q1⟩ := Rx.mem_seq h
  obtain ⟨rfl, c1, t1, rfl, e1⟩ := Rx.mem_letter hi1
  obtain ⟨i2, j2, hi2, hj2, q2⟩ := Rx.mem_seq hj1
  obtain ⟨rfl, c2, t2, rfl, e2⟩ := Rx.mem_letter hi2
  obtain ⟨i3, j3, hi3, hj3, q3⟩ := Rx.mem_seq hj2
  obtain ⟨rfl, c3, t3, rfl, e3⟩ := Rx.mem_letter hi3
  obtain ⟨i4, j4, hi4, hj4, q4⟩ := Rx.mem_seq hj3
  obtain ⟨rfl, c4, t4, rfl, e4⟩ := Rx.mem_letter hi4
  obtain ⟨rfl, t5, rfl⟩ := Rx.mem_ch hj4
  refine ⟨by omega, [c1, c2, c3, c4, '_'], t5, rfl, rfl, ?_⟩
  rcases e1 with rfl | rfl <;> rcases e2 with rfl | rfl <;> rcases e3 with rfl | rfl <;> rcases e4 with rfl | rfl <;> decide

/-- A character class without blanks and line ends. -/
def NoBlank (p : Char → Bool) : Prop := p ' ' = false ∧ p '\t' = false ∧ p '\n' = false ∧ p '\r' = false

theorem heads_of_match {word : Str} {W : Rx} {p : Char → Bool} (hW : ∀ s k, k ∈ Rx.lens W s → k = 5 ∧ ∃ w t, s = w ++ t ∧ w.length = 5 ∧ asciiLower w = word)
    (hp : NoBlank p) {input : Str} {pos k : Nat} (h : (Rx.seq W (Rx.plus (.cls p))).pattern input pos = some k) :
    Heads word input ((Scanner.slice input pos (pos + k)).drop 5) := by
  obtain ⟨i, j, hi, hj, rfl⟩ := Rx.mem_seq (Rx.mem_of_matchLen h)
  obtain ⟨rfl, w, t, hs, hl, hw⟩ := hW _ _ hi
  rw [hs, List.drop_left' hl] at hj
  obtain ⟨n, t', rfl, hn, hne, hc⟩ := mem_plus_cls hj
  have hsl : Scanner.slice input pos (pos + (5 + j)) = w ++ n := by
    unfold Scanner.slice
    rw [List.drop_take, hs, show pos + (5 + j) - pos = 5 + j by omega, ← List.append_assoc]
    exact List.take_left' (by simp [hl, hn])
  rw [hsl, List.drop_left' hl]
  refine ⟨input.take pos, w, t', ?_, hw, hne, ?_⟩
  · rw [List.append_assoc, List.append_assoc, ← hs, List.take_append_drop]
  · intro c hcm
    have := hc c hcm
    refine ⟨?_, ?_, ?_, ?_⟩ <;> rintro rfl
    · rw [hp.1] at this; cases this
    · rw [hp.2.1] at this; cases this
    · rw [hp.2.2.1] at this; cases this
    · rw [hp.2.2.2] at this; cases this

namespace Reader

/-- The headings of a grammar. -/
structure HeadOk (g : Gram) : Prop where
  save : ∀ input x, Matched g.lx input .saveHeading x → Heads "save_".toList input (x.drop 5)
  data : ∀ input x, Matched g.lx input .dataHeading x → Heads "data_".toList input (x.drop 5)

theorem heads_table {t : Pat.Table} {ty : Tk} {word : Str} {W : Rx} {p : Char → Bool}
    (hW : ∀ s k, k ∈ Rx.lens W s → k = 5 ∧ ∃ w t, s = w ++ t ∧ w.length = 5 ∧ asciiLower w = word) (hp : NoBlank p)
    (ht : ∀ r, (ty, r) ∈ t → r = Rx.seq W (Rx.plus (.cls p))) {input x : Str} (h : Matched (Pat.lexer t) input ty x) :
    Heads word input (x.drop 5) := by
  obtain ⟨f, pos, k, hm, hf, rfl⟩ := h
  simp only [Pat.lexer, List.mem_map, Prod.mk.injEq] at hm
  obtain ⟨⟨ty', r⟩, hr, rfl, rfl⟩ := hm
  rw [ht r hr] at hf
  exact heads_of_match hW hp hf

theorem noBlank1 : NoBlank Pat.nameChar1 := by unfold NoBlank; decide
theorem noBlank2 : NoBlank Pat.nameChar2 := by unfold NoBlank; decide

theorem head_table1 (f : Char → Bool) {input x : Str} :
    (Matched (Pat.lexer (Pat.table1 f)) input .saveHeading x → Heads "save_".toList input (x.drop 5)) ∧
    (Matched (Pat.lexer (Pat.table1 f)) input .dataHeading x → Heads "data_".toList input (x.drop 5)) := by
  refine ⟨heads_table (fun s k => mem_saveWord) noBlank1 ?_, heads_table (fun s k => mem_dataWord) noBlank1 ?_⟩
  · intro r hr
    simpa [Pat.table1] using hr
  · intro r hr
    simpa [Pat.table1] using hr

theorem head_table2 (b : Bool) {input x : Str} :
    (Matched (Pat.lexer (Pat.table2 b)) input .saveHeading x → Heads "save_".toList input (x.drop 5)) ∧
    (Matched (Pat.lexer (Pat.table2 b)) input .dataHeading x → Heads "data_".toList input (x.drop 5)) := by
  refine ⟨heads_table (fun s k => mem_saveWord) noBlank2 ?_, heads_table (fun s k => mem_dataWord) noBlank2 ?_⟩
  · intro r hr
    cases b <;> simpa [Pat.table2] using hr
  · intro r hr
    cases b <;> simpa [Pat.table2] using hr

theorem gram11_head : HeadOk gram11 := ⟨fun _ _ => (head_table1 _).1, fun _ _ => (head_table1 _).2⟩
theorem gram10_head : HeadOk gram10 := ⟨fun _ _ => (head_table1 _).1, fun _ _ => (head_table1 _).2⟩
theorem gram20_head : HeadOk gram20 := ⟨fun _ _ => (head_table2 _).1, fun _ _ => (head_table2 _).2⟩
theorem gramStar2_head : HeadOk gramStar2 := ⟨fun _ _ => (head_table2 _).1, fun _ _ => (head_table2 _).2⟩

variable [CaseFold]
open Coll

/-! ## Items and loops -/

theorem addItem_pre (b : Block) (n : Str) (v : PyVal) :
    (∃ b', b.addItem n v true = (b', .error .star)) ∨ b.addItem n v true = (b.store n (v, .none), .ok ()) := by
  unfold Block.addItem Block.addItemCheck
  simp only [if_true]
  cases b.contains n && !b.overwrite <;> simp

theorem everyFrom_sub {α : Type} (step : Nat) : ∀ (l : List α) (skip : Nat), ∀ x ∈ everyFrom step skip l, x ∈ l
  | [], _, x, h => by simp [everyFrom] at h
  | a :: r, 0, x, h => by
    simp only [everyFrom, List.mem_cons] at h ⊢
    exact h.imp id (everyFrom_sub step r _ x)
  | a :: r, skip + 1, x, h => by
    simp only [everyFrom] at h
    exact List.mem_cons_of_mem _ (everyFrom_sub step r _ x h)

/-- An item holds a column without `None`. -/
def HasColumn (b : Block) (n : Str) : Prop := ∃ col, dget b.block (lower n) = some (.list col, .none) ∧ notNoneAll col = true

theorem HasColumn.store {b : Block} {n m : Str} {col : List PyVal} (h : HasColumn b n) (hc : notNoneAll col = true) :
    HasColumn (b.store m (.list col, .none)) n := by
  obtain ⟨c, h1, h2⟩ := h
  unfold HasColumn Block.store
  simp only
  rw [dget_dset]
  split
  · exact ⟨col, rfl, hc⟩
  · exact ⟨c, h1, h2⟩

theorem addColumns_ends {step : Nat} {vals : List PyVal} (hv : notNoneAll vals = true) : ∀ (ns : List Str) (b : Block) (col : Nat) (don : List Str),
    (∀ n ∈ don, HasColumn b n) →
    (∃ b', addColumns step vals b col ns = (b', .error .star)) ∨
      ∃ b', addColumns step vals b col ns = (b', .ok ()) ∧ ∀ n ∈ don ++ ns, HasColumn b' n
  | [], b, col, don, h => .inr ⟨b, rfl, by simpa using h⟩
  | n :: r, b, col, don, h => by
    unfold addColumns
    rcases addItem_pre b n (.list (everyFrom step col vals)) with ⟨b', e⟩ | e
    · rw [e]; exact .inl ⟨b', rfl⟩
    · rw [e]
      simp only
      have hc : notNoneAll (everyFrom step col vals) = true := by
        rw [notNoneAll_iff] at hv ⊢
        exact fun x hx => hv x (everyFrom_sub _ _ _ x hx)
      have := addColumns_ends (step := step) hv r (b.store n (.list (everyFrom step col vals), .none)) (col + 1) (don ++ [n]) (by
        intro m hm
        rcases List.mem_append.mp hm with hm | hm
        · exact (h m hm).store hc
        · rw [List.mem_singleton.mp hm]
          refine ⟨_, ?_, hc⟩
          unfold Block.store
          simp only
          rw [dget_dset_self])
      simpa using this

theorem getAll_columns {b : Block} : ∀ {ns : List Str}, (∀ n ∈ ns, HasColumn b n) →
    b.getAll ns = .error .star ∨ ∃ vs, b.getAll ns = .ok vs ∧ vs.length = ns.length ∧ ∀ v ∈ vs, v.isColumn = true
  | [], _ => .inr ⟨[], rfl, rfl, by simp⟩
  | n :: r, h => by
    unfold Block.getAll Block.getItem
    by_cases hsv : n = Block.saves
    · rw [if_pos hsv]; exact .inl rfl
    · rw [if_neg hsv]
      obtain ⟨col, h1, h2⟩ := h n (by simp)
      have : b.getFullItemValue n = .ok (.list col, false) := by
        unfold Block.getFullItemValue
        simp [h1, notNone, h2]
      rw [this]
      simp only
      rcases getAll_columns (ns := r) (fun m hm => h m (by simp [hm])) with e | ⟨vs, e, hl, hc⟩
      · rw [e]; exact .inl rfl
      · rw [e]
        refine .inr ⟨_, rfl, by simp [hl], ?_⟩
        intro v hv
        rcases List.mem_cons.mp hv with rfl | hv
        · rfl
        · exact hc v hv

theorem dropEmpty_value : ∀ (l : List Nat) (b : Block), (∃ b', b.dropEmpty l = (b', .error .value)) ∨ ∃ b', b.dropEmpty l = (b', .ok ())
  | [], b => .inr ⟨b, rfl⟩
  | a :: r, b => by
    unfold Block.dropEmpty
    split
    · exact .inl ⟨b, rfl⟩
    · exact dropEmpty_value r _

theorem createLoop_ends {b : Block} {ns : List Str} (h : ∀ n ∈ ns, HasColumn b n) :
    (∃ b', b.createLoop ns = (b', .error .star)) ∨ (∃ b', b.createLoop ns = (b', .error .value)) ∨ ∃ b', b.createLoop ns = (b', .ok ()) := by
  have hm : ∀ b : Block, (∃ b', b.makeLoop ns (-1) = (b', .error .value)) ∨ ∃ b', b.makeLoop ns (-1) = (b', .ok ()) := by
    intro b
    unfold Block.makeLoop
    simp only
    rcases dropEmpty_value (((Block.dropFromLoops b.loops (ns.map lower)).filter fun (p : Nat × List Str) => decide (p.2.length = 0)).map
      fun (p : Nat × List Str) => p.1) { b with loops := Block.dropFromLoops b.loops (ns.map lower) } with ⟨b', e⟩ | ⟨b', e⟩
    · rw [e]; exact .inl ⟨b', rfl⟩
    · rw [e]; exact .inr ⟨_, rfl⟩
  unfold Block.createLoop Block.createLoopCheck
  simp only [if_true]
  rcases getAll_columns h with e | ⟨vs, e, hl, hc⟩
  · rw [e]; exact .inl ⟨b, rfl⟩
  · rw [e]
    simp only
    rw [List.filter_eq_self.mpr hc, if_pos hl]
    split
    · rename_i h1
      split at h1
      · cases h1; exact .inr (.inl ⟨_, rfl⟩)
      · cases h1
    · rename_i h1
      split at h1
      · cases h1
      · cases h1
        exact .inr (hm b)

theorem makeLoop_ends {b : Block} {ns : List Str} {vals : List PyVal} (h0 : vals ≠ []) (hv : notNoneAll vals = true) :
    (∃ b', makeLoop b ns vals = (b', .error .star)) ∨ (∃ b', makeLoop b ns vals = (b', .error .value)) ∨ ∃ b', makeLoop b ns vals = (b', .ok ()) := by
  unfold makeLoop
  cases hl : vals.getLast? with
  | none => exact absurd (List.getLast?_eq_none_iff.mp hl) h0
  | some l =>
    simp only
    have hv' : notNoneAll (if l = .list [] ∨ l = .slist [] then vals.dropLast else vals) = true := by
      split
      · rw [notNoneAll_iff] at hv ⊢
        exact fun x hx => hv x (List.dropLast_subset _ hx)
      · exact hv
    rcases addColumns_ends (step := ns.length) hv' ns b 0 [] (by simp) with ⟨b', e⟩ | ⟨b', e, hc⟩
    · rw [e]; exact .inl ⟨b', rfl⟩
    · rw [e]
      exact createLoop_ends (by simpa using hc)

/-! ## Collections -/

/-- Unaffected by plus signs. -/
def PlusClosed (P : Str → Prop) : Prop := ∀ k i, P k → P (k ++ List.replicate i '+')

theorem PlusClosed.fresh {P : Str → Prop} (h : PlusClosed P) {keys : List Str} {n : Nat} {k : Str} (hk : P k) : P (freshKey keys n k) := by
  obtain ⟨m, e⟩ := freshKey_form keys n k
  rw [e]
  exact h k m hk

/-- What holds of a block collection being filled. -/
structure MakingOk (D S : Str → Prop) (m : Making) : Prop where
  loose : Loose D S m.bc
  shown : Shown m.bc
  heading : lower m.heading ∈ m.bc.lowerKeys
  key : m.key ∈ m.bc.lowerKeys

theorem setMax_star {b b' : Block} {n : Option Nat} {e : PyErr} (h : b.setMaxNameLength n = (b', .error e)) : e = .star := by
  unfold Block.setMaxNameLength at h
  cases n with
  | none => cases h
  | some n =>
    simp only at h
    split at h
    · cases h; rfl
    · cases h

theorem newBlock_makes {D S : Str → Prop} {h : Str} {bt : Block} {u : Bool} {std : Option Str} (hh : ∀ c ∈ h, c ≠ ' ' ∧ c ≠ '\t')
    (hD : D (lower h)) :
    (∃ c, ({ unicode := u, standard := std } : Coll).newBlock h bt = (c, .error .star)) ∨
    ∃ c k, ({ unicode := u, standard := std } : Coll).newBlock h bt = (c, .ok k) ∧ MakingOk D S ⟨c, h, k⟩ ∧ c.standard = std := by
  have hfix : fixName h = h := by
    unfold fixName
    conv => rhs; rw [← List.map_id h]
    apply List.map_congr_left
    intro c hc
    rw [if_neg]
    · rfl
    · rintro (e | e)
      · exact (hh c hc).1 e
      · exact (hh c hc).2 e
  unfold Coll.newBlock
  cases hp : Coll.prepare { unicode := u, standard := std } bt with
  | mk b r =>
    cases r with
    | error e =>
      simp only
      have : e = .star := by
        unfold Coll.prepare at hp
        split at hp
        · exact setMax_star hp
        · cases hp
      rw [this]
      exact .inl ⟨_, rfl⟩
    | ok x =>
      simp only
      split
      · exact .inl ⟨_, rfl⟩
      · simp only [if_true, hfix]
        rw [if_neg (by simp)]
        refine .inr ⟨_, _, rfl, ?_, rfl⟩
        refine ⟨⟨?_, ?_, ?_, ?_, ?_, ?_, ?_, ?_⟩, ?_, ?_, ?_⟩ <;>
          simp only [Coll.addBlock, dset, dkeys, List.map_cons, List.map_nil, List.nil_append, List.not_mem_nil, if_false] <;>
          simp [dget, Shown, CaseFold.lower_lower]
        exact hD

theorem mergeDups_parent {D S D' S' : Str → Prop} (hD : PlusClosed D) (hS : PlusClosed S) {nb : Coll} (hn : Loose D' S' nb) :
    ∀ (ds : List Str) (c : Coll) (p : Str), Loose D S c → Shown c → p ∈ c.lowerKeys → ds.Nodup → (∀ d ∈ ds, d ∈ c.lowerKeys) →
      (∀ d ∈ ds, d ∈ nb.lowerKeys) →
      ∃ c' p', mergeDups c nb (some p) ds = (c', nb, .ok (some p')) ∧ Loose D S c' ∧ Shown c' ∧ c'.standard = c.standard ∧
        p' ∈ c'.lowerKeys ∧ ∀ x ∈ c.lowerKeys, x ∈ c'.lowerKeys ∨ x ∈ ds
  | [], c, p, h, hs, hp, _, _, _ => ⟨c, p, rfl, h, hs, rfl, hp, fun x hx => .inl hx⟩
  | d :: ds, c, p, h, hs, hp, hnd, hc, hb => by
    obtain ⟨hd1, hd2⟩ := List.nodup_cons.mp hnd
    have hdc := hc d (by simp)
    obtain ⟨c1, e1, l1, s1, st1, k1⟩ := h.rekey hdc (hs d hdc) (freshKey_fresh c.lowerKeys d) (freshKey_lower _ _ _ (h.low d hdc))
      hD.fresh hS.fresh
    obtain ⟨ours, ho⟩ := dget_isSome.mpr ((h.table d).mpr hdc)
    obtain ⟨theirs, ht⟩ := dget_isSome.mpr ((hn.table d).mpr (hb d (by simp)))
    have estep : mergeDup c nb (some p) d = (c1, nb, .ok (some (if lower p = d then freshKey c.lowerKeys (c.lowerKeys.length + 1) d else p))) := by
      unfold mergeDup
      simp only [ho, ht]
      rw [if_pos (by right; simp)]
      simp only [e1]
    obtain ⟨c', p', e2, l2, s2, st2, hp2, hk2⟩ := mergeDups_parent hD hS hn ds c1
      (if lower p = d then freshKey c.lowerKeys (c.lowerKeys.length + 1) d else p) l1 (s1 hs) (by
        rw [k1]
        split
        · exact .inr rfl
        · rename_i hne
          rw [h.low p hp] at hne
          exact .inl ⟨hp, hne⟩) hd2 (by
        intro x hx
        rw [k1]
        exact .inl ⟨hc x (by simp [hx]), fun e => hd1 (e ▸ hx)⟩) (fun x hx => hb x (by simp [hx]))
    refine ⟨c', p', ?_, l2, s2, st2.trans st1, hp2, ?_⟩
    · unfold mergeDups
      rw [estep]
      exact e2
    · intro x hx
      by_cases e : x = d
      · exact .inr (by simp [e])
      · rcases hk2 x ((k1 x).mpr (.inl ⟨hx, e⟩)) with h | h
        · exact .inl h
        · exact .inr (List.mem_cons_of_mem _ h)

theorem mergeFrame_ends {D S : Str → Prop} (hD : PlusClosed D) (hS : PlusClosed S) {m f : Making} (hm : MakingOk D S m) (hf : MakingOk S S f) :
    (mergeFrame m f.bc = .error .notImpl ∧ m.bc.standard = none) ∨
    ∃ m', mergeFrame m f.bc = .ok m' ∧ MakingOk D S m' ∧ m'.bc.standard = m.bc.standard := by
  unfold mergeFrame
  split
  · rename_i h
    exact .inl ⟨rfl, h.1⟩
  · rename_i hno
    right
    by_cases hst : m.bc.standard = none
    · have hj := hm.loose.join hf.loose (some m.key) nofun (fun _ _ h => h) (fun _ h => h)
      unfold mergeFast
      simp only [hst, ne_eq, not_true_eq_false, and_false, if_false]
      refine ⟨_, rfl, ⟨hj.1, hj.2.1 hm.shown, (hj.2.2.2 _).mpr (.inl hm.heading), ?_⟩, hj.2.2.1.trans hst⟩
      simp only [parentKey, hst, if_true]
      exact (hj.2.2.2 _).mpr (.inl hm.key)
    · obtain ⟨c', p', e, l1, s1, st1, hp, hk⟩ := mergeDups_parent hD hS hf.loose
        (m.bc.lowerKeys.filter fun k => decide (k ∈ f.bc.lowerKeys)) m.bc m.key hm.loose hm.shown hm.key
        (List.filter_sublist.nodup hm.loose.ndK) (fun d hd => (List.mem_filter.mp hd).1)
        (fun d hd => by simpa using (List.mem_filter.mp hd).2)
      have hj := l1.join hf.loose (some p') nofun (fun _ _ h => h) (fun _ h => h)
      have hpk : parentKey m f.bc = p' := by
        unfold parentKey
        rw [if_neg hst, e]
      have hfast : m.bc.mergeFast f.bc (some m.key) = (mergeJoin c' f.bc (some p'), f.bc, .ok ()) := by
        unfold mergeFast
        simp only
        split
        · rw [e]
        · rename_i hh
          have h0 : (m.bc.lowerKeys.filter fun k => decide (k ∈ f.bc.lowerKeys)) = [] := by
            by_cases h : (m.bc.lowerKeys.filter fun k => decide (k ∈ f.bc.lowerKeys)) = []
            · exact h
            · exact absurd ⟨h, hst⟩ hh
          rw [h0] at e
          simp only [mergeDups, Prod.mk.injEq, Except.ok.injEq, Option.some.injEq, true_and] at e
          rw [e.1, e.2]
      rw [hfast]
      refine ⟨_, rfl, ⟨hj.1, hj.2.1 s1, ?_, ?_⟩, hj.2.2.1.trans st1⟩
      · rw [hj.2.2.2]
        rcases hk _ hm.heading with h | h
        · exact .inl h
        · exact .inr (by simpa using (List.mem_filter.mp h).2)
      · show parentKey m f.bc ∈ _
        rw [hpk, hj.2.2.2]
        exact .inl hp

theorem mergeDups_top {DP D S : Str → Prop} (hD : PlusClosed D) (hS : PlusClosed S) {c : Coll} (h : Loose DP (fun _ => True) c) :
    ∀ (ds : List Str) (nb : Coll), Loose D S nb → Shown nb → ds.Nodup → (∀ d ∈ ds, d ∈ c.lowerKeys) → (∀ d ∈ ds, d ∈ nb.lowerKeys) →
      (∃ c' nb' e, mergeDups c nb none ds = (c', nb', .error e) ∧ (e = .star ∨ e = .attribute ∧ ∃ k, DP k ∧ S k)) ∨
      ∃ nb', mergeDups c nb none ds = (c, nb', .ok none) ∧ Loose D S nb'
  | [], nb, hn, _, _, _, _ => .inr ⟨nb, rfl, hn⟩
  | d :: ds, nb, hn, hs, hnd, hc, hb => by
    obtain ⟨hd1, hd2⟩ := List.nodup_cons.mp hnd
    have hdc := hc d (by simp)
    have hdb := hb d (by simp)
    obtain ⟨ours, ho⟩ := dget_isSome.mpr ((h.table d).mpr hdc)
    obtain ⟨theirs, ht⟩ := dget_isSome.mpr ((hn.table d).mpr hdb)
    unfold mergeDups mergeDup
    simp only [ho, ht, ne_eq, not_true_eq_false, or_false, and_true]
    by_cases hh : ours.parent = none ∧ ¬ theirs.parent = none
    · rw [if_pos hh]
      obtain ⟨c1, e1, _⟩ := (h.weaken (D' := fun _ => True) (S' := fun _ => True) (fun _ _ => trivial) (fun _ _ => trivial)).rekey hdc
        (h.top d ours ho hh.1).1 (freshKey_fresh c.lowerKeys d) (freshKey_lower _ _ _ (h.low d hdc)) id id
      rw [e1]
      exact .inl ⟨_, _, _, rfl, .inr ⟨rfl, d, (h.top d ours ho hh.1).2, hn.sub d theirs ht hh.2⟩⟩
    · rw [if_neg hh]
      by_cases hh2 : ¬ ours.parent = none ∧ theirs.parent = none
      · rw [if_pos hh2]
        obtain ⟨nb1, e1, l1, s1, _, k1⟩ := hn.rekey hdb (hs d hdb) (freshKey_fresh nb.lowerKeys d) (freshKey_lower _ _ _ (hn.low d hdb))
          hD.fresh hS.fresh
        rw [e1]
        exact mergeDups_top hD hS h ds nb1 l1 (s1 hs) hd2 (fun x hx => hc x (by simp [hx])) (by
          intro x hx
          rw [k1]
          exact .inl ⟨hb x (by simp [hx]), fun e => hd1 (e ▸ hx)⟩)
      · rw [if_neg hh2]
        exact .inl ⟨_, _, _, rfl, .inl rfl⟩

theorem mergeFast_ends {DP D S : Str → Prop} (hD : PlusClosed D) (hS : PlusClosed S) (hDP : ∀ k, D k → DP k) {c nb : Coll}
    (h : Loose DP (fun _ => True) c) (hn : Loose D S nb) (hs : Shown nb) :
    (∃ c' nb' e, c.mergeFast nb = (c', nb', .error e) ∧ (e = .star ∨ e = .attribute ∧ ∃ k, DP k ∧ S k)) ∨
    ∃ c' nb', c.mergeFast nb = (c', nb', .ok ()) ∧ Loose DP (fun _ => True) c' ∧ c'.standard = c.standard := by
  unfold mergeFast
  simp only
  split
  · rcases mergeDups_top hD hS h (c.lowerKeys.filter fun k => decide (k ∈ nb.lowerKeys)) nb hn hs (List.filter_sublist.nodup h.ndK)
      (fun d hd => (List.mem_filter.mp hd).1) (fun d hd => by simpa using (List.mem_filter.mp hd).2) with ⟨c', nb', e, he, hh⟩ | ⟨nb', he, hl⟩
    · rw [he]; exact .inl ⟨_, _, _, rfl, hh⟩
    · rw [he]
      have hj := h.join hl none (fun _ => hDP) (fun hx => absurd rfl hx) (fun _ _ => trivial)
      exact .inr ⟨_, _, rfl, hj.1, hj.2.2.1⟩
  · have hj := h.join hn none (fun _ => hDP) (fun hx => absurd rfl hx) (fun _ _ => trivial)
    exact .inr ⟨_, _, rfl, hj.1, hj.2.2.1⟩

/-- Storing another block under a key that is there. -/
theorem setBlock_loose {D S : Str → Prop} {c : Coll} (h : Loose D S c) {k : Str} (hk : k ∈ c.lowerKeys) (b : Block) :
    Loose D S { c with dict := dset c.dict k b } :=
  ⟨h.ndT, h.ndK, fun x => by
    simp only [mem_dkeys_dset, h.dict]
    constructor
    · rintro (rfl | h)
      · exact hk
      · exact h
    · exact .inr, h.table, h.order, h.low, h.top, h.sub⟩

/-! ## The plan -/

/-- What reading a text may raise. -/
def Raises (std : Option Str) (DP S : Str → Prop) (e : PyErr) : Prop :=
  e = .syntax ∨ e = .tokens ∨ e = .value ∨ e = .star ∨ (e = .attribute ∧ ∃ k, DP k ∧ S k) ∨ (e = .notImpl ∧ std = none ∧ ∃ k, S k)

/-- The plan for a grammar. -/
def plan {g : Gram} (hg : HeadOk g) (bt : Block) (std : Option Str) (input : Str) (DP D S : Str → Prop) (hD : PlusClosed D) (hS : PlusClosed S)
    (hDP : ∀ k, D k → DP k) (hd : ∀ n, Heads "data_".toList input n → D (lower n)) (hs : ∀ n, Heads "save_".toList input n → S (lower n)) :
    Plan g bt std input (Raises std DP S) where
  BI _ := True
  FM m := MakingOk S S m ∧ m.bc.standard = some "CIF".toList
  DM m := MakingOk D S m ∧ m.bc.standard = std
  PI c := Loose DP (fun _ => True) c ∧ c.standard = std
  syn e h := h.elim .inl fun h => .inr (.inl h)
  item b n v _ _ := by
    rcases addItem_pre b n v with ⟨b', e⟩ | e
    · exact .inl ⟨b', _, e, by simp [Raises]⟩
    · exact .inr ⟨_, e, trivial⟩
  loop b ns vals _ h0 hv := by
    rcases makeLoop_ends (b := b) (ns := ns) h0 hv with ⟨b', e⟩ | ⟨b', e⟩ | ⟨b', e⟩
    · exact .inl ⟨b', _, e, by simp [Raises]⟩
    · exact .inl ⟨b', _, e, by simp [Raises]⟩
    · exact .inr ⟨b', e, trivial⟩
  frame0 x hx := by
    have hh := hg.save input x hx
    have hn := hs _ hh
    obtain ⟨_, _, _, _, _, _, hc⟩ := hh
    rcases newBlock_makes (D := S) (S := S) (bt := bt) (u := !g.byName) (std := some "CIF".toList)
      (fun c hcm => ⟨(hc c hcm).1, (hc c hcm).2.1⟩) hn with ⟨c, e⟩ | ⟨c, k, e, hm, hst⟩
    · exact .inl ⟨c, _, e, by simp [Raises]⟩
    · exact .inr ⟨c, k, e, hm, hst⟩
  frameGet m hm := by
    obtain ⟨b, hb, _⟩ := hm.1.loose.getItem hm.1.heading
    refine .inr ⟨b, hb, trivial, fun b' _ => ⟨⟨setBlock_loose hm.1.loose hm.1.heading b', hm.1.shown, hm.1.heading, hm.1.key⟩, hm.2⟩⟩
  frameMerge m f hm hf := by
    rcases mergeFrame_ends hS hS hm.1 hf.1 with ⟨_, e⟩ | ⟨m', e, h, hst⟩
    · rw [hm.2] at e; cases e
    · exact .inr ⟨m', e, h, hst.trans hm.2⟩
  data0 x hx := by
    have hh := hg.data input x hx
    have hn := hd _ hh
    obtain ⟨_, _, _, _, _, _, hc⟩ := hh
    rcases newBlock_makes (D := D) (S := S) (bt := bt) (u := true) (std := std)
      (fun c hcm => ⟨(hc c hcm).1, (hc c hcm).2.1⟩) hn with ⟨c, e⟩ | ⟨c, k, e, hm, hst⟩
    · exact .inl ⟨c, _, e, by simp [Raises]⟩
    · exact .inr ⟨c, k, e, hm, hst⟩
  dataGet m hm k hk := by
    have hin : lower k ∈ m.bc.lowerKeys := by
      rw [hk]
      split
      · exact hm.1.heading
      · rw [hm.1.loose.low _ hm.1.key]; exact hm.1.key
    obtain ⟨b, hb, _⟩ := hm.1.loose.getItem hin
    exact .inr ⟨b, hb, trivial, fun b' _ => ⟨⟨setBlock_loose hm.1.loose hin b', hm.1.shown, hm.1.heading, hm.1.key⟩, hm.2⟩⟩
  dataMerge m f hm hf := by
    rcases mergeFrame_ends hD hS hm.1 hf.1 with ⟨e1, e⟩ | ⟨m', e, h, hst⟩
    · refine .inl ⟨_, e1, ?_⟩
      obtain ⟨pc, hpc⟩ := dget_isSome.mpr ((hf.1.loose.table _).mpr hf.1.key)
      have : S f.key := by
        by_cases hp : pc.parent = none
        · exact (hf.1.loose.top _ pc hpc hp).2
        · exact hf.1.loose.sub _ pc hpc hp
      exact .inr (.inr (.inr (.inr (.inr ⟨rfl, hm.2 ▸ e, _, this⟩))))
    · exact .inr ⟨m', e, h, hst.trans hm.2⟩
  dataEnd b _ b' e h := by
    rw [setMax_star h]
    simp [Raises]
  merge c m hc hm hst := by
    rcases mergeFast_ends hD hS hDP hc.1 hm.1.loose hm.1.shown with ⟨c', nb', e, he, hh⟩ | ⟨c', nb', he, hl, hs'⟩
    · rcases hh with rfl | ⟨rfl, hx⟩
      · exact .inl ⟨c', nb', _, he, by simp [Raises], .inr rfl⟩
      · exact .inl ⟨c', nb', _, he, .inr (.inr (.inr (.inr (.inl ⟨rfl, hx⟩)))), .inr rfl⟩
    · exact .inr ⟨c', nb', he, ⟨hl, hs'.trans hst⟩, hs'.trans hst⟩
  unlock c hc := by
    have hk : dkeys (unlock c).dict = dkeys c.dict := by
      simp only [unlock, dkeys, List.map_map]
      apply List.map_congr_left
      intro a _
      simp only [Function.comp]
      split <;> rfl
    exact ⟨⟨hc.1.ndT, hc.1.ndK, fun k => by rw [hk]; exact hc.1.dict k, hc.1.table, hc.1.order, hc.1.low, hc.1.top, hc.1.sub⟩, hc.2⟩

/-! ## All grammars -/

theorem setCharacterset_loose {D S : Str → Prop} {c : Coll} (h : Loose D S c) (u : Bool) : Loose D S (ReadStar.setCharacterset c u) := by
  have hk : dkeys (ReadStar.setCharacterset c u).dict = dkeys c.dict := by
    simp only [ReadStar.setCharacterset, dkeys, List.map_map]
    apply List.map_congr_left
    intro a _
    simp only [Function.comp]
    split <;> rfl
  exact ⟨h.ndT, h.ndK, fun k => by rw [hk]; exact h.dict k, h.table, h.order, h.low, h.top, h.sub⟩

/-- What the loop over the grammars may raise. -/
def RaisesAll (std : Option Str) (DP S : Str → Prop) (e : ReadErr) : Prop :=
  e = .py .star ∨ (e = .py .attribute ∧ ∃ k, DP k ∧ S k) ∨ (e = .py .notImpl ∧ std = none ∧ ∃ k, S k)

theorem tryAll_ends (bt : Block) (std : Option Str) (text : Str) {DP D S : Str → Prop} (hD : PlusClosed D) (hS : PlusClosed S)
    (hDP : ∀ k, D k → DP k) (hd : ∀ n, Heads "data_".toList text n → D (lower n)) (hs : ∀ n, Heads "save_".toList text n → S (lower n)) :
    ∀ (l : List GName) (c : Coll), Loose DP (fun _ => True) c → c.standard = std →
      ∀ e, (ReadStar.tryAll (ReadStar.parsers bt) text c l).2 = .error e → RaisesAll std DP S e
  | [], c, _, _, e, h => by
    simp only [ReadStar.tryAll, Except.error.injEq] at h
    exact .inl h.symm
  | g :: r, c, hc, hst, e, h => by
    have key : Ends (fun c => Loose DP (fun _ => True) c ∧ c.standard = std) (Raises std DP S)
        (ReadStar.parsers bt g (ReadStar.setCharacterset c (decide (g = .v20 ∨ g = .star2))) text) := by
      have hc' : Loose DP (fun _ => True) (ReadStar.setCharacterset c (decide (g = .v20 ∨ g = .star2))) ∧
          (ReadStar.setCharacterset c (decide (g = .v20 ∨ g = .star2))).standard = std := ⟨setCharacterset_loose hc _, hst⟩
      cases g with
      | v20 => exact input_ends gram20_ok (plan gram20_head bt std text DP D S hD hS hDP hd hs) _ hc' hc'.2
      | v11 => exact input_ends gram11_ok (plan gram11_head bt std text DP D S hD hS hDP hd hs) _ hc' hc'.2
      | v10 => exact input_ends gram10_ok (plan gram10_head bt std text DP D S hD hS hDP hd hs) _ hc' hc'.2
      | star2 => exact input_ends gramStar2_ok (plan gramStar2_head bt std text DP D S hD hS hDP hd hs) _ hc' hc'.2
    unfold ReadStar.tryAll at h
    rcases key with ⟨c', e', he, hr, hp⟩ | ⟨c', he, _⟩
    · rw [he] at h
      simp only at h
      by_cases hca : ReadStar.caught e' = true
      · rw [if_pos hca] at h
        have hp' := hp.resolve_right (by rw [hca]; nofun)
        exact tryAll_ends bt std text hD hS hDP hd hs r c' hp'.1 hp'.2 e h
      · rw [if_neg hca] at h
        simp only [Except.error.injEq] at h
        subst h
        rcases hr with rfl | rfl | rfl | rfl | ⟨rfl, hx⟩ | ⟨rfl, hx⟩
        · exact absurd rfl hca
        · exact absurd rfl hca
        · exact absurd rfl hca
        · exact .inl rfl
        · exact .inr (.inl ⟨rfl, hx⟩)
        · exact .inr (.inr ⟨rfl, hx⟩)
    · rw [he] at h
      cases h

theorem consistent_loose {c : Coll} (h : Consistent c) : Loose (· ∈ c.lowerKeys) (fun _ => True) c :=
  ⟨h.nd_table, h.nd_keys, h.mem_dict, h.mem_table, fun k hk => (h.mem_order k).mpr hk, h.lower_keys,
    fun k pc hk hp => by
      have hin := (h.mem_table k).mp (dget_isSome.mp ⟨pc, hk⟩)
      exact ⟨top_visible h hin (by simp [parentOf, hk, hp]), hin⟩, fun _ _ _ _ => trivial⟩

theorem header_star {text : Str} {l : List GName} {e : ReadErr} (h : ReadStar.honourHeader text l = .error e) : e = .py .star := by
  unfold ReadStar.honourHeader at h
  by_cases hc : text.take 10 ≠ ReadStar.header2 ∧ .v20 ∈ l
  · rw [if_pos hc] at h
    cases hp : pyErase l .v20 with
    | nil => rw [hp] at h; simp only [Except.error.injEq] at h; exact h.symm
    | cons a r => rw [hp] at h; simp only [reduceCtorEq] at h
  · rw [if_neg hc] at h
    simp only [reduceCtorEq] at h

/-- How `ReadStar` ends. -/
theorem readStar_ends (bt : Block) {prepared : Coll} (hp : Consistent prepared) {text : Str} {req : Option Str} {maxlength : Int} {cbf : Bool}
    {D S : Str → Prop} (hD : PlusClosed D) (hS : PlusClosed S)
    (hd : ∀ n, Heads "data_".toList (ReadStar.cutCtrlZ (if cbf then ReadStar.cutBinary text else text)) n → D (lower n))
    (hs : ∀ n, Heads "save_".toList (ReadStar.cutCtrlZ (if cbf then ReadStar.cutBinary text else text)) n → S (lower n))
    {e : ReadErr} (h : (ReadStar.readStar (ReadStar.parsers bt) prepared text req maxlength cbf).2 = .error e) :
    ReadStar.tryList req = .error e ∨ (∃ n m, e = .tooLong n m) ∨
      RaisesAll prepared.standard (fun k => k ∈ prepared.lowerKeys ∨ D k) S e := by
  unfold ReadStar.readStar at h
  cases htl : ReadStar.tryList req with
  | error e' =>
    rw [htl] at h
    simp only [Except.error.injEq] at h
    exact .inl (by rw [h])
  | ok l =>
    rw [htl] at h
    simp only at h
    right
    split at h
    · cases h
    · cases hlc : ReadStar.lengthCheck maxlength (ReadStar.cutCtrlZ (if cbf then ReadStar.cutBinary text else text)) with
      | error e' =>
        rw [hlc] at h
        simp only [Except.error.injEq] at h
        subst h
        left
        unfold ReadStar.lengthCheck at hlc
        simp only at hlc
        split at hlc
        · split at hlc
          · cases hlc
          · cases hlc; exact ⟨_, _, rfl⟩
        · cases hlc
      | ok u =>
        rw [hlc] at h
        simp only at h
        right
        cases hho : ReadStar.honourHeader (ReadStar.cutCtrlZ (if cbf then ReadStar.cutBinary text else text)) l with
        | error e' =>
          rw [hho] at h
          simp only [Except.error.injEq] at h
          subst h
          left
          exact header_star hho
        | ok l' =>
          rw [hho] at h
          simp only at h
          split at h
          · rename_i c' e' ht
            simp only [Except.error.injEq] at h
            subst h
            exact tryAll_ends bt prepared.standard _ (DP := fun k => k ∈ prepared.lowerKeys ∨ D k) hD hS (fun _ h => .inr h) hd hs l' prepared
              ((consistent_loose hp).weaken (fun _ h => .inl h) (fun _ h => h)) rfl e' (by rw [ht])
          · cases h

end Reader
end Verif
