import Verif.Lemmas.ReadEndsRules
/-! # Every rule of the parsers consumes text: items, frames, blocks, files

What the operations on blocks and collections do is left open here: a `Plan` says which invariants they keep and which errors they
raise. -/
set_option linter.unusedSectionVars false

namespace Verif.Reader
open Scanner
variable [CaseFold]

/-- A grammar whose values consume text. -/
structure GramOk (g : Gram) : Prop where
  sound : Sound g.lx
  value : ∀ {input : Str} (fuel : Nat) (p : PState), Ok g.lx input p → Wide p g.first → 2 * rest p + 1 ≤ fuel →
    Out g.lx input Syn 1 p ValueQ (g.value fuel p)

theorem gram11_ok : GramOk gram11 := ⟨sound_table1 _, fun fuel p h1 h2 h3 => value1_out (sound_table1 _) fuel p h1 h2 h3⟩
theorem gram10_ok : GramOk gram10 := ⟨sound_table1 _, fun fuel p h1 h2 h3 => value1_out (sound_table1 _) fuel p h1 h2 h3⟩
theorem gram20_ok : GramOk gram20 := ⟨sound_table2 _, fun fuel p h1 h2 h3 => (value2_all (sound_table2 _) fuel).1 p h1 h2 h3⟩
theorem gramStar2_ok : GramOk gramStar2 := ⟨sound_table2 _, fun fuel p h1 h2 h3 => (valueS_all (sound_table2 _) fuel).1 p h1 h2 h3⟩

/-- Invariants of blocks (`BI`), of save frames (`FM`) and data blocks (`DM`) being read and of the collection read into (`PI`), and
the errors (`E`) that the operations may raise. -/
structure Plan (g : Gram) (bt : Block) (std : Option Str) (input : Str) (E : PyErr → Prop) where
  BI : Block → Prop
  FM : Making → Prop
  DM : Making → Prop
  PI : Coll → Prop
  syn : ∀ e, Syn e → E e
  item : ∀ b n v, BI b → notNone v = true → (∃ b' e, b.addItem n v true = (b', .error e) ∧ E e) ∨ ∃ b', b.addItem n v true = (b', .ok ()) ∧ BI b'
  loop : ∀ b ns vals, BI b → vals ≠ [] → notNoneAll vals = true →
    (∃ b' e, makeLoop b ns vals = (b', .error e) ∧ E e) ∨ ∃ b', makeLoop b ns vals = (b', .ok ()) ∧ BI b'
  frame0 : ∀ x, Matched g.lx input .saveHeading x →
    (∃ c e, ({ unicode := !g.byName } : Coll).newBlock (x.drop 5) bt = (c, .error e) ∧ E e) ∨
    ∃ c k, ({ unicode := !g.byName } : Coll).newBlock (x.drop 5) bt = (c, .ok k) ∧ FM ⟨c, x.drop 5, k⟩
  frameGet : ∀ m, FM m → (∃ e, m.bc.getItem m.heading = .error e ∧ E e) ∨ ∃ b, m.bc.getItem m.heading = .ok b ∧ BI b ∧
    ∀ b', BI b' → FM { m with bc := { m.bc with dict := dset m.bc.dict (lower m.heading) b' } }
  frameMerge : ∀ m f, FM m → FM f → (∃ e, mergeFrame m f.bc = .error e ∧ E e) ∨ ∃ m', mergeFrame m f.bc = .ok m' ∧ FM m'
  data0 : ∀ x, Matched g.lx input .dataHeading x →
    (∃ c e, ({ unicode := true, standard := std } : Coll).newBlock (x.drop 5) bt = (c, .error e) ∧ E e) ∨
    ∃ c k, ({ unicode := true, standard := std } : Coll).newBlock (x.drop 5) bt = (c, .ok k) ∧ DM ⟨c, x.drop 5, k⟩
  dataGet : ∀ m, DM m → ∀ k, k = (if g.byName then m.heading else m.key) →
    (∃ e, m.bc.getItem k = .error e ∧ E e) ∨ ∃ b, m.bc.getItem k = .ok b ∧ BI b ∧
    ∀ b', BI b' → DM { m with bc := { m.bc with dict := dset m.bc.dict (lower k) b' } }
  dataMerge : ∀ m f, DM m → FM f → (∃ e, mergeFrame m f.bc = .error e ∧ E e) ∨ ∃ m', mergeFrame m f.bc = .ok m' ∧ DM m'
  dataEnd : ∀ b, BI b → ∀ b' e, b.setMaxNameLength b.maxName = (b', .error e) → E e
  merge : ∀ c m, PI c → DM m → c.standard = std →
    (∃ c' nb e, c.mergeFast m.bc = (c', nb, .error e) ∧ E e ∧ (PI c' ∨ ReadStar.caught e = false)) ∨
    ∃ c' nb, c.mergeFast m.bc = (c', nb, .ok ()) ∧ PI c' ∧ c'.standard = std
  unlock : ∀ c, PI c → PI (unlock c)

variable {g : Gram} (hg : GramOk g) {bt : Block} {std : Option Str} {input : Str} {E : PyErr → Prop} (P : Plan g bt std input E)

include hg

theorem loopField_out : ∀ (fuel : Nat) (acc : List Str) (p : PState), Ok g.lx input p → Wide p (.dataName :: g.first) → rest p + 1 ≤ fuel →
    Out g.lx input Syn 0 p (fun _ p' => Wide p' (.dataName :: g.first)) (loopField g fuel acc p)
  | 0, _, _, _, _, h => by omega
  | fuel + 1, acc, p, hp, hw, hf => by
    unfold loopField
    refine (peek_out hg.sound hp hw).elim (fun e he => .err e he) fun t p1 o1 l1 w1 => ?_
    simp only
    split
    · refine (take_out hg.sound o1 (w1.sub (by simp)) (by decide)).elim (fun e he => .err e he) fun x p2 o2 l2 q2 => ?_
      exact (loopField_out fuel _ p2 o2 (q2.1.wide o2 _) (by omega)).mono (fun _ h => h) (by omega) (fun _ _ _ h => h)
    · rcases afterStar_out hg.sound o1 (F := .dataName :: g.first) w1 with ⟨e, h, he⟩ | ⟨p2, h, o2, l2, w2⟩
      · rw [h]; exact .err e he
      · rw [h]
        exact .ok o2 (by omega) w2

theorem moreValues_out : ∀ (fuel : Nat) (acc : List PyVal) (p : PState), acc ≠ [] → notNoneAll acc = true → Ok g.lx input p →
    Wide p (itemFollow ++ g.first) → 2 * rest p + 2 ≤ fuel →
    Out g.lx input Syn 0 p (fun vs p' => Wide p' (itemFollow ++ g.first) ∧ vs ≠ [] ∧ notNoneAll vs = true) (moreValues g fuel acc p)
  | 0, _, _, _, _, _, _, h => by omega
  | fuel + 1, acc, p, ha, hn, hp, hw, hf => by
    unfold moreValues
    refine (peek_out hg.sound hp hw).elim (fun e he => .err e he) fun t p1 o1 l1 w1 => ?_
    simp only
    split
    · refine (hg.value fuel p1 o1 (w1.sub fun x hx => List.mem_append_right _ hx) (by omega)).elim (fun e he => .err e he) fun v p2 o2 l2 q2 => ?_
      exact (moreValues_out fuel _ p2 (by simp) (notNone_snoc hn q2.2) o2 (q2.1.wide o2 _) (by omega)).mono (fun _ h => h) (by omega)
        (fun _ _ _ h => h)
    · rcases afterStar_out hg.sound o1 (F := itemFollow ++ g.first) w1 with ⟨e, h, he⟩ | ⟨p2, h, o2, l2, w2⟩
      · rw [h]; exact .err e he
      · rw [h]
        exact .ok o2 (by omega) ⟨w2, ha, hn⟩

theorem topLoop_out (fuel : Nat) (p : PState) (hp : Ok g.lx input p) (hw : Wide p [.loop]) (hf : 2 * rest p + 1 ≤ fuel) :
    Out g.lx input Syn 1 p (fun a p' => Wide p' (itemFollow ++ g.first) ∧ a.2 ≠ [] ∧ notNoneAll a.2 = true) (topLoop g fuel p) := by
  unfold topLoop
  refine (take_out hg.sound hp hw (by decide)).elim (fun e he => .err e he) fun x p1 o1 l1 q1 => ?_
  simp only
  refine (loopField_out hg fuel [] p1 o1 (q1.1.wide o1 _) (by omega)).elim (fun e he => .err e he) fun ns p2 o2 l2 w2 => ?_
  simp only
  refine (hg.value fuel p2 o2 (w2.sub fun x hx => List.mem_cons_of_mem _ hx) (by omega)).elim (fun e he => .err e he) fun v p3 o3 l3 q3 => ?_
  simp only
  refine (moreValues_out hg fuel [v] p3 (by simp) (notNone_snoc (acc := []) rfl q3.2) o3 (q3.1.wide o3 _) (by omega)).elim
    (fun e he => .err e he) fun vs p4 o4 l4 q4 => ?_
  exact .ok o4 (by omega) q4

include P

theorem datum_out (fuel : Nat) (b : Block) (hb : P.BI b) (p : PState) (hp : Ok g.lx input p) (hw : Wide p [.loop, .dataName])
    (hf : 2 * rest p + 1 ≤ fuel) :
    Out g.lx input E 1 p (fun b' p' => P.BI b' ∧ Wide p' itemFollow) (datum g fuel b p) := by
  unfold datum
  refine (peek_out hg.sound hp hw).elim (fun e he => .err e (P.syn e he)) fun t p1 o1 l1 w1 => ?_
  simp only
  split
  · refine (topLoop_out hg fuel p1 o1 (w1.sub (by simp)) (by omega)).elim (fun e he => .err e (P.syn e he)) ?_
    rintro ⟨ns, vals⟩ p2 o2 l2 ⟨w2, h2, h3⟩
    simp only
    rcases P.loop b ns vals hb h2 h3 with ⟨b', e, h, he⟩ | ⟨b', h, hb'⟩
    · rw [h]; exact .err e he
    · rw [h]; exact .ok o2 (by omega) ⟨hb', w2.sub fun x hx => List.mem_append_left _ hx⟩
  · refine (take_out hg.sound o1 (w1.sub (by simp)) (by decide)).elim (fun e he => .err e (P.syn e he)) fun n p2 o2 l2 q2 => ?_
    simp only
    refine (hg.value fuel p2 o2 (q2.1.wide o2 _) (by omega)).elim (fun e he => .err e (P.syn e he)) fun v p3 o3 l3 q3 => ?_
    simp only
    rcases P.item b n v hb q3.2 with ⟨b', e, h, he⟩ | ⟨b', h, hb'⟩
    · rw [h]; exact .err e he
    · rw [h]; exact .ok o3 (by omega) ⟨hb', q3.1.wide o3 _⟩

theorem moreData_out : ∀ (fuel : Nat) (b : Block) (p : PState), P.BI b → Ok g.lx input p → Wide p itemFollow → 2 * rest p + 2 ≤ fuel →
    Out g.lx input E 0 p (fun b' p' => P.BI b' ∧ Wide p' itemFollow) (moreData g fuel b p)
  | 0, _, _, _, _, _, h => by omega
  | fuel + 1, b, p, hb, hp, hw, hf => by
    unfold moreData
    refine (peek_out hg.sound hp hw).elim (fun e he => .err e (P.syn e he)) fun t p1 o1 l1 w1 => ?_
    simp only
    split
    · refine (datum_out hg P fuel b hb p1 o1 (w1.sub (by simp [itemFollow])) (by omega)).elim (fun e he => .err e he) fun b' p2 o2 l2 q2 => ?_
      exact (moreData_out fuel b' p2 q2.1 o2 q2.2 (by omega)).mono (fun _ h => h) (by omega) (fun _ _ _ h => h)
    · rcases afterStar_out hg.sound o1 (F := itemFollow) w1 with ⟨e, h, he⟩ | ⟨p2, h, o2, l2, w2⟩
      · rw [h]; exact .err e (P.syn e he)
      · rw [h]
        exact .ok o2 (by omega) ⟨hb, w2⟩

theorem dataSeq_out (fuel : Nat) (b : Block) (hb : P.BI b) (p : PState) (hp : Ok g.lx input p) (hw : Wide p [.loop, .dataName])
    (hf : 2 * rest p + 1 ≤ fuel) :
    Out g.lx input E 1 p (fun b' p' => P.BI b' ∧ Wide p' itemFollow) (dataSeq g fuel b p) := by
  unfold dataSeq
  refine (datum_out hg P fuel b hb p hp hw hf).elim (fun e he => .err e he) fun b' p1 o1 l1 q1 => ?_
  exact (moreData_out hg P fuel b' p1 q1.1 o1 q1.2 (by omega)).mono (fun _ h => h) (by omega) (fun _ _ _ h => h)

theorem dataInto_out (I : Making → Prop) (fuel : Nat) (m : Making) (k : Str)
    (hk : (∃ e, m.bc.getItem k = .error e ∧ E e) ∨ ∃ b, m.bc.getItem k = .ok b ∧ P.BI b ∧
      ∀ b', P.BI b' → I { m with bc := { m.bc with dict := dset m.bc.dict (lower k) b' } })
    (p : PState) (hp : Ok g.lx input p) (hw : Wide p [.loop, .dataName]) (hf : 2 * rest p + 1 ≤ fuel) :
    Out g.lx input E 1 p (fun m' p' => I m' ∧ Wide p' itemFollow) (dataInto g fuel m k p) := by
  unfold dataInto
  rcases hk with ⟨e, h, he⟩ | ⟨b, h, hb, hI⟩
  · rw [h]; exact .err e he
  · rw [h]
    simp only
    refine (dataSeq_out hg P fuel b hb p hp hw hf).elim (fun e he => .err e he) fun b' p1 o1 l1 q1 => ?_
    exact .ok o1 (by omega) ⟨hI b' q1.1, q1.2⟩

theorem frames_out : ∀ fuel : Nat,
    (∀ m p, P.FM m → Ok g.lx input p → Wide p itemFollow → 2 * rest p + 3 ≤ fuel →
      Out g.lx input E 0 p (fun m' p' => P.FM m' ∧ Wide p' itemFollow) (frameLoop g bt fuel m p)) ∧
    (∀ p, Ok g.lx input p → Wide p [.saveHeading] → 2 * rest p + 2 ≤ fuel →
      Out g.lx input E 1 p (fun c p' => Clean p' ∧ ∃ f, P.FM f ∧ f.bc = c) (saveFrame g bt fuel p))
  | 0 => ⟨fun _ _ _ _ _ h => by omega, fun _ _ _ h => by omega⟩
  | fuel + 1 => by
    obtain ⟨ih1, ih2⟩ := frames_out fuel
    refine ⟨?_, ?_⟩
    · intro m p hm hp hw hf
      unfold frameLoop
      refine (peek_out hg.sound hp hw).elim (fun e he => .err e (P.syn e he)) fun t p1 o1 l1 w1 => ?_
      simp only
      split
      · have hpk : Out g.lx input Syn 0 p1 (fun _ p' => Wide p' [.loop, .dataName])
            (if g.nested then peek g.lx [.loop, .dataName, .saveHeading] p1 else .ok (t, p1)) := by
          split
          · exact (peek_out hg.sound o1 (w1.sub (by simp [itemFollow]))).mono (fun _ h => h) (Nat.le_refl _) (fun _ _ _ h => h.sub (by simp))
          · exact .ok o1 (Nat.le_refl _) (w1.sub (by simp [itemFollow]))
        refine hpk.elim (fun e he => .err e (P.syn e he)) fun t2 p2 o2 l2 w2 => ?_
        simp only
        refine (dataInto_out hg P P.FM fuel m m.heading (P.frameGet m hm) p2 o2 w2 (by omega)).elim (fun e he => .err e he)
          fun m' p3 o3 l3 q3 => ?_
        exact (ih1 m' p3 q3.1 o3 q3.2 (by omega)).mono (fun _ h => h) (by omega) (fun _ _ _ h => h)
      split
      · refine (peek_out hg.sound o1 (R := [.loop, .dataName, .saveHeading]) (w1.sub (by simp [itemFollow]))).elim
          (fun e he => .err e (P.syn e he)) fun t2 p2 o2 l2 w2 => ?_
        simp only
        refine (ih2 p2 o2 (w2.sub (by simp)) (by omega)).elim (fun e he => .err e he) ?_
        rintro c p3 o3 l3 ⟨q3, f, hf3, rfl⟩
        simp only
        rcases P.frameMerge m f hm hf3 with ⟨e, h, he⟩ | ⟨m', h, hm'⟩
        · rw [h]; exact .err e he
        · rw [h]
          exact (ih1 m' p3 hm' o3 (q3.wide o3 _) (by omega)).mono (fun _ h => h) (by omega) (fun _ _ _ h => h)
      · rcases afterStar_out hg.sound o1 (F := itemFollow) w1 with ⟨e, h, he⟩ | ⟨p2, h, o2, l2, w2⟩
        · rw [h]; exact .err e (P.syn e he)
        · rw [h]
          exact .ok o2 (by omega) ⟨hm, w2⟩
    · intro p hp hw hf
      unfold saveFrame
      refine (take_out hg.sound hp hw (by decide)).elim (fun e he => .err e (P.syn e he)) fun x p1 o1 l1 q1 => ?_
      simp only
      rcases P.frame0 x q1.2 with ⟨c, e, h, he⟩ | ⟨c, k, h, hm⟩
      · rw [h]; exact .err e he
      · rw [h]
        simp only
        refine (ih1 _ p1 hm o1 (q1.1.wide o1 _) (by omega)).elim (fun e he => .err e he) fun m p2 o2 l2 q2 => ?_
        simp only
        refine (take_out hg.sound o2 (q2.2.sub (by simp [itemFollow])) (by decide)).elim (fun e he => .err e (P.syn e he)) fun x p3 o3 l3 q3 => ?_
        exact .ok o3 (by omega) ⟨q3.1, m, q2.1, rfl⟩

theorem blockLoop_out : ∀ (fuel : Nat) (m : Making) (p : PState), P.DM m → Ok g.lx input p → Wide p itemFollow → 2 * rest p + 3 ≤ fuel →
    Out g.lx input E 0 p (fun m' p' => P.DM m' ∧ Wide p' itemFollow) (blockLoop g bt fuel m p)
  | 0, _, _, _, _, _, h => by omega
  | fuel + 1, m, p, hm, hp, hw, hf => by
    unfold blockLoop
    refine (peek_out hg.sound hp hw).elim (fun e he => .err e (P.syn e he)) fun t p1 o1 l1 w1 => ?_
    simp only
    split
    · refine (peek_out hg.sound o1 (R := [.loop, .dataName, .saveHeading]) (w1.sub (by simp [itemFollow]))).elim
        (fun e he => .err e (P.syn e he)) fun t2 p2 o2 l2 w2 => ?_
      simp only
      split
      · refine (dataInto_out hg P P.DM fuel m _ (P.dataGet m hm _ rfl) p2 o2 (w2.sub (by simp)) (by omega)).elim (fun e he => .err e he)
          fun m' p3 o3 l3 q3 => ?_
        exact (blockLoop_out fuel m' p3 q3.1 o3 q3.2 (by omega)).mono (fun _ h => h) (by omega) (fun _ _ _ h => h)
      · refine ((frames_out hg P fuel).2 p2 o2 (w2.sub (by simp)) (by omega)).elim (fun e he => .err e he) ?_
        rintro c p3 o3 l3 ⟨q3, f, hf3, rfl⟩
        simp only
        rcases P.dataMerge m f hm hf3 with ⟨e, h, he⟩ | ⟨m', h, hm'⟩
        · rw [h]; exact .err e he
        · rw [h]
          exact (blockLoop_out fuel m' p3 hm' o3 (q3.wide o3 _) (by omega)).mono (fun _ h => h) (by omega) (fun _ _ _ h => h)
    · rcases afterStar_out hg.sound o1 (F := itemFollow) w1 with ⟨e, h, he⟩ | ⟨p2, h, o2, l2, w2⟩
      · rw [h]; exact .err e (P.syn e he)
      · rw [h]
        exact .ok o2 (by omega) ⟨hm, w2⟩

theorem dataBlock_out (fuel : Nat) (p : PState) (hp : Ok g.lx input p) (hw : Wide p [.dataHeading]) (hf : 2 * rest p + 1 ≤ fuel) :
    Out g.lx input E 1 p (fun c p' => Wide p' itemFollow ∧ ∃ m, P.DM m ∧ m.bc = c) (dataBlock g bt std fuel p) := by
  unfold dataBlock
  refine (take_out hg.sound hp hw (by decide)).elim (fun e he => .err e (P.syn e he)) fun x p1 o1 l1 q1 => ?_
  simp only
  rcases P.data0 x q1.2 with ⟨c, e, h, he⟩ | ⟨c, k, h, hm⟩
  · rw [h]; exact .err e he
  · rw [h]
    simp only
    refine (blockLoop_out hg P fuel _ p1 hm o1 (q1.1.wide o1 _) (by omega)).elim (fun e he => .err e he) fun m p2 o2 l2 q2 => ?_
    simp only
    rcases P.dataGet m q2.1 _ rfl with ⟨e, h, he⟩ | ⟨b, h, hb, -⟩
    · rw [h]; exact .err e he
    · rw [h]
      simp only
      cases hset : b.setMaxNameLength b.maxName with
      | mk b' r =>
        cases r with
        | error e => exact .err e (P.dataEnd b hb b' e hset)
        | ok u => exact .ok o2 (by omega) ⟨q2.2, m, q2.1, rfl⟩

/-- How reading into a collection ends. -/
def Ends (PI : Coll → Prop) (E : PyErr → Prop) (r : Coll × Except PyErr Unit) : Prop :=
  (∃ c e, r = (c, .error e) ∧ E e ∧ (PI c ∨ ReadStar.caught e = false)) ∨ ∃ c, r = (c, .ok ()) ∧ PI c

omit hg P in
theorem Ends.err {PI : Coll → Prop} {E : PyErr → Prop} {c : Coll} {e : PyErr} (h : PI c) (he : E e) : Ends PI E (c, .error e) :=
  .inl ⟨c, e, rfl, he, .inl h⟩

theorem inputLoop_ends : ∀ (fuel : Nat) (c : Coll) (p : PState), P.PI c → c.standard = std → Ok g.lx input p → Wide p [.fin, .dataHeading] →
    2 * rest p + 2 ≤ fuel → Ends P.PI E (inputLoop g bt fuel c p)
  | 0, _, _, _, _, _, _, h => by omega
  | fuel + 1, c, p, hc, hstd, hp, hw, hf => by
    unfold inputLoop
    refine (peek_out hg.sound hp hw).elim (fun e he => .err hc (P.syn e he)) fun t p1 o1 l1 w1 => ?_
    simp only
    split
    · rw [hstd]
      refine (dataBlock_out hg P fuel p1 o1 (w1.sub (by simp)) (by omega)).elim (fun e he => .err hc he) ?_
      rintro _ p2 o2 l2 ⟨w2, m, hm, rfl⟩
      simp only
      rcases P.merge c m hc hm hstd with ⟨c', nb, e, h, he, hh⟩ | ⟨c', nb, h, hc', hs'⟩
      · rw [h]; exact .inl ⟨c', e, rfl, he, hh⟩
      · rw [h]
        exact inputLoop_ends fuel c' p2 hc' hs' o2 (w2.sub (by simp [itemFollow])) (by omega)
    · rcases afterStar_out hg.sound o1 (F := [.fin, .dataHeading]) w1 with ⟨e, h, he⟩ | ⟨p2, h, o2, l2, w2⟩
      · rw [h]; exact .err hc (P.syn e he)
      · rw [h]
        simp only
        refine (take_any hg.sound o2 (w2.sub (by simp))).elim (fun e he => .err hc (P.syn e he)) fun _ p3 _ _ _ => ?_
        exact .inr ⟨_, rfl, P.unlock c hc⟩

/-- How reading a text ends. -/
theorem input_ends (c : Coll) (hc : P.PI c) (hstd : c.standard = std) : Ends P.PI E (Reader.input g bt c input) := by
  have hr : rest { scan := { input := input } } = input.length := by simp [rest]
  unfold Reader.input
  refine (peek_out hg.sound (ok_start g.lx input) (R := [.fin, .dataHeading]) (fun R hR => by simp at hR)).elim
    (fun e he => .err hc (P.syn e he)) fun t p1 o1 l1 w1 => ?_
  simp only
  split
  · rw [hstd]
    refine (dataBlock_out hg P _ p1 o1 (w1.sub (by simp)) (by omega)).elim (fun e he => .err hc he) ?_
    rintro _ p2 o2 l2 ⟨w2, m, hm, rfl⟩
    simp only
    rcases P.merge c m hc hm hstd with ⟨c', nb, e, h, he, hh⟩ | ⟨c', nb, h, hc', hs'⟩
    · rw [h]; exact .inl ⟨c', e, rfl, he, hh⟩
    · rw [h]
      exact inputLoop_ends hg P _ c' p2 hc' hs' o2 (w2.sub (by simp [itemFollow])) (by omega)
  · refine (take_any hg.sound o1 (w1.sub (by simp))).elim (fun e he => .err hc (P.syn e he)) fun _ p3 _ _ _ => ?_
    exact .inr ⟨_, rfl, P.unlock c hc⟩

end Verif.Reader
