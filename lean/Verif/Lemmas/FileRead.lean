import Verif.Props.ReadBack
/-! # Files written block by block, for any grammar -/
set_option linter.unusedSectionVars false
namespace Verif.RoundTrip
open Print Reader Lex Block
variable [CaseFold]

/-- The block `b`, written under a heading, is a part of a file that is read as a block `rb` with `S b rb`. -/
def PartOf (D : Dialect) (st : Style) (hints : List Hint) (std : Option Str) (bt : Block) (S : Block → Block → Prop) (name : Str) (b : Block) : Prop :=
  ∃ text, printSection st hints b = .ok text ∧ ∀ tail2, IsGap tail2 →
    ∃ q : Part, q.name = name ∧ q.text = "data_".toList ++ name ++ "\n".toList ++ text ++ tail2 ∧ PartOk D std q ∧
      (tail2 ≠ [] → q.tail ≠ []) ∧ S b { q.block bt std with overwrite := true }

/-- Blocks written one after the other are parts of a file. -/
theorem parts_of {D : Dialect} {st : Style} {hints : List Hint} {std : Option Str} {bt : Block} {S : Block → Block → Prop} {c : Coll} : ∀ (ks : List Str), ks ≠ [] →
      (∀ k ∈ ks, ∃ b, c.getItem k = .ok b ∧ PartOf D st hints std bt S (Coll.printedName c k) b) →
      ∃ qs : List Part, Coll.flatE (WriteText.pieceText st hints c) (ks.flatMap fun k => [.data (Coll.printedName c k), .body k]) =
          .ok ('\n' :: partsText qs) ∧ (∀ q ∈ qs, PartOk D std q) ∧ Apart qs ∧ qs.map (·.name) = ks.map (Coll.printedName c) ∧
        ∀ k ∈ ks, ∃ q ∈ qs, q.name = Coll.printedName c k ∧ ∃ b, c.getItem k = .ok b ∧ S b { q.block bt std with overwrite := true }
  | [], h, _ => (h rfl).elim
  | k :: ks, _, hk => by
    obtain ⟨b, g1, text, h1, h3⟩ := hk k (by simp)
    have hone : Coll.flatE (WriteText.pieceText st hints c) [.data (Coll.printedName c k), .body k] =
        .ok ("\ndata_".toList ++ Coll.printedName c k ++ "\n".toList ++ text) := by
      simp only [Coll.flatE, WriteText.pieceText, g1, h1]
      simp
    by_cases he : ks = []
    · subst he
      obtain ⟨q, q1, q2, q3, -, q5⟩ := h3 [] (by simp [IsGap])
      refine ⟨[q], ?_, by simpa using q3, trivial, by simp [q1], ?_⟩
      · rw [List.flatMap_cons, List.flatMap_nil, List.append_nil, hone, partsText, partsText, q2]
        simp
      · intro x hx
        simp only [List.mem_singleton] at hx
        subst hx
        exact ⟨q, by simp, q1, b, g1, q5⟩
    · obtain ⟨qs, i1, i2, i3, i4, i5⟩ := parts_of ks he fun x hx => hk x (by simp [hx])
      obtain ⟨q, q1, q2, q3, q4, q5⟩ := h3 ['\n'] (by simp [IsGap])
      refine ⟨q :: qs, ?_, ?_, ?_, by simp [q1, i4], ?_⟩
      · rw [List.flatMap_cons, flatE_append _ _ _ _ _ hone i1, partsText, q2]
        simp
      · intro x hx
        rcases List.mem_cons.1 hx with rfl | hx
        · exact q3
        · exact i2 x hx
      · cases qs with
        | nil => trivial
        | cons r rs => exact ⟨q4 (by simp), i3⟩
      · intro x hx
        rcases List.mem_cons.1 hx with rfl | hx
        · exact ⟨q, by simp, q1, b, g1, q5⟩
        · obtain ⟨q', m1, m2⟩ := i5 x hx
          exact ⟨q', by simp [m1], m2⟩

/-- A file of one block. -/
theorem one_of {D : Dialect} {st : Style} {hints : List Hint} {std : Option Str} {bt : Block} (hbt : Fresh bt)
    (hlock : bt.overwrite = false) (hmax : bt.maxName = none) {S : Block → Block → Prop} {b : Block} {name : Str} (h : PartOf D st hints std bt S name b) :
    ∃ text c rb, printSection st hints b = .ok text ∧
      Reader.input D.g bt { standard := std } ("\ndata_".toList ++ name ++ "\n".toList ++ text) = (c, .ok ()) ∧
      c.keys = [lower name] ∧ c.getItem name = .ok rb ∧ S b rb := by
  obtain ⟨text, h1, h3⟩ := h
  obtain ⟨q, q1, q2, q3, -, q5⟩ := h3 [] (by simp [IsGap])
  have hin := input_read (D := D) hbt hlock hmax { standard := std } ⟨rfl, rfl⟩ (q := q) (qs := []) (by simpa using q3) trivial (by simp) (by simp) ['\n']
    (fun R hR s n w rest h => D.gap hR (by simp) h ['\n'] (by simp))
  have htext : ['\n'] ++ partsText [q] = "\ndata_".toList ++ name ++ "\n".toList ++ text := by
    rw [partsText, partsText, q2]; simp
  rw [htext] at hin
  refine ⟨text, _, _, h1, hin, ?_, ?_, q5⟩
  · show [] ++ List.map _ _ = _
    simp [q1]
  · rw [← q1]
    exact (joined_get (by simp) (by simp)).1

/-- A file of data blocks without save frames. -/
theorem file_of {D : Dialect} {st : Style} {hints : List Hint} {std : Option Str} {bt : Block} (hbt : Fresh bt)
    (hlock : bt.overwrite = false) (hmax : bt.maxName = none) {S : Block → Block → Prop} {c : Coll} (hc : Coll.Reachable c) (hne : c.lowerKeys ≠ [])
    (hflat : ∀ k, Coll.parentOf c k = none) (hdic : c.standard ≠ some "Dic".toList)
    (hname : ∀ k ∈ c.lowerKeys, lower (Coll.printedName c k) = k)
    (hpart : ∀ k ∈ c.lowerKeys, ∀ b, c.getItem k = .ok b → PartOf D st hints std bt S (Coll.printedName c k) b) {header : Str} (hhead : IsHeader header) :
    ∃ text c', WriteText.writeOut st hints header c = .ok text ∧
      Reader.input D.g bt { standard := std } text = (c', .ok ()) ∧ c'.keys = c.inputOrder ∧
      ∀ k ∈ c.lowerKeys, Coll.printedName c' k = Coll.printedName c k ∧ ∃ b rb, c.getItem k = .ok b ∧ c'.getItem k = .ok rb ∧ S b rb := by
  have hcons := Coll.reachable_consistent hc
  have hord : c.inputOrder ≠ [] := by
    intro h
    cases hl : c.lowerKeys with
    | nil => exact hne hl
    | cons k ks =>
      have := (hcons.mem_order k).2 (by rw [hl]; simp)
      rw [h] at this
      cases this
  have hget : ∀ k ∈ c.lowerKeys, ∃ b, c.getItem k = .ok b := by
    intro k hk
    obtain ⟨b, hb⟩ := dget_isSome.2 ((hcons.mem_dict k).2 hk)
    exact ⟨b, by rw [Coll.getItem, hcons.lower_keys k hk, if_pos hk, hb]⟩
  obtain ⟨qs, h1, h2, h3, h4, h5⟩ := parts_of (c := c) (D := D) (st := st) (hints := hints) (bt := bt) (S := S) (std := std) c.inputOrder hord fun k hk => by
    have hk := (hcons.mem_order k).1 hk
    obtain ⟨b, hb'⟩ := hget k hk
    exact ⟨b, hb', hpart k hk b hb'⟩
  have hpieces : c.writeOut false = .ok (c.inputOrder.flatMap fun k => [.data (Coll.printedName c k), .body k]) := by
    rw [(Coll.C37_flat_complete hc).1]
    have e1 : Coll.topsOf c c.inputOrder = c.inputOrder := by
      rw [Coll.topsOf, List.filter_eq_self]
      intro k _
      simp [hflat k]
    have e2 : ∀ t, Coll.framesOf c t c.inputOrder = [] := by
      intro t
      rw [Coll.framesOf, List.filter_eq_nil_iff]
      intro x _
      have : ¬ Coll.Under c t x := by
        intro hu
        cases hu with
        | child h => rw [hflat] at h; cases h
        | deeper _ h => rw [hflat] at h; cases h
      simp [this]
    rw [Coll.flatFile, e1]
    congr 2
    funext k
    rw [e2, Coll.dataBlock, if_neg hdic]
    rfl
  obtain ⟨lines, rfl, hlines⟩ := hhead
  refine ⟨lines.flatMap (· ++ ['\n']) ++ ('\n' :: partsText qs), ?_⟩
  cases qs with
  | nil =>
    exfalso
    cases hi : c.inputOrder with
    | nil => exact hord hi
    | cons a l => rw [hi] at h4; simp at h4
  | cons q qs =>
    have hkeys : (q :: qs).map (fun q => lower q.name) = c.inputOrder := by
      have : (q :: qs).map (fun q => lower q.name) = ((q :: qs).map (·.name)).map lower := by simp
      rw [this, h4, List.map_map]
      conv => rhs; rw [← List.map_id c.inputOrder]
      apply List.map_congr_left
      intro k hk
      exact hname k ((hcons.mem_order k).1 hk)
    have hin := input_read (D := D) hbt hlock hmax { standard := std } ⟨rfl, rfl⟩ (q := q) (qs := qs) h2 h3 (by rw [hkeys]; exact hcons.nd_order) (by simp)
      (lines.flatMap (· ++ ['\n']) ++ ['\n'])
      (fun R hR s n w rest h => by
        rw [List.append_assoc]
        refine (lexes_header hR ?_ ?_ lines hlines).1
        · simp
        · exact D.gap hR (by simp) h ['\n'] (by simp))
    rw [List.append_assoc] at hin
    refine ⟨_, by rw [WriteText.writeOut, hpieces]; simp only [h1], hin, ?_, ?_⟩
    · show [] ++ List.map _ _ = _
      rw [List.map_map, List.nil_append]
      exact hkeys
    · intro k hk
      obtain ⟨q', m1, m2, b, m3, m5⟩ := h5 k ((hcons.mem_order k).2 hk)
      have hlk := hname k hk
      have := joined_get (std := std) (bs := (q :: qs).map fun q => (q.name, q.block bt std)) (name := q'.name) (b := q'.block bt std)
        (by
          rw [List.map_map]
          have : (q :: qs).map ((fun p : Str × Block => lower p.1) ∘ fun q => (q.name, q.block bt std)) = c.inputOrder := hkeys
          rw [this]; exact hcons.nd_order)
        (List.mem_map.2 ⟨q', m1, rfl⟩)
      rw [m2, hlk] at this
      refine ⟨this.2, b, _, m3, ?_, m5⟩
      have h' := this.1
      rw [Coll.getItem, hlk] at h'
      rw [Coll.getItem, hcons.lower_keys k hk]
      exact h'

end Verif.RoundTrip
