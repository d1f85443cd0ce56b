import Verif.Lemmas.ReadFramesFile
import Verif.Lemmas.FileRead
import Verif.Spec.FrameFile
/-! # Writing files with save frames, for any grammar -/
set_option linter.unusedSectionVars false
namespace Verif.RoundTrip
open Print Reader Lex Block
variable [CaseFold]

/-- The text holds the entries, and white space. -/
def LaidOut (D : Dialect) (es : List Entry) (text : Str) : Prop :=
  ∃ l tail, text = flat l ++ tail ∧ Spaced l ∧ IsGap tail ∧ DocReads D es (l.map (·.2))

theorem laid_gap {D : Dialect} {es : List Entry} {text : Str} (h : LaidOut D es text) {g : Str} (hg : IsGap g) : LaidOut D es (g ++ text) := by
  obtain ⟨l, tail, rfl, h1, h2, h3⟩ := h
  cases l with
  | nil => exact ⟨[], g ++ tail, by simp [flat], by simp [Spaced], isGap_append.2 ⟨hg, h2⟩, h3⟩
  | cons p l =>
    refine ⟨(g ++ p.1, p.2) :: l, tail, by simp [flat], ?_, h2, by simpa using h3⟩
    intro x hx
    rcases List.mem_cons.1 hx with rfl | hx
    · obtain ⟨k1, k2⟩ := h1 p (by simp)
      refine ⟨isGap_append.2 ⟨hg, k1⟩, ?_⟩
      rcases k2 with k2 | k2
      · exact .inl (by simp [k2])
      · exact .inr k2
    · exact h1 x (by simp [hx])

theorem laid_after {D : Dialect} {es : List Entry} {text : Str} (h : LaidOut D es text) {g : Str} (hg : IsGap g) :
    ∃ l tail, text ++ g = flat l ++ tail ∧ Spaced l ∧ IsGap tail ∧ DocReads D es (l.map (·.2)) ∧ (g ≠ [] → tail ≠ []) := by
  obtain ⟨l, tail, rfl, h1, h2, h3⟩ := h
  exact ⟨l, tail ++ g, by simp, h1, isGap_append.2 ⟨h2, hg⟩, h3, by simp +contextual⟩

/-- The block, or a part of it, is printed as the entries. -/
def Sheet (D : Dialect) (st : Style) (hints : List Hint) (b : Block) (finish start : Str) (es : List Entry) (text : Str) : Prop :=
  printSection st hints b [] 0 finish start = .ok text ∧ LaidOut D es text

/-- The block can be written as a save frame and is read as a block `rb` with `S b rb`. -/
def FrameOf (D : Dialect) (st : Style) (hints : List Hint) (bt : Block) (S : Block → Block → Prop) (name : Str) (b : Block) : Prop :=
  HeadingWord D name ∧ ∃ es text, Sheet D st hints b [] [] es text ∧ EntriesOk none es ∧ S b { es.foldl addEntry (frameStart D bt) with overwrite := true }

/-- The block can be written as a data block, for dictionaries in two parts, and is read as a block `rb` with `S b rb`. -/
def TopOf (D : Dialect) (st : Style) (hints : List Hint) (std : Option Str) (bt : Block) (S : Block → Block → Prop) (dic : Prop) (name : Str) (b : Block) : Prop :=
  HeadingWord D name ∧ ∃ es0 es text0 text, (dic → Sheet D st hints b WriteText.divider [] es0 text0 ∧ Sheet D st hints b [] WriteText.divider es text) ∧
    (¬ dic → es0 = [] ∧ text0 = [] ∧ Sheet D st hints b [] [] es text) ∧
    EntriesOk std (es0 ++ es) ∧ S b { (es0 ++ es).foldl addEntry (startBlock bt std) with overwrite := true }

/-- Blocks written as save frames. -/
theorem frames_of {D : Dialect} {st : Style} {hints : List Hint} {bt : Block} {S : Block → Block → Prop} {c : Coll} : ∀ (ks : List Str),
    (∀ k ∈ ks, ∃ b, c.getItem k = .ok b ∧ FrameOf D st hints bt S (Coll.printedName c k) b) →
    ∃ t, Coll.flatE (WriteText.pieceText st hints c) (ks.flatMap (Coll.frame c)) = .ok t ∧ ∀ g0, IsGap g0 →
      ∃ fs g1, IsGap g1 ∧ g0 ++ t = framesText fs ++ g1 ∧ FramesOk D fs ∧ fs.map (·.2.name) = ks.map (Coll.printedName c) ∧
        ∀ k ∈ ks, ∃ f ∈ fs, f.2.name = Coll.printedName c k ∧ ∃ b, c.getItem k = .ok b ∧ S b { f.2.frame D bt with overwrite := true }
  | [], _ => ⟨[], rfl, fun g0 h0 => ⟨[], g0, h0, by simp [framesText], by simp [FramesOk], rfl, by simp⟩⟩
  | k :: ks, h => by
    obtain ⟨b, h1, h2, es, text, ⟨h3, h4⟩, h5, h6⟩ := h k (by simp)
    obtain ⟨t, i1, i2⟩ := frames_of ks fun x hx => h x (by simp [hx])
    have hone : Coll.flatE (WriteText.pieceText st hints c) (Coll.frame c k) =
        .ok ("\n\nsave_".toList ++ Coll.printedName c k ++ "\n".toList ++ text ++ "\n\nsave_\n".toList) := by
      simp only [Coll.frame, Coll.flatE, WriteText.pieceText, h1, h3]
      simp
    refine ⟨_, by rw [List.flatMap_cons, flatE_append _ _ _ _ _ hone i1], fun g0 h0 => ?_⟩
    obtain ⟨fs, g1, j1, j2, j3, j4, j5⟩ := i2 ['\n'] (by simp [IsGap])
    obtain ⟨l, tail, m1, m2, m3, m4, m5⟩ := laid_after (laid_gap h4 (g := ['\n']) (by simp [IsGap])) (g := ['\n', '\n']) (by simp [IsGap])
    refine ⟨(g0 ++ ['\n', '\n'], ⟨Coll.printedName c k, es, l, tail⟩) :: fs, g1, j1, ?_, ?_, by simp [j4], ?_⟩
    · have e1 : flat l ++ (tail ++ ("save_".toList ++ (framesText fs ++ g1))) = "\n".toList ++ text ++ "\n\nsave_\n".toList ++ t := by
        rw [← List.append_assoc, ← m1, ← j2]
        simp
      rw [framesText]
      simp only [List.append_assoc] at e1 ⊢
      rw [e1]
      simp
    · intro x hx
      rcases List.mem_cons.1 hx with rfl | hx
      · exact ⟨isGap_append.2 ⟨h0, by simp [IsGap]⟩, by simp, ⟨h2, h5, m2, m4, m3⟩, m5 (by simp)⟩
      · exact j3 x hx
    · intro x hx
      rcases List.mem_cons.1 hx with rfl | hx
      · exact ⟨_, List.mem_cons_self, rfl, b, h1, h6⟩
      · obtain ⟨f, n1, n2⟩ := j5 x hx
        exact ⟨f, by simp [n1], n2⟩

/-- A block written as a data block with save frames. -/
theorem dpart_of {D : Dialect} {st : Style} {hints : List Hint} {std : Option Str} {bt : Block} {S : Block → Block → Prop} {c : Coll} {k : Str} {ks : List Str}
    {b : Block} (hk : c.getItem k = .ok b) (htop : TopOf D st hints std bt S (c.standard = some "Dic".toList) (Coll.printedName c k) b)
    (hks : ∀ k ∈ ks, ∃ b, c.getItem k = .ok b ∧ FrameOf D st hints bt S (Coll.printedName c k) b) :
    ∃ t, Coll.flatE (WriteText.pieceText st hints c) (Coll.dataBlock c k (ks.flatMap (Coll.frame c))) = .ok ('\n' :: t) ∧ ∀ tail2, IsGap tail2 →
      ∃ q : DPart, t ++ tail2 = q.text ∧ DPartOk D std q ∧ (tail2 ≠ [] → q.tail ≠ []) ∧ q.names = Coll.printedName c k :: ks.map (Coll.printedName c) ∧
        S b { q.block bt std with overwrite := true } ∧
        ∀ x ∈ ks, ∃ f ∈ q.frames, f.2.name = Coll.printedName c x ∧ ∃ b, c.getItem x = .ok b ∧ S b { f.2.frame D bt with overwrite := true } := by
  obtain ⟨h1, es0, es, text0, text, h2, h3, h4, h5⟩ := htop
  obtain ⟨t, i1, i2⟩ := frames_of ks hks
  have hrun : Coll.flatE (WriteText.pieceText st hints c) (Coll.dataBlock c k (ks.flatMap (Coll.frame c))) =
      .ok ('\n' :: ("data_".toList ++ Coll.printedName c k ++ "\n".toList ++ text0 ++ t ++ text)) := by
    unfold Coll.dataBlock
    by_cases hd : c.standard = some "Dic".toList
    · obtain ⟨⟨a1, -⟩, a2, -⟩ := h2 hd
      rw [if_pos hd]
      have e1 : Coll.flatE (WriteText.pieceText st hints c) [.data (Coll.printedName c k), .front k] =
          .ok ("\ndata_".toList ++ Coll.printedName c k ++ "\n".toList ++ text0) := by
        simp only [Coll.flatE, WriteText.pieceText, hk, a1]
        simp
      have e2 : Coll.flatE (WriteText.pieceText st hints c) [.back k] = .ok text := by
        simp only [Coll.flatE, WriteText.pieceText, hk, a2]
        simp
      have := flatE_append _ _ _ _ _ e1 (flatE_append _ _ _ _ _ i1 e2)
      simpa using this
    · obtain ⟨-, rfl, a1, -⟩ := h3 hd
      rw [if_neg hd]
      have e1 : Coll.flatE (WriteText.pieceText st hints c) [.data (Coll.printedName c k)] =
          .ok ("\ndata_".toList ++ Coll.printedName c k ++ "\n".toList) := by
        simp only [Coll.flatE, WriteText.pieceText]
        simp
      have e2 : Coll.flatE (WriteText.pieceText st hints c) [.body k] = .ok text := by
        simp only [Coll.flatE, WriteText.pieceText, hk, a1]
        simp
      have := flatE_append _ _ _ _ _ e1 (flatE_append _ _ _ _ _ i1 e2)
      simpa using this
  refine ⟨_, hrun, fun tail2 ht => ?_⟩
  have hl0 : LaidOut D es0 text0 := by
    by_cases hd : c.standard = some "Dic".toList
    · exact (h2 hd).1.2
    · obtain ⟨rfl, rfl, -⟩ := h3 hd
      exact ⟨[], [], rfl, by simp [Spaced], by simp [IsGap], rfl⟩
  have hl : LaidOut D es text := by
    by_cases hd : c.standard = some "Dic".toList
    · exact (h2 hd).2.2
    · exact (h3 hd).2.2.2
  obtain ⟨l0, gap0, m1, m2, m3, m4⟩ := laid_gap hl0 (g := ['\n']) (by simp [IsGap])
  obtain ⟨fs, g1, j1, j2, j3, j4, j5⟩ := i2 gap0 m3
  obtain ⟨l, tail, n1, n2, n3, n4, n5⟩ := laid_after (laid_gap hl j1) ht
  refine ⟨⟨Coll.printedName c k, es0, l0, fs, es, l, tail⟩, ?_, ⟨h1, h4, m2, m4, n2, n4, j3, n3⟩, n5, ?_, h5, j5⟩
  · have e1 : (flat l0 ++ (framesText fs ++ flat l)) ++ tail = "\n".toList ++ text0 ++ t ++ text ++ tail2 := by
      have e2 : (flat l0 ++ (framesText fs ++ flat l)) ++ tail = flat l0 ++ (framesText fs ++ (flat l ++ tail)) := by simp
      rw [e2, ← n1]
      have e3 : flat l0 ++ (framesText fs ++ (g1 ++ text ++ tail2)) = flat l0 ++ ((framesText fs ++ g1) ++ (text ++ tail2)) := by simp
      rw [e3, ← j2]
      have e4 : flat l0 ++ (gap0 ++ t ++ (text ++ tail2)) = (flat l0 ++ gap0) ++ (t ++ (text ++ tail2)) := by simp
      rw [e4, ← m1]
      simp
    rw [DPart.text, DPart.body]
    simp only
    rw [e1]
    simp
  · rw [DPart.names]
    simp only
    rw [j4]

/-- Blocks written as data blocks with save frames. -/
theorem dparts_of {D : Dialect} {st : Style} {hints : List Hint} {std : Option Str} {bt : Block} {S : Block → Block → Prop} {c : Coll} {fr : Str → List Str} :
    ∀ (ts : List Str), ts ≠ [] →
      (∀ k ∈ ts, (∃ b, c.getItem k = .ok b ∧ TopOf D st hints std bt S (c.standard = some "Dic".toList) (Coll.printedName c k) b) ∧
        ∀ x ∈ fr k, ∃ b, c.getItem x = .ok b ∧ FrameOf D st hints bt S (Coll.printedName c x) b) →
      ∃ qs : List DPart, Coll.flatE (WriteText.pieceText st hints c) (ts.flatMap fun k => Coll.dataBlock c k ((fr k).flatMap (Coll.frame c))) =
          .ok ('\n' :: dpartsText qs) ∧ (∀ q ∈ qs, DPartOk D std q) ∧ DApart qs ∧
        qs.flatMap DPart.names = (ts.flatMap fun k => k :: fr k).map (Coll.printedName c) ∧
        ∀ k ∈ ts, ∃ q ∈ qs, q.name = Coll.printedName c k ∧ (∃ b, c.getItem k = .ok b ∧ S b { q.block bt std with overwrite := true }) ∧
          ∀ x ∈ fr k, ∃ f ∈ q.frames, f.2.name = Coll.printedName c x ∧ ∃ b, c.getItem x = .ok b ∧ S b { f.2.frame D bt with overwrite := true }
  | [], h, _ => (h rfl).elim
  | k :: ks, _, hk => by
    obtain ⟨⟨b, g1, g2⟩, g3⟩ := hk k (by simp)
    obtain ⟨t, h1, h3⟩ := dpart_of g1 g2 g3
    by_cases he : ks = []
    · subst he
      obtain ⟨q, q1, q2, -, q4, q5, q6⟩ := h3 [] (by simp [IsGap])
      refine ⟨[q], ?_, by simpa using q2, trivial, by simp [q4], ?_⟩
      · rw [List.flatMap_cons, List.flatMap_nil, List.append_nil, h1, dpartsText, dpartsText, ← q1]
        simp
      · intro x hx
        simp only [List.mem_singleton] at hx
        subst hx
        refine ⟨q, by simp, ?_, ⟨b, g1, q5⟩, q6⟩
        rw [DPart.names, List.cons.injEq] at q4
        exact q4.1
    · obtain ⟨qs, i1, i2, i3, i4, i5⟩ := dparts_of ks he fun x hx => hk x (by simp [hx])
      obtain ⟨q, q1, q2, q3, q4, q5, q6⟩ := h3 ['\n'] (by simp [IsGap])
      refine ⟨q :: qs, ?_, ?_, ?_, by simp [q4, i4], ?_⟩
      · rw [List.flatMap_cons, flatE_append _ _ _ _ _ h1 i1, dpartsText, ← q1]
        simp
      · intro x hx
        rcases List.mem_cons.1 hx with rfl | hx
        · exact q2
        · exact i2 x hx
      · cases qs with
        | nil => trivial
        | cons r rs => exact ⟨q3 (by simp), i3⟩
      · intro x hx
        rcases List.mem_cons.1 hx with rfl | hx
        · refine ⟨q, by simp, ?_, ⟨b, g1, q5⟩, q6⟩
          rw [DPart.names, List.cons.injEq] at q4
          exact q4.1
        · obtain ⟨q', m1, m2⟩ := i5 x hx
          exact ⟨q', by simp [m1], m2⟩

theorem joinRows_get {std : Option Str} {sc : Scoping} {u : Bool} {rs : List Row} (hn : (rs.map fun r => lower r.name).Nodup) {r : Row} (h : r ∈ rs) :
    (unlock (joinRows { standard := std, scoping := sc, unicode := u } rs)).getItem (lower r.name) = .ok { r.block with overwrite := true } ∧
      Coll.printedName (unlock (joinRows { standard := std, scoping := sc, unicode := u } rs)) (lower r.name) = r.name ∧
      Coll.parentOf (unlock (joinRows { standard := std, scoping := sc, unicode := u } rs)) (lower r.name) = r.parent := by
  have hk : lower r.name ∈ (joinRows { standard := std, scoping := sc, unicode := u } rs).lowerKeys := by
    show lower r.name ∈ [] ++ rs.map fun p => lower p.name
    rw [List.nil_append]
    exact List.mem_map.2 ⟨_, h, rfl⟩
  have h1 : dget (joinRows { standard := std, scoping := sc, unicode := u } rs).dict (lower r.name) = some r.block := by
    show dget ([] ++ rs.map fun p => (lower p.name, p.block)) (lower r.name) = some r.block
    rw [List.nil_append]
    refine dget_pair ?_ (List.mem_map.2 ⟨_, h, rfl⟩)
    simpa [Function.comp_def] using hn
  have h2 : dget (unlock (joinRows { standard := std, scoping := sc, unicode := u } rs)).childTable (lower r.name) = some ⟨r.name, r.parent⟩ := by
    show dget ([] ++ rs.map Row.entry) (lower r.name) = _
    rw [List.nil_append]
    refine dget_pair ?_ (List.mem_map.2 ⟨_, h, rfl⟩)
    simpa [Function.comp_def, Row.entry] using hn
  have h3 := dget_unlock _ _ hk
  rw [h1, Option.map_some] at h3
  refine ⟨?_, ?_, ?_⟩
  · have hk' : lower (lower r.name) ∈ (unlock (joinRows { standard := std, scoping := sc, unicode := u } rs)).lowerKeys := by rw [CaseFold.lower_lower]; exact hk
    rw [Coll.getItem, if_pos hk', CaseFold.lower_lower, h3]
  · rw [Coll.printedName, Coll.entry, h3, h2]
  · rw [Coll.parentOf, h2]

theorem mem_framesOf {c : Coll} (hc : Coll.Consistent c) (t k : Str) : k ∈ Coll.framesOf c t c.inputOrder ↔ Coll.Under c t k := by
  classical
  rw [Coll.framesOf, List.mem_filter, decide_eq_true_iff]
  exact ⟨fun hh => hh.2, fun hh => ⟨(hc.mem_order k).mpr ((hc.mem_table k).mp (Coll.under_mem hh)), hh⟩⟩

theorem mem_topsOf {c : Coll} (hc : Coll.Consistent c) (t : Str) : t ∈ Coll.topsOf c c.inputOrder ↔ t ∈ c.lowerKeys ∧ Coll.parentOf c t = none := by
  rw [Coll.topsOf, List.mem_filter, decide_eq_true_iff, hc.mem_order]

theorem nodup_fileOrder {c : Coll} (hc : Coll.Consistent c) : (fileOrder c).Nodup := by
  unfold fileOrder
  have key : ∀ ts : List Str, ts.Nodup → (∀ t ∈ ts, t ∈ Coll.topsOf c c.inputOrder) → (ts.flatMap fun t => t :: Coll.framesOf c t c.inputOrder).Nodup := by
    intro ts
    induction ts with
    | nil => intro _ _; simp
    | cons t ts ih =>
      intro hn ht
      rw [List.nodup_cons] at hn
      rw [List.flatMap_cons, List.nodup_append]
      refine ⟨?_, ih hn.2 fun x hx => ht x (by simp [hx]), ?_⟩
      · rw [List.nodup_cons]
        refine ⟨fun h => hc.acyclic t ((mem_framesOf hc t t).1 h), ?_⟩
        exact hc.nd_order.filter _
      · intro x hx y hy e
        subst e
        obtain ⟨s, hs, hy⟩ := List.mem_flatMap.1 hy
        have w : ∀ u, x ∈ u :: Coll.framesOf c u c.inputOrder → Coll.Within c u x := by
          intro u hu
          rcases List.mem_cons.1 hu with hu | hu
          · exact .inl hu
          · exact .inr ((mem_framesOf hc u x).1 hu)
        have := Coll.within_top_unique ((mem_topsOf hc t).1 (ht t (by simp))).2 ((mem_topsOf hc s).1 (ht s (by simp [hs]))).2 (w t hx) (w s hy)
        exact hn.1 (this ▸ hs)
  exact key _ (hc.nd_order.filter _) fun _ h => h

theorem mem_fileOrder {c : Coll} (hc : Coll.Consistent c) (k : Str) : k ∈ fileOrder c ↔ k ∈ c.lowerKeys := by
  unfold fileOrder
  rw [List.mem_flatMap]
  constructor
  · rintro ⟨t, ht, hk⟩
    rcases List.mem_cons.1 hk with rfl | hk
    · exact ((mem_topsOf hc _).1 ht).1
    · exact (hc.mem_table k).mp (Coll.under_mem ((mem_framesOf hc t k).1 hk))
  · intro hk
    obtain ⟨t, h3, h4, h5⟩ := Coll.top_exists hc _ k hk (Nat.lt_succ_self _)
    refine ⟨t, (mem_topsOf hc t).2 ⟨h3, h4⟩, ?_⟩
    rcases h5 with rfl | h5
    · simp
    · exact List.mem_cons_of_mem _ ((mem_framesOf hc t k).2 h5)

/-- A file of data blocks with save frames. -/
theorem file_frames {D : Dialect} {st : Style} {hints : List Hint} {std : Option Str} {bt : Block} (hbt : Fresh bt)
    (hlock : bt.overwrite = false) (hmax : bt.maxName = none) {S : Block → Block → Prop} {c : Coll} (hc : Coll.Reachable c) (hne : c.lowerKeys ≠ [])
    (hname : ∀ k ∈ c.lowerKeys, lower (Coll.printedName c k) = k)
    (htop : ∀ k ∈ c.lowerKeys, ∀ b, c.getItem k = .ok b → Coll.parentOf c k = none →
      TopOf D st hints std bt S (c.standard = some "Dic".toList) (Coll.printedName c k) b)
    (hframe : ∀ k ∈ c.lowerKeys, ∀ b, c.getItem k = .ok b → Coll.parentOf c k ≠ none → FrameOf D st hints bt S (Coll.printedName c k) b)
    {header : Str} (hhead : IsHeader (header ++ ['\n'])) (sc : Scoping) (u : Bool) :
    ∃ text c' rest, WriteText.writeOut st hints header c = .ok text ∧ text = header ++ '\n' :: rest ∧
      Reader.input D.g bt { standard := std, scoping := sc, unicode := u } text = (c', .ok ()) ∧ c'.inputOrder = fileOrder c ∧ c'.lowerKeys = fileOrder c ∧ c'.scoping = sc ∧
      dkeys c'.childTable = fileOrder c ∧
      ∀ k ∈ c.lowerKeys, Coll.printedName c' k = Coll.printedName c k ∧
        (∀ t, Coll.parentOf c' k = some t ↔ Coll.parentOf c t = none ∧ Coll.Under c t k) ∧
        ∃ b rb, c.getItem k = .ok b ∧ c'.getItem k = .ok rb ∧ S b rb := by
  have hcons := Coll.reachable_consistent hc
  have hget : ∀ k ∈ c.lowerKeys, ∃ b, c.getItem k = .ok b := by
    intro k hk
    obtain ⟨b, hb⟩ := dget_isSome.2 ((hcons.mem_dict k).2 hk)
    exact ⟨b, by rw [Coll.getItem, hcons.lower_keys k hk, if_pos hk, hb]⟩
  have hunder : ∀ t k, Coll.Under c t k → k ∈ c.lowerKeys ∧ Coll.parentOf c k ≠ none := by
    intro t k hu
    refine ⟨(hcons.mem_table k).mp (Coll.under_mem hu), ?_⟩
    cases hu with
    | child h => rw [h]; simp
    | deeper _ h => rw [h]; simp
  have htops : Coll.topsOf c c.inputOrder ≠ [] := by
    intro h
    cases hl : c.lowerKeys with
    | nil => exact hne hl
    | cons k ks =>
      have := (mem_fileOrder hcons k).2 (by rw [hl]; simp)
      rw [fileOrder, h] at this
      simp at this
  obtain ⟨qs, h1, h2, h3, h4, h5⟩ := dparts_of (c := c) (D := D) (st := st) (hints := hints) (bt := bt) (S := S) (std := std)
    (fr := fun t => Coll.framesOf c t c.inputOrder) (Coll.topsOf c c.inputOrder) htops fun k hk => by
    obtain ⟨k1, k2⟩ := (mem_topsOf hcons k).1 hk
    obtain ⟨b, hb'⟩ := hget k k1
    refine ⟨⟨b, hb', htop k k1 b hb' k2⟩, fun x hx => ?_⟩
    obtain ⟨x1, x2⟩ := hunder k x ((mem_framesOf hcons k x).1 hx)
    obtain ⟨bx, hbx⟩ := hget x x1
    exact ⟨bx, hbx, hframe x x1 bx hbx x2⟩
  have hpieces := (Coll.C37_flat_complete hc).1
  rw [Coll.flatFile] at hpieces
  obtain ⟨lines, hlines', hlines⟩ := hhead
  have hkeys : (qs.flatMap DPart.names).map lower = fileOrder c := by
    rw [h4, List.map_map]
    conv => rhs; rw [← List.map_id (fileOrder c)]
    show List.map _ (fileOrder c) = _
    apply List.map_congr_left
    intro k hk
    exact hname k ((mem_fileOrder hcons k).1 hk)
  cases qs with
  | nil =>
    exfalso
    have hnil : fileOrder c = [] := by rw [← hkeys]; rfl
    cases hl : c.lowerKeys with
    | nil => exact hne hl
    | cons k ks =>
      have := (mem_fileOrder hcons k).2 (by rw [hl]; simp)
      rw [hnil] at this
      simp at this
  | cons q qs =>
    have hin := input_frames (D := D) hbt hlock hmax { standard := std, scoping := sc, unicode := u } ⟨rfl, rfl⟩ (q := q) (qs := qs) h2 h3 (by rw [hkeys]; exact nodup_fileOrder hcons) (by simp)
      (header ++ ['\n'])
      (fun R hR s n w rest h => by
        rw [hlines']
        exact (lexes_header hR (by simp) h lines hlines).1)
    rw [List.append_assoc] at hin
    generalize hrows : ((q :: qs).flatMap fun q => q.rows D bt std) = rows at hin
    have hrk : rows.map (fun r => lower r.name) = fileOrder c := by
      rw [← hkeys, ← hrows, List.map_flatMap, List.map_flatMap]
      congr 1
      funext x
      simp [DPart.rows, DPart.names]
    refine ⟨header ++ ('\n' :: dpartsText (q :: qs)), _, dpartsText (q :: qs), by rw [WriteText.writeOut, hpieces]; simp only [h1], rfl, hin, ?_, ?_, ?_, ?_, ?_⟩
    · show [] ++ List.map _ _ = _
      rw [List.nil_append]; exact hrk
    · show [] ++ List.map _ _ = _
      rw [List.nil_append]; exact hrk
    · rfl
    · show dkeys ([] ++ rows.map Row.entry) = _
      have : dkeys ([] ++ rows.map Row.entry) = rows.map fun r => lower r.name := by simp [dkeys, Row.entry]
      rw [this, hrk]
    · intro k hk
      have hlk := hname k hk
      obtain ⟨t, ht, hkt⟩ := List.mem_flatMap.1 ((mem_fileOrder hcons k).2 hk)
      obtain ⟨t1, t2⟩ := (mem_topsOf hcons t).1 ht
      obtain ⟨q', m1, m2, ⟨b, m3, m4⟩, m5⟩ := h5 t ht
      rcases List.mem_cons.1 hkt with rfl | hkt
      · have hr : (⟨q'.name, q'.block bt std, none⟩ : Row) ∈ rows := by
          rw [← hrows]
          exact List.mem_flatMap.2 ⟨q', m1, by simp [DPart.rows]⟩
        obtain ⟨g1, g2, g3⟩ := joinRows_get (std := std) (sc := sc) (u := u) (by rw [hrk]; exact nodup_fileOrder hcons) hr
        simp only [m2, hlk] at g1 g2 g3
        refine ⟨g2, ?_, b, _, m3, g1, m4⟩
        intro t'
        rw [g3]
        constructor
        · intro h; cases h
        · rintro ⟨-, hu⟩
          exact absurd t2 (hunder _ _ hu).2
      · have hu := (mem_framesOf hcons t k).1 hkt
        obtain ⟨f, n1, n2, b', n3, n4⟩ := m5 k hkt
        have hr : (⟨f.2.name, f.2.frame D bt, some (lower q'.name)⟩ : Row) ∈ rows := by
          rw [← hrows]
          refine List.mem_flatMap.2 ⟨q', m1, ?_⟩
          rw [DPart.rows]
          exact List.mem_cons_of_mem _ (List.mem_map.2 ⟨f, n1, rfl⟩)
        obtain ⟨g1, g2, g3⟩ := joinRows_get (std := std) (sc := sc) (u := u) (by rw [hrk]; exact nodup_fileOrder hcons) hr
        simp only [n2, hlk, m2, hname t t1] at g1 g2 g3
        refine ⟨g2, ?_, b', _, n3, g1, n4⟩
        intro t'
        rw [g3]
        constructor
        · intro h
          simp only [Option.some.injEq] at h
          subst h
          exact ⟨t2, hu⟩
        · rintro ⟨h1', hu'⟩
          rw [Coll.within_top_unique t2 h1' (.inr hu) (.inr hu')]

theorem topLevel_eq {c : Coll} (hn : (dkeys c.childTable).Nodup) : c.topLevel = (dkeys c.childTable).filter fun k => decide (Coll.parentOf c k = none) := by
  have h : ∀ a ∈ c.childTable, Coll.parentOf c a.1 = a.2.parent := by
    intro a ha
    rw [Coll.parentOf, dget_of_mem hn ha]
  unfold Coll.topLevel dkeys
  rw [List.filter_map]
  congr 1
  apply List.filter_congr
  intro a ha
  show decide (a.2.parent = none) = decide (Coll.parentOf c a.1 = none)
  rw [h a ha]

theorem filter_fileOrder {c : Coll} (hc : Coll.Consistent c) :
    (fileOrder c).filter (fun k => decide (Coll.parentOf c k = none)) = Coll.topsOf c c.inputOrder := by
  unfold fileOrder
  have key : ∀ ts : List Str, (∀ t ∈ ts, Coll.parentOf c t = none) →
      (ts.flatMap fun t => t :: Coll.framesOf c t c.inputOrder).filter (fun k => decide (Coll.parentOf c k = none)) = ts := by
    intro ts
    induction ts with
    | nil => intro _; rfl
    | cons t ts ih =>
      intro ht
      rw [List.flatMap_cons, List.filter_append, ih fun x hx => ht x (by simp [hx]), List.filter_cons, if_pos (by simp [ht t (by simp)])]
      have : (Coll.framesOf c t c.inputOrder).filter (fun k => decide (Coll.parentOf c k = none)) = [] := by
        rw [List.filter_eq_nil_iff]
        intro k hk
        have hu := (mem_framesOf hc t k).1 hk
        cases hu with
        | child h => simp [h]
        | deeper _ h => simp [h]
      rw [this]
      rfl
  exact key _ fun t ht => ((mem_topsOf hc t).1 ht).2

end Verif.RoundTrip
