import Verif.Lemmas.WriteValue20
/-! # Writing the entries of a block of CIF 2.0 -/
set_option linter.unusedSectionVars false
namespace Verif.RoundTrip
open Print Lex Reader
variable [CaseFold]

/-! ## Short lines -/

/-- No line is longer than 78 characters, wherever the text is cut off. -/
def Short (text : Str) : Prop := ∀ x, x <+: text → column x < 79

theorem Short.mono {a b : Str} (h : Short b) (hp : a <+: b) : Short a := fun x hx => h x (hx.trans hp)

theorem first_line (y : Str) {b : Str} (hb : '\n' ∉ b) : ∃ l ∈ splitNl (b ++ y), b.length ≤ l.length := by
  by_cases hy : '\n' ∈ y
  · obtain ⟨y1, y2, rfl, h1⟩ := List.append_of_mem hy |>.elim fun s h => h.elim fun t e =>
      (show ∃ y1 y2, y = y1 ++ '\n' :: y2 ∧ '\n' ∉ y1 by
        clear h s t e
        induction y with
        | nil => simp at hy
        | cons c y ih =>
          by_cases hc : c = '\n'
          · exact ⟨[], y, by simp [hc], by simp⟩
          · obtain ⟨y1, y2, e, h⟩ := ih (by
              rcases List.mem_cons.1 hy with e | e
              · exact absurd e.symm hc
              · exact e)
            exact ⟨c :: y1, y2, by simp [e], by
              simp only [List.mem_cons, not_or]
              exact ⟨fun e => hc e.symm, h⟩⟩)
    refine ⟨b ++ y1, ?_, by simp⟩
    rw [← List.append_assoc, splitNl_append_nl _ _ (by simp [hb, h1])]
    simp
  · exact ⟨b ++ y, by rw [splitNl_of_noNl _ (by simp [hb, hy])]; simp, by simp⟩

theorem last_line : ∀ (x : Str), ('\n' ∉ x ∧ column x = x.length) ∨ ∃ a b, x = a ++ '\n' :: b ∧ '\n' ∉ b ∧ column x = b.length := by
  intro x
  by_cases hx : '\n' ∈ x
  · right
    have key : ∃ a b, x = a ++ '\n' :: b ∧ '\n' ∉ b := by
      induction x with
      | nil => simp at hx
      | cons c x ih =>
        by_cases hm : '\n' ∈ x
        · obtain ⟨a, b, e, h⟩ := ih hm
          exact ⟨c :: a, b, by simp [e], h⟩
        · rcases List.mem_cons.1 hx with e | e
          · exact ⟨[], x, by rw [e]; rfl, hm⟩
          · exact absurd e hm
    obtain ⟨a, b, rfl, h⟩ := key
    refine ⟨a, b, rfl, h, ?_⟩
    have e : '\n' :: b = ['\n'] ++ b := rfl
    rw [column_break a (by simp), e, column_line _ h]
    simp [column]
  · left
    refine ⟨hx, ?_⟩
    have := column_line [] hx
    simpa [column] using this

theorem short_of_lines {text : Str} (h : ShortLines text) : Short text := by
  rintro x ⟨y, rfl⟩
  rcases last_line x with ⟨h1, h2⟩ | ⟨a, b, rfl, h1, h2⟩
  · obtain ⟨l, h3, h4⟩ := first_line y h1
    have := h l h3
    omega
  · obtain ⟨l, h3, h4⟩ := first_line y h1
    obtain ⟨pre, -, h5⟩ := line_after (b ++ y) a
    have := h l (by
      have e : a ++ '\n' :: b ++ y = a ++ '\n' :: (b ++ y) := by simp
      rw [e, h5]
      simp [h3])
    omega

theorem room_of {s : Sink} (hw : s.width = 80) (h : True1 s) (hs : column s.out < 79) : s.pos + 1 ≤ s.width := by
  unfold True1 at h
  omega

/-! ## Rows -/

/-- The sink before and after part of a block is written: the recorded position stays good if lines are short. -/
structure Onward (s s' : Sink) : Prop where
  width : s'.width = s.width
  indent : s'.indent = s.indent
  more : s.out <+: s'.out
  truth : Short s'.out → True1 s → True1 s'

theorem Onward.refl (s : Sink) : Onward s s := ⟨rfl, rfl, List.prefix_refl _, fun _ h => h⟩

theorem Onward.trans {a b c : Sink} (h1 : Onward a b) (h2 : Onward b c) : Onward a c :=
  ⟨h2.width.trans h1.width, h2.indent.trans h1.indent, h1.more.trans h2.more, fun hs h => h2.truth hs (h1.truth (hs.mono h2.more) h)⟩

theorem Frame.onward {s s' : Sink} (h : Frame s s') (hm : s.out <+: s'.out) : Onward s s' := ⟨h.width, h.indent, hm, fun _ => h.truth⟩

theorem Wrote.onward {s s' : Sink} {v : PyVal} {g w : Str} (h : Wrote s s' v g w) : Onward s s' :=
  h.frame.onward (by rw [h.out, List.append_assoc]; exact List.prefix_append _ _)

theorem Wrote.laid {s s' : Sink} {v : PyVal} {g w : Str} (h : Wrote s s' v g w) {ws : List Str} {tail : Str} (hl : LaidTo ws s.out tail)
    (hne : tail ≠ [] ∨ g ≠ []) : LaidTo (ws ++ [w]) s'.out [] := by
  rw [h.out]
  apply (hl.gap h.gap).word
  left
  rcases hne with h | h <;> simp [h]

/-- The blank after a word. -/
theorem write_after {s : Sink} (hw : s.width = 80) (hl : ∃ c, s.last = some c ∧ ¬ (c = ' ' ∨ c = '\n' ∨ c = '\t')) :
    ∃ s', s.write [' '] { canbreak := true, doTab := false, delimiter := true } = .ok s' ∧ Onward s s' ∧ s'.tab = s.tab ∧ s'.pos = s.pos + 1 ∧
      ∃ g, IsGap g ∧ s'.out = s.out ++ g ∧ (s.pos + 1 ≤ 80 → g ≠ []) ∧ (Short s'.out → True1 s → g ≠ []) := by
  obtain ⟨s', h1, h2, h3, h4, -, h6, h7, h8⟩ := write_blank s
  have hmore : s.out <+: s'.out := by
    rcases h8 with h | h
    · rw [h]; exact List.prefix_refl _
    · rw [h]; exact List.prefix_append _ _
  have hroom : Short s'.out → True1 s → s.pos + 1 ≤ s.width := fun hs ht => room_of hw ht (hs _ hmore)
  refine ⟨s', h1, ⟨h3, h4, hmore, fun hs ht => (h7 (hroom hs ht) hl).2 ht⟩, h2, h6, ?_⟩
  have hg : IsGap [' '] := by intro c hc; simp at hc; exact .inl hc
  by_cases hp : s.pos + 1 ≤ s.width
  · exact ⟨[' '], hg, (h7 hp hl).1, by simp, by simp⟩
  · refine ⟨if s'.out = s.out then [] else [' '], ?_, ?_, fun h => absurd h (by omega), fun hs ht => absurd (hroom hs ht) hp⟩
    · split
      · exact isGap_nil
      · exact hg
    · split
      · rename_i h; simp [h]
      · rename_i h
        rcases h8 with h8 | h8
        · exact absurd h8 h
        · exact h8

theorem writes_packet {maxOut : Int} {hints : List Hint} (hh : Columns hints) {v : PyVal} (h : Writable20 (Style.v20 maxOut) (asked hints) v) (s : Sink) (n : Str) :
    ∃ s' g w, formatPacketItem (Style.v20 maxOut) (loopHint hints n) s v = .ok s' ∧ Wrote s s' v g w ∧
      (Simple v → s'.tab = s.tab ∧ (s.tab > 0 → g ≠ [])) := by
  have hd : hintDelimiter (loopHint hints n) ∈ asked hints := by
    unfold asked
    cases hx : loopHint hints n with
    | none => simp [hintDelimiter]
    | some x => exact List.mem_cons_of_mem _ (List.mem_map_of_mem (loopHint_mem hx))
  have hcol : hintColumn (loopHint hints n) ≠ 0 := by
    cases hx : loopHint hints n with
    | none => simp [hintColumn]
    | some x => exact hh x (loopHint_mem hx)
  have other : (∀ t, v ≠ .str t) → ∃ s' g w, formatPacketItem (Style.v20 maxOut) (loopHint hints n) s v = .ok s' ∧ Wrote s s' v g w ∧
      (Simple v → s'.tab = s.tab ∧ (s.tab > 0 → g ≠ [])) := by
    intro hv
    obtain ⟨s', g, w, h1, h2, h3, -⟩ := writes_value h s false _ (hintColumn (loopHint hints n)) hd
    refine ⟨s', g, w, ?_, h2, fun hs => ⟨(h3 hs).1, fun ht => (h3 hs).2 ht hcol⟩⟩
    cases v with
    | str t => exact absurd rfl (hv t)
    | _ => exact h1
  cases h with
  | str h =>
    rename_i t
    obtain ⟨w, hw⟩ := C05_total (Style.v20 maxOut) t (hintDelimiter (loopHint hints n))
    obtain ⟨h1, h2⟩ := format_reads20 hw (h _ hd w hw)
    obtain ⟨s', g, h3, h4⟩ := write_writes s (t := w) (o := { startcol := hintColumn (loopHint hints n) }) h1.ne rfl
    refine ⟨s', g, w, ?_, ⟨.write h4 rfl rfl, h4.gap, h4.out, h4.last, h2, h1⟩, fun _ => ⟨h4.tab, fun a => h4.stop a rfl hcol⟩⟩
    unfold formatPacketItem
    simp only [hw]
    exact h3
  | num h => exact other (by simp)
  | slist h => exact other (by simp)
  | list h => exact other (by simp)
  | sdict h1 h2 h3 => exact other (by simp)

/-- The values in a row stand apart: there is a tab stop between them, or there is one value, or the lines are short. -/
def RowApart (s s' : Sink) (row : List PyVal) : Prop := (s.tab > 0 ∧ ∀ v ∈ row, Simple v) ∨ row.length ≤ 1 ∨ (Short s'.out ∧ True1 s)

theorem writes_row {maxOut : Int} {hints : List Hint} (hh : Columns hints) : ∀ (ns : List Str) (row : List PyVal) (s : Sink), ns.length = row.length →
    (∀ v ∈ row, Writable20 (Style.v20 maxOut) (asked hints) v) → s.width = 80 →
    ∃ s', formatRow (Style.v20 maxOut) hints s ns row = .ok s' ∧ Onward s s' ∧ ((∀ v ∈ row, Simple v) → s'.tab = s.tab) ∧
      (RowApart s s' row → ∀ ws tail, LaidTo ws s.out tail → (row = [] ∨ tail ≠ [] ∨ (s.tab > 0 ∧ ∀ v ∈ row, Simple v)) →
        ∃ ws' tail', ReadsAll V2.dialect20 (row.map asRead20) ws' ∧ LaidTo (ws ++ ws') s'.out tail')
  | [], [], s, _, _, _ => ⟨s, rfl, .refl s, fun _ => rfl, fun _ ws tail hl _ => ⟨[], tail, trivial, by simpa using hl⟩⟩
  | n :: ns, v :: row, s, hlen, hv, hw => by
    obtain ⟨s1, g1, w, e1, w1, t1⟩ := writes_packet hh (hv v (by simp)) s n
    have hw1 : s1.width = 80 := by rw [w1.frame.width, hw]
    obtain ⟨s2, e2, o2, t2, -, g2, hg2, q2, -, r2⟩ := write_after hw1 (by rw [w1.last]; exact w1.solid)
    obtain ⟨s3, e3, o3, t3, q3⟩ := writes_row hh ns row s2 (by simpa using hlen) (fun x hx => hv x (by simp [hx])) (by rw [o2.width, hw1])
    refine ⟨s3, ?_, w1.onward.trans (o2.trans o3), ?_, ?_⟩
    · rw [formatRow, e1]
      simp only [andThen]
      rw [e2]
      exact e3
    · intro hs
      rw [t3 fun x hx => hs x (by simp [hx]), t2, (t1 (hs v (by simp))).1]
    · intro ha ws tail hl ht
      have l1 : LaidTo (ws ++ [w]) s1.out [] := by
        refine w1.laid hl ?_
        rcases ht with ht | ht | ht
        · cases ht
        · exact .inl ht
        · exact .inr ((t1 (ht.2 v (by simp))).2 ht.1)
      have l2 : LaidTo (ws ++ [w]) s2.out g2 := by
        rw [q2]
        simpa using l1.gap hg2
      have rest : RowApart s2 s3 row ∧ (row = [] ∨ g2 ≠ [] ∨ (s2.tab > 0 ∧ ∀ v ∈ row, Simple v)) := by
        rcases ha with ⟨ha1, ha2⟩ | ha | ⟨ha1, ha2⟩
        · have : s2.tab > 0 ∧ ∀ v ∈ row, Simple v := ⟨by rw [t2, (t1 (ha2 v (by simp))).1]; exact ha1, fun x hx => ha2 x (by simp [hx])⟩
          exact ⟨.inl this, .inr (.inr this)⟩
        · cases row with
          | nil => exact ⟨.inr (.inl (by simp)), .inl rfl⟩
          | cons x row => simp at ha
        · have hs2 : Short s2.out := ha1.mono o3.more
          have ht1 : True1 s1 := w1.frame.truth ha2
          exact ⟨.inr (.inr ⟨ha1, o2.truth hs2 ht1⟩), .inr (.inl (r2 hs2 ht1))⟩
      obtain ⟨ws', tail', h1, h2⟩ := q3 rest.1 _ _ l2 rest.2
      exact ⟨w :: ws', tail', ⟨⟨w1.reads.readsIn, w1.reads.ne⟩, h1⟩, by simpa using h2⟩
  | [], _ :: _, _, h, _, _ => by simp at h
  | _ :: _, [], _, h, _, _ => by simp at h

theorem readsAll_append {D : Dialect} : ∀ {a b : List PyVal} {x y : List Str}, ReadsAll D a x → ReadsAll D b y → ReadsAll D (a ++ b) (x ++ y)
  | [], _, [], _, _, h => h
  | _ :: _, _, _ :: _, _, h1, h2 => ⟨h1.1, readsAll_append h1.2 h2⟩
  | [], _, _ :: _, _, h, _ => h.elim
  | _ :: _, _, [], _, h, _ => h.elim

theorem writes_rows {maxOut : Int} {hints : List Hint} (hh : Columns hints) (ns : List Str) : ∀ (rs : List (List PyVal)) (s : Sink) (first : Bool),
    (∀ r ∈ rs, ns.length = r.length) → (∀ v ∈ rs.flatten, Writable20 (Style.v20 maxOut) (asked hints) v) → s.width = 80 →
    ∃ s', formatRows (Style.v20 maxOut) hints ns s first rs = .ok s' ∧ Onward s s' ∧
      ((s.tab > 0 ∧ ∀ v ∈ rs.flatten, Simple v) ∨ ns.length ≤ 1 ∨ (Short s'.out ∧ True1 s) → ∀ ws tail, LaidTo ws s.out tail → (first = true → tail ≠ []) →
        ∃ ws' tail', ReadsAll V2.dialect20 (rs.flatten.map asRead20) ws' ∧ LaidTo (ws ++ ws') s'.out tail')
  | [], s, _, _, _, _ => ⟨s, rfl, .refl s, fun _ ws tail hl _ => ⟨[], tail, trivial, by simpa using hl⟩⟩
  | row :: rs, s, first, hn, hv, hw => by
    obtain ⟨s1, e1, o1, t1, p1, q1⟩ : ∃ s1, (if first = true then Except.ok s else s.write ['\n']) = .ok s1 ∧ Onward s s1 ∧ s1.tab = s.tab ∧ (True1 s → True1 s1) ∧
        ∀ ws tail, LaidTo ws s.out tail → (first = true → tail ≠ []) → ∃ tail1, LaidTo ws s1.out tail1 ∧ tail1 ≠ [] := by
      cases first with
      | true => exact ⟨s, rfl, .refl s, rfl, id, fun ws tail hl ht => ⟨tail, hl, ht rfl⟩⟩
      | false =>
        obtain ⟨s1, g1, e1, w1⟩ := write_writes s (t := ['\n']) (o := {}) (by simp) rfl
        refine ⟨s1, e1, (Frame.write w1 rfl rfl).onward (by rw [w1.out, List.append_assoc]; exact List.prefix_append _ _), w1.tab, w1.truth, fun ws tail hl _ => ?_⟩
        refine ⟨tail ++ g1 ++ ['\n'], ?_, by simp⟩
        rw [w1.out]
        exact (hl.gap w1.gap).gap (by intro c hc; simp at hc; exact .inr hc)
    obtain ⟨s2, e2, o2, t2, q2⟩ := writes_row hh ns row s1 (hn row (by simp)) (fun x hx => hv x (by simp [hx])) (by rw [o1.width, hw])
    obtain ⟨s3, e3, o3, q3⟩ := writes_rows hh ns rs s2 false (fun r hr => hn r (by simp [hr]))
      (fun x hx => hv x (by simp only [List.flatten_cons, List.mem_append]; exact .inr hx)) (by rw [o2.width, o1.width, hw])
    refine ⟨s3, ?_, o1.trans (o2.trans o3), ?_⟩
    · rw [formatRows, e1]
      simp only [andThen]
      rw [e2]
      exact e3
    · intro ha ws tail hl ht
      obtain ⟨tail1, l1, n1⟩ := q1 ws tail hl ht
      have ha2 : RowApart s1 s2 row := by
        rcases ha with ha | ha | ha
        · exact .inl ⟨by rw [t1]; exact ha.1, fun v hv' => ha.2 v (by simp [hv'])⟩
        · exact .inr (.inl (by rw [← hn row (by simp)]; exact ha))
        · exact .inr (.inr ⟨ha.1.mono o3.more, p1 ha.2⟩)
      obtain ⟨ws2, tail2, r2, l2⟩ := q2 ha2 ws tail1 l1 (.inr (.inl n1))
      have ha3 : (s2.tab > 0 ∧ ∀ v ∈ rs.flatten, Simple v) ∨ ns.length ≤ 1 ∨ (Short s3.out ∧ True1 s2) := by
        rcases ha with ha | ha | ha
        · exact .inl ⟨by rw [t2 fun v hv' => ha.2 v (by simp [hv']), t1]; exact ha.1, fun v hv' => ha.2 v (by
            simp only [List.flatten_cons, List.mem_append]; exact .inr hv')⟩
        · exact .inr (.inl ha)
        · exact .inr (.inr ⟨ha.1, o2.truth (ha.1.mono o3.more) (p1 ha.2)⟩)
      obtain ⟨ws3, tail3, r3, l3⟩ := q3 ha3 _ tail2 l2 (by simp)
      refine ⟨ws2 ++ ws3, tail3, ?_, by simpa using l3⟩
      rw [List.flatten_cons, List.map_append]
      exact readsAll_append r2 r3

/-! ## Names -/

theorem write_nothing {s : Sink} (h : s.pos ≤ s.width) : s.write [] { doTab := false } = .ok s := by
  unfold Sink.write
  have : ¬ s.pos > s.width := by omega
  simp [this, Sink.toColumn, Sink.toTab, Sink.setIndent, Sink.account, Sink.afterBreak]

theorem write_pos_break {s s' : Sink} {t : Str} {o : WriteOpts} (h : s.write t o = .ok s') (ht : t = ['\n'] ∨ t = "loop_\n".toList)
    (hd : o.delimiter = false) : s'.pos = 1 := by
  obtain ⟨s1, h1, -, h2, h3⟩ := write_total (s := s) (t := t) (o := o) (.inr (.inl ⟨hd, by rcases ht with rfl | rfl <;> simp⟩))
  rw [h1] at h
  simp only [Except.ok.injEq] at h
  subst h
  rcases ht with ht | ht
  · exact h2 ht
  · exact h3 ht

theorem writes_names {b : Block} {hints : List Hint} {indent : Nat} : ∀ (ns ts : List Str) (s : Sink), spelled b ns = some ts →
    (∀ t ∈ ts, t ≠ []) → s.width = 80 → s.pos = 1 → ∃ s', formatNames b hints indent s ns = .ok s' ∧ Onward s s' ∧ (True1 s → True1 s')
  | [], _, s, _, _, _, _ => ⟨s, rfl, .refl s, id⟩
  | n :: ns, ts, s, h, hne, hw, hp => by
    rw [spelled] at h
    split at h
    · rename_i t ts' h1 h2
      simp only [Option.some.injEq] at h
      subst h
      obtain ⟨s1, e1, o1, p1⟩ : ∃ s1, s.write (List.replicate (hintNamePos (loopHint hints n) indent).toNat ' ') { doTab := false } = .ok s1 ∧ Onward s s1 ∧
          (True1 s → True1 s1) := by
        by_cases hz : (hintNamePos (loopHint hints n) indent).toNat = 0
        · rw [hz]
          exact ⟨s, write_nothing (by omega), .refl s, id⟩
        · obtain ⟨s1, g1, e1, w1⟩ := write_writes s (t := List.replicate (hintNamePos (loopHint hints n) indent).toNat ' ') (o := { doTab := false })
            (by simpa using hz) rfl
          exact ⟨s1, e1, (Frame.write w1 rfl rfl).onward (by rw [w1.out, List.append_assoc]; exact List.prefix_append _ _), w1.truth⟩
      obtain ⟨s2, g2, e2, w2⟩ := write_writes s1 (t := t) (o := { doTab := false }) (hne t (by simp)) rfl
      obtain ⟨s3, g3, e3, w3⟩ := write_writes s2 (t := ['\n']) (o := { doTab := false }) (by simp) rfl
      have o2 := (Frame.write w2 rfl rfl).onward (by rw [w2.out, List.append_assoc]; exact List.prefix_append _ _)
      have o3 := (Frame.write w3 rfl rfl).onward (by rw [w3.out, List.append_assoc]; exact List.prefix_append _ _)
      obtain ⟨s4, e4, o4, p4⟩ := writes_names (hints := hints) (indent := indent) ns ts' s3 h2 (fun x hx => hne x (by simp [hx]))
        (by rw [o3.width, o2.width, o1.width, hw]) (write_pos_break e3 (.inl rfl) rfl)
      refine ⟨s4, ?_, o1.trans (o2.trans (o3.trans o4)), p4 ∘ w3.truth ∘ w2.truth ∘ p1⟩
      rw [formatNames, e1]
      simp only [andThen]
      rw [h1]
      simp only
      rw [e2]
      simp only
      rw [e3]
      exact e4
    · cases h

theorem spelled_length {b : Block} : ∀ {ns ts : List Str}, spelled b ns = some ts → ts.length = ns.length
  | [], ts, h => by
    simp only [spelled, Option.some.injEq] at h
    rw [← h]
  | n :: ns, ts, h => by
    rw [spelled] at h
    split at h
    · rename_i t ts' h1 h2
      simp only [Option.some.injEq] at h
      rw [← h]
      simp [spelled_length h2]
    · cases h

/-! ## Entries -/

/-- An entry as it is read in 2.0. -/
def asReadEntry20 : Entry → Entry
  | .item n v => .item n (asRead20 v)
  | .loop ns vs => .loop ns (vs.map asRead20)

/-- An entry that can be written in 2.0. -/
def WritableEntry20 (st : Style) (hints : List Hint) : Entry → Prop
  | .item n v => WritableName20 n ∧ Writable20 st (asked hints) v
  | .loop ns vs => (∀ n ∈ ns, WritableName20 n) ∧ vs ≠ [] ∧ ∀ v ∈ vs, Writable20 st (asked hints) v

/-- The words of the entry stand apart wherever lines end. -/
def EntryApart (hints : List Hint) : Entry → Prop
  | .item t v => ∀ d, v = .sdict d → t.length < 80 ∧ ∀ h ∈ hints, CaseFold.lower h.dataname = CaseFold.lower t → ∀ p, h.namePos = some p → p.toNat + t.length < 80
  | .loop ts vs => ts.length ≤ 1 ∨ ∀ v ∈ vs, Simple v

theorem nameChar_of20 {c : Char} (h : NameChar20 c) : Pat.nameChar2 c = true := by
  unfold Pat.nameChar2
  rcases h with h | h | h | h | h
  · simp [nameChar_of h]
  · simp [h]
  · simp [h]
  · simp [h]
  · simp [h]

theorem WritableName20.word {n : Str} (h : WritableName20 n) : NameWord V2.dialect20 n := by
  obtain ⟨t, e, h1, h2⟩ := h
  exact ⟨t, e, h1, fun c hc => nameChar_of20 (h2 c hc)⟩

theorem nameChar20_visible {c : Char} (h : NameChar20 c) : ¬ (c = ' ' ∨ c = '\n' ∨ c = '\t') := by
  rintro (rfl | rfl | rfl) <;> exact absurd h (by unfold NameChar20; decide)

theorem WritableName20.visible {n : Str} (h : WritableName20 n) : n ≠ [] ∧ (∀ c ∈ n, ¬ (c = ' ' ∨ c = '\n' ∨ c = '\t')) := by
  obtain ⟨t, rfl, h1, h2⟩ := h
  refine ⟨by simp, fun c hc => ?_⟩
  rcases List.mem_cons.1 hc with rfl | hc
  · decide
  · exact nameChar20_visible (h2 c hc)

theorem writes_item {maxOut : Int} {hints : List Hint} (hh : Columns hints) {b : Block} {n : Str} {e : Entry} (he : entryOf b (.name n) = some e)
    (hn : ∀ t ∈ e.names, lower t = lower n) (hwe : WritableEntry20 (Style.v20 maxOut) hints e) (s : Sink) (hw : s.width = 80) (hi : s.indent = 0) :
    ∃ s', printItem (Style.v20 maxOut) hints b s n = .ok s' ∧ Onward s s' ∧
      (EntryApart hints e ∨ (Short s'.out ∧ True1 s) → ∀ ws tail, LaidTo ws s.out tail →
        ∃ ws' tail', EntryReads V2.dialect20 (asReadEntry20 e) ws' ∧ LaidTo (ws ++ ws') s'.out tail') := by
  rw [entryOf] at he
  split at he
  · rename_i v t hv ht
    simp only [Option.some.injEq] at he
    subst he
    obtain ⟨hname, hval⟩ := hwe
    have hlt : lower t = lower n := hn t (by simp [Entry.names])
    simp only [printItem, hv, ht]
    generalize hspec : (hints.find? fun h => decide (lower h.dataname = lower n)) = spec
    obtain ⟨hne, hvis⟩ := hname.visible
    obtain ⟨s1, g1, e1, w1⟩ := write_writes (s.setTab (if hintColumn spec < 0 then 40 else hintColumn spec)) (t := t)
      (o := { mustbreak := true, doTab := false, startcol := hintNamePos spec (-1) }) hne rfl
    have hpos := write_name (s.setTab (if hintColumn spec < 0 then 40 else hintColumn spec)) hne (fun h => hvis _ h (.inr (.inl rfl))) hi _ e1
    have f1 : Frame s s1 := by
      have := Frame.write w1 rfl rfl
      exact ⟨this.width, this.indent, this.indents, this.truth⟩
    have hout1 : s1.out = s.out ++ g1 ++ t := w1.out
    have o1 : Onward s s1 := f1.onward (by rw [hout1, List.append_assoc]; exact List.prefix_append _ _)
    have hw1 : s1.width = 80 := by rw [f1.width, hw]
    obtain ⟨s2, e2, o2, t2, p2, g2, hg2, q2, r2, r2'⟩ := write_after hw1 (by rw [w1.last]; exact endsSolid_of hne hvis)
    have hd : hintDelimiter spec ∈ asked hints := by
      unfold asked
      cases spec with
      | none => simp [hintDelimiter]
      | some x => exact List.mem_cons_of_mem _ (List.mem_map_of_mem (List.mem_of_find?_eq_some hspec))
    have hcol : hintColumn spec ≠ 0 := by
      cases spec with
      | none => simp [hintColumn]
      | some x => exact hh x (List.mem_of_find?_eq_some hspec)
    obtain ⟨s3, g3, w, e3, w3, h3, h3'⟩ := writes_value hval s2 false _ (hintColumn spec) hd
    refine ⟨s3, ?_, o1.trans (o2.trans w3.onward), ?_⟩
    · rw [e1]
      simp only [andThen]
      rw [e2]
      exact e3
    · intro ha ws tail hl
      have l1 : LaidTo (ws ++ [t]) s1.out [] := by
        rw [hout1]
        exact (hl.gap w1.gap).word (.inl (by simp [w1.must rfl]))
      have l2 : LaidTo (ws ++ [t]) s2.out g2 := by
        rw [q2]
        simpa using l1.gap hg2
      have hne' : g2 ≠ [] ∨ g3 ≠ [] := by
        rcases ha with ha | ⟨ha1, ha2⟩
        · have htab : s2.tab > 0 := by
            rw [t2, w1.tab]
            simp only [Sink.setTab]
            split <;> omega
          have hfull : IsList v → g2 ≠ [] ∨ g3 ≠ [] := by
            intro hlist
            by_cases hroom : s1.pos + 1 ≤ 80
            · exact .inl (r2 hroom)
            · exact .inr (h3' hlist (by rw [p2, o2.width, hw1]; omega))
          cases hval with
          | str _ => exact .inr ((h3 trivial).2 htab hcol)
          | num hnum => exact .inr ((h3 hnum.1).2 htab hcol)
          | slist _ => exact hfull trivial
          | list _ => exact hfull trivial
          | sdict _ _ _ =>
            obtain ⟨a1, a2⟩ := ha _ rfl
            refine .inl (r2 ?_)
            rw [hpos]
            cases spec with
            | none => simp [hintNamePos]; omega
            | some x =>
              obtain ⟨x1, x2, x3, x4⟩ := x
              cases x4 with
              | none => simp [hintNamePos]; omega
              | some p =>
                have := a2 _ (List.mem_of_find?_eq_some hspec) (by
                  have := List.find?_some hspec
                  rw [hlt]
                  simpa using this) p rfl
                simp only [hintNamePos]
                omega
        · exact .inl (r2' (ha1.mono w3.onward.more) (f1.truth ha2))
      exact ⟨[t, w], [], ⟨hname.word, w, rfl, w3.reads.readsIn, w3.reads.ne⟩, by simpa using w3.laid l2 hne'⟩
  · cases he

theorem writes_loop {maxOut : Int} {hints : List Hint} (hh : Columns hints) {b : Block} {indent : Nat} (hli : ∃ li, loopIndent hints indent = .ok li) {n : Nat}
    {e : Entry} (he : entryOf b (.loop n) = some e) (hwe : WritableEntry20 (Style.v20 maxOut) hints e) (s : Sink) (hw : s.width = 80) :
    ∃ s', printLoop (Style.v20 maxOut) hints b indent s n = .ok s' ∧ Onward s s' ∧
      (EntryApart hints e ∨ (Short s'.out ∧ True1 s) → ∀ ws tail, LaidTo ws s.out tail →
        ∃ ws' tail', EntryReads V2.dialect20 (asReadEntry20 e) ws' ∧ LaidTo (ws ++ ws') s'.out tail') := by
  obtain ⟨li, hli⟩ := hli
  rw [entryOf] at he
  split at he
  · cases he
  rename_i names hn
  split at he
  · rename_i ts cols hts hcols
    simp only [Option.some.injEq] at he
    subst he
    obtain ⟨h1, h2, h3⟩ := hwe
    simp only [printLoop, hli, hn]
    obtain ⟨s1, g1, e1, w1⟩ := write_writes (s.setTab 10) (t := "loop_\n".toList) (o := { mustbreak := true, doTab := false, startcol := li }) (by simp) rfl
    have f1 : Frame s s1 := by
      have := Frame.write w1 rfl rfl
      exact ⟨this.width, this.indent, this.indents, this.truth⟩
    have hout1 : s1.out = s.out ++ g1 ++ "loop_\n".toList := w1.out
    have o1 : Onward s s1 := f1.onward (by rw [hout1, List.append_assoc]; exact List.prefix_append _ _)
    have hw1 : s1.width = 80 := by rw [f1.width, hw]
    obtain ⟨s2, e2, o2, t2⟩ := writes_names (hints := hints) (indent := indent + 2) names ts s1 hts (fun t ht => (h1 t ht).visible.1) hw1
      (write_pos_break e1 (.inr rfl) rfl)
    obtain ⟨s3, e3, o3, q3⟩ := writes_rows hh names (rows cols) s2 true (rows_length hcols) h3 (by rw [o2.width, hw1])
    refine ⟨s3, ?_, o1.trans (o2.trans o3), ?_⟩
    · rw [e1]
      simp only [andThen]
      rw [e2]
      simp only
      rw [hcols]
      exact e3
    · intro ha ws tail hl
      have l1 : LaidTo (ws ++ ["loop_".toList]) s1.out ['\n'] := by
        have e1 : s1.out = (s.out ++ g1 ++ "loop_".toList) ++ ['\n'] := by
          rw [hout1]
          simp only [List.append_assoc]
          rfl
        rw [e1]
        exact ((hl.gap w1.gap).word (.inl (by simp [w1.must rfl]))).gap (by intro c hc; simp at hc; exact .inr hc)
      obtain ⟨ts', tail2, hsp, l2, n2, tab2⟩ := formatNames_laid names s1 s2 _ _ l1 (by simp) e2
      rw [hts] at hsp
      simp only [Option.some.injEq] at hsp
      subst hsp
      have hlen : ts.length = names.length := spelled_length hts
      have hap : (s2.tab > 0 ∧ ∀ v ∈ (rows cols).flatten, Simple v) ∨ names.length ≤ 1 ∨ (Short s3.out ∧ True1 s2) := by
        rcases ha with (ha | ha) | ⟨ha1, ha2⟩
        · exact .inr (.inl (by omega))
        · exact .inl ⟨by rw [tab2, w1.tab]; simp [Sink.setTab], ha⟩
        · exact .inr (.inr ⟨ha1, t2 (f1.truth ha2)⟩)
      obtain ⟨ws3, tail3, r3, l3⟩ := q3 hap _ tail2 l2 (fun _ => n2)
      exact ⟨"loop_".toList :: ts ++ ws3, tail3, ⟨fun t ht => (h1 t ht).word, by simpa using h2, ws3, rfl, r3⟩, by simpa using l3⟩
  · cases he

/-- The entries of a block. -/
theorem writes_refs {maxOut : Int} {hints : List Hint} (hh : Columns hints) {b : Block} {indent : Nat} (hli : ∃ li, loopIndent hints indent = .ok li) :
    ∀ (refs : List Ref) (es : List Entry) (s : Sink), docOf b refs = some es → (∀ r ∈ refs, ∀ e, entryOf b r = some e → ∀ n, r = .name n → ∀ t ∈ e.names, lower t = lower n) →
      (∀ e ∈ es, WritableEntry20 (Style.v20 maxOut) hints e) → s.width = 80 → s.indent = 0 →
      ∃ s', printRefs (Style.v20 maxOut) hints b indent s refs = .ok s' ∧ Onward s s' ∧
        ((∀ e ∈ es, EntryApart hints e) ∨ (Short s'.out ∧ True1 s) → ∀ ws tail, LaidTo ws s.out tail →
          ∃ ws' tail', DocReads V2.dialect20 (es.map asReadEntry20) ws' ∧ LaidTo (ws ++ ws') s'.out tail')
  | [], es, s, hd, _, _, _, _ => by
    simp only [docOf, Option.some.injEq] at hd
    subst hd
    exact ⟨s, rfl, .refl s, fun _ ws tail hl => ⟨[], tail, rfl, by simpa using hl⟩⟩
  | r :: rs, es, s, hd, hn, he, hw, hi => by
    rw [docOf] at hd
    split at hd
    · rename_i e es' h1 h2
      simp only [Option.some.injEq] at hd
      subst hd
      have hfirst : ∃ s', (match r with
          | .name n => printItem (Style.v20 maxOut) hints b s n
          | .loop n => printLoop (Style.v20 maxOut) hints b indent s n) = .ok s' ∧ Onward s s' ∧
        (EntryApart hints e ∨ (Short s'.out ∧ True1 s) → ∀ ws tail, LaidTo ws s.out tail →
          ∃ ws' tail', EntryReads V2.dialect20 (asReadEntry20 e) ws' ∧ LaidTo (ws ++ ws') s'.out tail') := by
        cases r with
        | name n => exact writes_item hh h1 (hn _ (by simp) e h1 n rfl) (he e (by simp)) s hw hi
        | loop n => exact writes_loop hh hli h1 (he e (by simp)) s hw
      obtain ⟨s1, e1, o1, q1⟩ := hfirst
      obtain ⟨s2, e2, o2, q2⟩ := writes_refs hh hli rs es' s1 h2 (fun x hx => hn x (by simp [hx])) (fun x hx => he x (by simp [hx])) (by rw [o1.width, hw])
        (by rw [o1.indent, hi])
      refine ⟨s2, ?_, o1.trans o2, ?_⟩
      · cases r with
        | name n => rw [printRefs]; simp only at e1; rw [e1]; exact e2
        | loop n => rw [printRefs]; simp only at e1; rw [e1]; exact e2
      · intro ha ws tail hl
        obtain ⟨ws1, tail1, r1, l1⟩ := q1 (by
          rcases ha with ha | ha
          · exact .inl (ha e (by simp))
          · exact .inr ⟨ha.1.mono o2.more, ha.2⟩) ws tail hl
        obtain ⟨ws2, tail2, r2, l2⟩ := q2 (by
          rcases ha with ha | ha
          · exact .inl fun x hx => ha x (by simp [hx])
          · exact .inr ⟨ha.1, o1.truth (ha.1.mono o2.more) ha.2⟩) _ tail1 l1
        exact ⟨ws1 ++ ws2, tail2, ⟨ws1, ws2, rfl, r1, r2⟩, by simpa using l2⟩
    · cases hd

end Verif.RoundTrip
