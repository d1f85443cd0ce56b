import Verif.Spec.RoundTrip20
import Verif.Lemmas.ReadValue20
import Verif.Lemmas.RoundTrip
import Verif.Lemmas.PrintTotal
import Verif.Lemmas.Sink
import Verif.Lemmas.ReadBack
import Verif.Props.RoundTrip
/-! # Writing a value of CIF 2.0 -/
set_option linter.unusedSectionVars false
namespace Verif.RoundTrip
open Print Lex
variable [CaseFold]

/-! ## Texts -/

/-- The representations `formatString` can produce in 2.0. -/
theorem format_cases20 {maxOut : Int} {s w : Str} {d : Option Str} (h : formatString (Style.v20 maxOut) s d = .ok w) :
    (w = s ∧ needsDelimiter (Style.v11 maxOut) s = false) ∨
    (w = '\'' :: s ++ ['\''] ∧ '\n' ∉ s ∧ '\'' ∉ s) ∨
    (w = '"' :: s ++ ['"'] ∧ '\n' ∉ s ∧ '"' ∉ s) ∨
    w = tripleS ++ s ++ tripleS ∨ w = tripleD ++ s ++ tripleD ∨
    textField (Style.v20 maxOut) s = .ok w := by
  have hover : ∀ x : Str, oversize (Style.v20 maxOut) x = false → '\n' ∉ x := by
    intro x hx
    simp only [oversize, Bool.or_eq_false_iff, decide_eq_false_iff_not] at hx
    exact hx.2
  have hS : allowed (Style.v20 maxOut) s (some ['\'']) = true → '\n' ∉ s ∧ '\'' ∉ s := by
    intro h
    simp only [allowed, if_true, Bool.and_eq_true, Bool.not_eq_true', decide_eq_false_iff_not] at h
    exact ⟨hover s h.2.1, h.2.2⟩
  have hD : allowed (Style.v20 maxOut) s (some ['"']) = true → '\n' ∉ s ∧ '"' ∉ s := by
    intro h
    have hne : (['"'] : Str) ≠ ['\''] := by decide
    simp only [allowed, if_neg hne, if_true, Bool.and_eq_true, Bool.not_eq_true', decide_eq_false_iff_not] at h
    exact ⟨hover s h.2.1, h.2.2⟩
  have hmem : ∀ x, allowed (Style.v20 maxOut) s (some x) = true → x = ['\''] ∨ x = ['"'] ∨ x = semiDelim ∨ x = tripleD ∨ x = tripleS := by
    intro x h
    simp only [allowed, Bool.and_eq_true, decide_eq_true_eq] at h
    have := h.1
    simp only [Style.v20, List.mem_cons, Option.some.injEq, reduceCtorEq, List.not_mem_nil, or_false, false_or] at this
    exact this
  have hsemi : ¬ (semiDelim = ['"'] ∨ semiDelim = ['\''] ∨ semiDelim = tripleD ∨ semiDelim = tripleS) := by decide
  rw [formatString] at h
  cases hc : choose (Style.v20 maxOut) s d with
  | none =>
    rw [hc] at h
    simp only [Except.ok.injEq] at h
    left
    refine ⟨h.symm, ?_⟩
    unfold choose at hc
    split at hc
    · rename_i ha
      subst hc
      simp only [allowed, Bool.and_eq_true, Bool.not_eq_true'] at ha
      exact ha.2
    · split at hc
      · simp at hc
      · split at hc <;> simp at hc
  | some x =>
    rw [hc] at h
    simp only at h
    have hx : (x = ['\''] ∧ '\n' ∉ s ∧ '\'' ∉ s) ∨ (x = ['"'] ∧ '\n' ∉ s ∧ '"' ∉ s) ∨ x = semiDelim ∨ x = tripleD ∨ x = tripleS := by
      unfold choose at hc
      split at hc
      · rename_i ha
        subst hc
        rcases hmem x ha with rfl | rfl | hx
        · exact .inl ⟨rfl, hS ha⟩
        · exact .inr (.inl ⟨rfl, hD ha⟩)
        · exact .inr (.inr hx)
      · split at hc
        · rename_i ha
          simp only [Option.some.injEq] at hc
          exact .inl ⟨hc.symm, hS ha⟩
        · split at hc
          · rename_i ha
            simp only [Option.some.injEq] at hc
            exact .inr (.inl ⟨hc.symm, hD ha⟩)
          · simp only [Option.some.injEq] at hc
            exact .inr (.inr (.inl hc.symm))
    rcases hx with ⟨rfl, hx⟩ | ⟨rfl, hx⟩ | rfl | rfl | rfl
    · rw [if_pos (by simp)] at h
      simp only [Except.ok.injEq] at h
      exact .inr (.inl ⟨by rw [← h]; simp, hx⟩)
    · rw [if_pos (by simp)] at h
      simp only [Except.ok.injEq] at h
      exact .inr (.inr (.inl ⟨by rw [← h]; simp, hx⟩))
    · rw [if_neg hsemi] at h
      exact .inr (.inr (.inr (.inr (.inr h))))
    · rw [if_pos (.inr (.inr (.inl rfl)))] at h
      exact .inr (.inr (.inr (.inr (.inl (Except.ok.inj h).symm))))
    · rw [if_pos (.inr (.inr (.inr rfl)))] at h
      exact .inr (.inr (.inr (.inl (Except.ok.inj h).symm)))

theorem bare_of20 {maxOut : Int} {s : Str} (h : needsDelimiter (Style.v11 maxOut) s = false)
    (hs : ∀ c ∈ s, isSpace c = false) (hstop : ¬ StartsStop s) (hloop : asciiLower s ≠ "loop_".toList) : V2.Bare s := by
  have hb := bare_of h hs hstop hloop
  have hbr : ∀ c ∈ s, V2.barred c = false := by
    simp only [needsDelimiter, Bool.or_eq_false_iff, decide_eq_false_iff_not, List.any_eq_false] at h
    obtain ⟨⟨⟨⟨⟨⟨⟨⟨-, -⟩, -⟩, hany⟩, -⟩, -⟩, -⟩, -⟩, -⟩ := h
    intro c hc
    have h1 := hany c hc
    simp only [Bool.or_eq_true, beq_iff_eq, not_or] at h1
    simp [V2.barred, hs c hc, Pat.isBracket, h1]
  obtain ⟨c, t, e, h1, h2⟩ := hb.first
  refine ⟨⟨c, t, e, ?_, h2⟩, hbr, hb.free, hb.noLoop⟩
  have h3 := hbr c (by rw [e]; simp)
  simp only [Pat.bareStart11, Bool.not_eq_true', Bool.or_eq_false_iff] at h1
  simp [V2.bareStart, h3, h1]

/-- The last character of a word is visible. -/
def EndsSolid (w : Str) : Prop := ∃ c, w.getLast? = some c ∧ ¬ (c = ' ' ∨ c = '\n' ∨ c = '\t')

theorem endsSolid_append (a : Str) {w : Str} (h : EndsSolid w) : EndsSolid (a ++ w) := by
  obtain ⟨c, h1, h2⟩ := h
  exact ⟨c, by rw [List.getLast?_append, h1]; rfl, h2⟩

theorem endsSolid_of {w : Str} (hne : w ≠ []) (h : ∀ c ∈ w, ¬ (c = ' ' ∨ c = '\n' ∨ c = '\t')) : EndsSolid w :=
  ⟨w.getLast hne, List.getLast?_eq_some_getLast hne, h _ (List.getLast_mem hne)⟩

theorem space_solid {c : Char} (h : isSpace c = false) : ¬ (c = ' ' ∨ c = '\n' ∨ c = '\t') := by
  rintro (rfl | rfl | rfl) <;> exact absurd h (by decide)

/-- Every representation of a text is read as that text, and ends in a visible character. -/
theorem format_reads20 {maxOut : Int} {s w : Str} {d : Option Str} (h : formatString (Style.v20 maxOut) s d = .ok w)
    (hs : Safe20 (Style.v20 maxOut) s w) : V2.Reads w (.str s) ∧ EndsSolid w := by
  rcases format_cases20 h with ⟨rfl, hn⟩ | ⟨rfl, hn, hq⟩ | ⟨rfl, hn, hq⟩ | rfl | rfl | ht
  · obtain ⟨h1, h2, h3⟩ := hs.bare rfl
    have hb := bare_of20 hn h1 h2 h3
    exact ⟨V2.reads_bare hb, endsSolid_of (V2.reads_bare hb).ne fun c hc => space_solid (h1 c hc)⟩
  · obtain ⟨h1, h2⟩ := hs.single rfl
    refine ⟨V2.reads_single fun c hc => ?_, endsSolid_append _ ⟨'\'', rfl, by decide⟩⟩
    have e1 : c ≠ '\n' := fun e => hn (e ▸ hc)
    have e2 : c ≠ '\'' := fun e => hq (e ▸ hc)
    have e3 : c ≠ '\r' := fun e => h1 (e ▸ hc)
    have e4 : c ≠ '\x0c' := fun e => h2 (e ▸ hc)
    simp [inSingle, e1, e2, e3, e4]
  · have h1 := hs.double rfl
    refine ⟨V2.reads_double fun c hc => ?_, endsSolid_append _ ⟨'"', rfl, by decide⟩⟩
    have e1 : c ≠ '\n' := fun e => hn (e ▸ hc)
    have e2 : c ≠ '"' := fun e => hq (e ▸ hc)
    have e3 : c ≠ '\r' := fun e => h1 (e ▸ hc)
    simp [inDouble, e1, e2, e3]
  · exact ⟨V2.reads_tripleS (hs.tripleS rfl), endsSolid_append _ ⟨'\'', rfl, by decide⟩⟩
  · exact ⟨V2.reads_tripleD (hs.tripleD rfl), endsSolid_append _ ⟨'"', rfl, by decide⟩⟩
  · obtain ⟨q0, hq0, -⟩ := textField_ok (Style.v20 maxOut) s
    have hf : w.head? = some '\n' := by
      rw [hq0] at ht
      simp only [Except.ok.injEq] at ht
      rw [← ht]; rfl
    obtain ⟨q, l, ls, rfl, h1, h2, h3, h4⟩ := field_lines ht (hs.field hf)
    have := V2.reads_field h1 h2 h3
    rw [h4] at this
    exact ⟨this, endsSolid_append _ ⟨';', rfl, by decide⟩⟩

theorem number20 {t : Str} (h : IsNumber t) : V2.Reads t (.str t) ∧ EndsSolid t := by
  have hb := number_bare h
  have key : ∀ c ∈ "0123456789+-.e".toList, V2.barred c = false ∧ V2.bareStart c = true := by decide +kernel
  obtain ⟨c, r, e, h1, h2⟩ := hb.first
  have : V2.Bare t := ⟨⟨c, r, e, (key c (h.2 c (by rw [e]; simp))).2, h2⟩, fun c hc => (key c (h.2 c hc)).1, hb.free, hb.noLoop⟩
  exact ⟨V2.reads_bare this, endsSolid_of h.1 fun c hc => space_solid (hb.solid c hc)⟩

/-! ## Values -/

/-- The sink before and after something is written: the same width and indentation, and a recorded position as good as before. -/
structure Frame (s s' : Sink) : Prop where
  width : s'.width = s.width
  indent : s'.indent = s.indent
  indents : s'.indents = s.indents
  truth : True1 s → True1 s'

theorem Frame.refl (s : Sink) : Frame s s := ⟨rfl, rfl, rfl, id⟩

theorem Frame.trans {a b c : Sink} (h1 : Frame a b) (h2 : Frame b c) : Frame a c :=
  ⟨h2.width.trans h1.width, h2.indent.trans h1.indent, h2.indents.trans h1.indents, h2.truth ∘ h1.truth⟩

theorem Frame.write {s s' : Sink} {t g : Str} {o : WriteOpts} (h : Print.Writes s s' t o g) (h1 : o.newindent = false) (h2 : o.unindent = false) : Frame s s' := by
  have := h.indents
  simp only [Indents, h1, h2, Bool.false_eq_true, if_false] at this
  exact ⟨h.width, this.1, this.2, h.truth⟩

/-- Between brackets. -/
theorem Frame.nest {s s1 s2 s3 : Sink} {t t' g g' : Str} {o o' : WriteOpts} (h1 : Print.Writes s s1 t o g) (h2 : Frame s1 s2) (h3 : Print.Writes s2 s3 t' o' g')
    (ho : o.newindent = true) (ho' : o'.newindent = false) (hu : o'.unindent = true) : Frame s s3 := by
  have i1 := h1.indents
  have i3 := h3.indents
  simp only [Indents, ho, if_true] at i1
  simp only [Indents, ho', hu, Bool.false_eq_true, if_false, if_true] at i3
  obtain ⟨i4, i5⟩ := i3 s.indent s.indents (by rw [h2.indents, i1])
  exact ⟨by rw [h3.width, h2.width, h1.width], i4, i5, fun h => h3.truth (h2.truth (h1.truth h))⟩

/-- A value has been written as the word `w`, after the white space `g`. -/
structure Wrote (s s' : Sink) (v : PyVal) (g w : Str) : Prop where
  frame : Frame s s'
  gap : IsGap g
  out : s'.out = s.out ++ g ++ w
  last : s'.last = w.getLast?
  solid : EndsSolid w
  reads : V2.Reads w (asRead20 v)

/-- Lists. -/
def IsList : PyVal → Prop
  | .slist _ => True
  | .list _ => True
  | _ => False

/-- The value is written as a word that is read as the value. -/
def WritesAs (st : Style) (ds : List (Option Str)) (v : PyVal) : Prop :=
  ∀ (s : Sink) (c : Bool) (d : Option Str) (col : Int), d ∈ ds → ∃ s' g w, formatValue st s c d col v = .ok s' ∧ Wrote s s' v g w ∧
    (Simple v → s'.tab = s.tab ∧ (s.tab > 0 → col ≠ 0 → g ≠ [])) ∧ (IsList v → s.pos + 1 > s.width → g ≠ [])

theorem writes_str {maxOut : Int} {ds : List (Option Str)} {t : Str} (h : ∀ d ∈ ds, ∀ w, formatString (Style.v20 maxOut) t d = .ok w →
    Safe20 (Style.v20 maxOut) t w) : WritesAs (Style.v20 maxOut) ds (.str t) := by
  intro s c d col hd
  obtain ⟨w, hw⟩ := C05_total (Style.v20 maxOut) t d
  obtain ⟨h1, h2⟩ := format_reads20 hw (h d hd w hw)
  obtain ⟨s', g, h3, h4⟩ := write_writes s (t := w) (o := { canbreak := true, startcol := col }) h1.ne rfl
  refine ⟨s', g, w, by rw [formatValue, hw]; exact h3, ⟨.write h4 rfl rfl, h4.gap, h4.out, h4.last, h2, h1⟩, fun _ => ⟨h4.tab, fun a b => h4.stop a rfl b⟩, fun h => h.elim⟩

theorem writes_num {maxOut : Int} {ds : List (Option Str)} {t : Str} (h : IsNumber t) : WritesAs (Style.v20 maxOut) ds (.num t) := by
  intro s c d col hd
  obtain ⟨h1, h2⟩ := number20 h
  obtain ⟨s', g, h3, h4⟩ := write_writes s (t := t) (o := { canbreak := true, startcol := col }) h1.ne rfl
  refine ⟨s', g, t, by rw [formatValue]; exact h3, ⟨.write h4 rfl rfl, h4.gap, h4.out, h4.last, h2, h1⟩, fun _ => ⟨h4.tab, fun a b => h4.stop a rfl b⟩, fun h => h.elim⟩

theorem asReads20_map : ∀ l, asReads20 l = l.map asRead20
  | [] => rfl
  | v :: r => by rw [asReads20, asReads20_map r]; rfl

theorem asReadPairs20_map : ∀ l, asReadPairs20 l = l.map fun p => (p.1, asRead20 p.2)
  | [] => rfl
  | (k, v) :: r => by rw [asReadPairs20, asReadPairs20_map r]; rfl

theorem isGap_two : IsGap "  ".toList := isGap_blanks 2

/-- The elements of a list after the first. -/
theorem writes_rest {maxOut : Int} : ∀ (r : List PyVal) (s : Sink), (∀ v ∈ r, WritesAs (Style.v20 maxOut) [none] v) →
    ∃ s' l, formatRest (Style.v20 maxOut) s r = .ok s' ∧ Frame s s' ∧ s'.out = s.out ++ flat l ∧ (∀ q ∈ l, IsGap q.1) ∧ Spaced l ∧
      V2.ReadsEach (r.map asRead20) (l.map (·.2))
  | [], s, _ => ⟨s, [], rfl, .refl s, by simp [flat], by simp, by simp [Spaced], trivial⟩
  | v :: r, s, h => by
    obtain ⟨s1, g1, e1, w1⟩ := write_writes s (t := "  ".toList) (o := { doTab := false }) (by decide) rfl
    obtain ⟨s2, g2, w, e2, w2, -⟩ := h v (by simp) s1 true none (-1) (by simp)
    obtain ⟨s3, l, e3, f3, o3, q1, q2, q3⟩ := writes_rest r s2 fun x hx => h x (by simp [hx])
    have hgap : IsGap (g1 ++ "  ".toList ++ g2) := isGap_append.2 ⟨isGap_append.2 ⟨w1.gap, isGap_two⟩, w2.gap⟩
    have hne : g1 ++ "  ".toList ++ g2 ≠ [] := by
      intro e
      have := congrArg List.length e
      simp at this
    refine ⟨s3, (g1 ++ "  ".toList ++ g2, w) :: l, ?_, (Frame.write w1 rfl rfl).trans (w2.frame.trans f3), ?_, ?_, ?_, ?_⟩
    · have el : (Style.v20 maxOut).listDelim = "  ".toList := rfl
      rw [formatRest, el, e1]
      simp only [andThen]
      rw [e2]
      exact e3
    · rw [o3, w2.out, w1.out, flat_cons]
      simp only [List.append_assoc]
    · intro q hq
      rcases List.mem_cons.1 hq with rfl | hq
      · exact hgap
      · exact q1 q hq
    · intro q hq
      rcases List.mem_cons.1 hq with rfl | hq
      · exact ⟨hgap, .inl hne⟩
      · exact q2 q hq
    · exact ⟨w2.reads, q3⟩

theorem writes_list {maxOut : Int} {l : List PyVal} (h : ∀ v ∈ l, WritesAs (Style.v20 maxOut) [none] v) (s : Sink) (c : Bool) (col : Int) :
    ∃ s' g w, formatList (Style.v20 maxOut) s c col l = .ok s' ∧ Wrote s s' (.slist l) g w ∧ (s.pos + 1 > s.width → g ≠ []) := by
  obtain ⟨s1, g1, e1, w1⟩ := write_writes (s.setTab 0) (t := ['[']) (o := { canbreak := true, newindent := true, mustbreak := c, startcol := col }) (by simp) rfl
  have hset : ∀ x, Frame (s.setTab 0) x → Frame s x := fun x h => ⟨h.width, h.indent, h.indents, h.truth⟩
  have hfull : s.pos + 1 > s.width → g1 ≠ [] := fun hp => w1.full rfl (by decide) hp
  have ends : ∀ t : Str, EndsSolid ('[' :: (t ++ [']'])) := fun t => endsSolid_append ('[' :: t) ⟨']', rfl, by decide⟩
  cases l with
  | nil =>
    obtain ⟨s2, g2, e2, w2⟩ := write_writes s1 (t := [']']) (o := { unindent := true }) (by simp) rfl
    have hr := V2.reads_list (l := []) (vs := []) (tail := g2) (by simp) (by simp [Spaced]) w2.gap trivial
    refine ⟨s2, g1, '[' :: (g2 ++ [']']), by rw [formatList, e1]; exact e2,
      ⟨hset _ (.nest w1 (.refl s1) w2 rfl rfl rfl), w1.gap, ?_, ?_, ends g2, ?_⟩, hfull⟩
    · rw [w2.out, w1.out]
      simp [Sink.setTab]
    · rw [w2.last, ← List.cons_append, List.getLast?_append]
      simp
    · rw [asRead20, asReads20]
      simpa [flat] using hr
  | cons v r =>
    obtain ⟨s2, g2, w, e2, w2, -⟩ := h v (by simp) s1 false none (-1) (by simp)
    obtain ⟨s3, l, e3, f3, o3, q1, q2, q3⟩ := writes_rest r s2 fun x hx => h x (by simp [hx])
    obtain ⟨s4, g4, e4, w4⟩ := write_writes s3 (t := [']']) (o := { unindent := true }) (by simp) rfl
    have hr := V2.reads_list (l := (g2, w) :: l) (vs := (v :: r).map asRead20) (tail := g4) (by
      intro q hq
      rcases List.mem_cons.1 hq with rfl | hq
      · exact w2.gap
      · exact q1 q hq) q2 w4.gap ⟨w2.reads, q3⟩
    refine ⟨s4, g1, '[' :: (flat ((g2, w) :: l) ++ (g4 ++ [']'])), ?_,
      ⟨hset _ (.nest w1 (w2.frame.trans f3) w4 rfl rfl rfl), w1.gap, ?_, ?_, ?_, ?_⟩, hfull⟩
    · rw [formatList, e1]
      simp only [andThen]
      rw [e2]
      simp only
      rw [e3]
      exact e4
    · rw [w4.out, o3, w2.out, w1.out, flat_cons]
      simp [Sink.setTab]
    · rw [w4.last, ← List.append_assoc, ← List.cons_append, List.getLast?_append]
      simp
    · rw [← List.append_assoc]; exact ends _
    · rw [asRead20, asReads20_map]
      exact hr

theorem keyOk_inside {k : Str} (h : KeyOk k) : ∀ c ∈ k, inSingle c = true := by
  obtain ⟨h1, h2, h3, h4⟩ := h
  intro c hc
  have e1 : c ≠ '\n' := fun e => h2 (e ▸ hc)
  have e2 : c ≠ '\'' := fun e => h1 (e ▸ hc)
  have e3 : c ≠ '\r' := fun e => h3 (e ▸ hc)
  have e4 : c ≠ '\x0c' := fun e => h4 (e ▸ hc)
  simp [inSingle, e1, e2, e3, e4]

theorem writes_pairs {maxOut : Int} : ∀ (r : List (Str × PyVal)) (s : Sink) (first : Bool), (∀ p ∈ r, WritesAs (Style.v20 maxOut) [none] p.2) →
    (∀ p ∈ r, KeyOk p.1) →
    ∃ s' l, formatPairs (Style.v20 maxOut) s first r = .ok s' ∧ Frame s s' ∧ s'.out = s.out ++ V2.slots l ∧
      V2.SlotsOk l (r.map fun p => (p.1, asRead20 p.2)) ∧ (first = false → ∀ e ∈ l, e.before ≠ []) ∧ ∀ e ∈ l.tail, e.before ≠ []
  | [], s, _, _, _ => ⟨s, [], rfl, .refl s, by simp [V2.slots], trivial, by simp, by simp⟩
  | (k, v) :: r, s, first, h, hk => by
    obtain ⟨s1, g1, e1, f1, o1, hg1, hne⟩ : ∃ s1 g1, (if first = true then Except.ok s else s.write (Style.v20 maxOut).listDelim) = .ok s1 ∧ Frame s s1 ∧
        s1.out = s.out ++ g1 ∧ IsGap g1 ∧ (first = false → g1 ≠ []) := by
      cases first with
      | true => exact ⟨s, [], rfl, .refl s, by simp, isGap_nil, by simp⟩
      | false =>
        obtain ⟨s1, g1, e1, w1⟩ := write_writes s (t := "  ".toList) (o := {}) (by decide) rfl
        refine ⟨s1, g1 ++ "  ".toList, e1, .write w1 rfl rfl, by rw [w1.out, List.append_assoc], isGap_append.2 ⟨w1.gap, isGap_two⟩, fun _ e => ?_⟩
        have := congrArg List.length e
        simp at this
    obtain ⟨s2, g2, e2, w2⟩ := write_writes s1 (t := '\'' :: k ++ ['\'', ':']) (o := { canbreak := true }) (by simp) rfl
    obtain ⟨s3, g3, w, e3, w3, -⟩ := h (k, v) (by simp) s2 false none (-1) (by simp)
    obtain ⟨s4, l, e4, f4, o4, q1, q2, -⟩ := writes_pairs r s3 false (fun x hx => h x (by simp [hx])) fun x hx => hk x (by simp [hx])
    refine ⟨s4, ⟨g1 ++ g2, k, g3, w⟩ :: l, ?_, (f1.trans (.write w2 rfl rfl)).trans (w3.frame.trans f4), ?_, ?_, ?_, ?_⟩
    · rw [formatPairs, e1]
      simp only [andThen]
      rw [e2]
      simp only
      rw [e3]
      exact e4
    · rw [o4, w3.out, w2.out, o1, V2.slots_cons]
      simp
    · exact ⟨rfl, ⟨isGap_append.2 ⟨hg1, w2.gap⟩, keyOk_inside (hk (k, v) (by simp)), w3.gap, w3.reads⟩, q1⟩
    · intro hf e he
      rcases List.mem_cons.1 he with rfl | he
      · simp [hne hf]
      · exact q2 rfl e he
    · exact fun e he => q2 rfl e he

theorem writes_table {maxOut : Int} {ds : List (Option Str)} {l : List (Str × PyVal)} (h : ∀ p ∈ l, WritesAs (Style.v20 maxOut) [none] p.2)
    (hk : ∀ p ∈ l, KeyOk p.1) (hn : (l.map (·.1)).Nodup) : WritesAs (Style.v20 maxOut) ds (.sdict l) := by
  intro s c d col hd
  obtain ⟨s1, g1, e1, w1⟩ := write_writes (s.setTab 0) (t := ['{']) (o := { newindent := true, mustbreak := c, startcol := col }) (by simp) rfl
  obtain ⟨s2, sl, e2, f2, o2, q1, -, q2⟩ := writes_pairs l s1 true h hk
  obtain ⟨s3, g3, e3, w3⟩ := write_writes s2 (t := ['}']) (o := { unindent := true }) (by simp) rfl
  have hf : Frame (s.setTab 0) s3 := .nest w1 f2 w3 rfl rfl rfl
  have hr := V2.reads_table q1 q2 w3.gap (by
    have : dkeys (l.map fun p => (p.1, asRead20 p.2)) = l.map (·.1) := by simp [dkeys]
    rw [this]; exact hn)
  refine ⟨s3, g1, '{' :: (V2.slots sl ++ (g3 ++ ['}'])), ?_, ⟨⟨hf.width, hf.indent, hf.indents, hf.truth⟩, w1.gap, ?_, ?_, ?_, ?_⟩, fun h => h.elim, fun h => h.elim⟩
  · rw [formatValue, e1]
    simp only [andThen]
    rw [e2]
    exact e3
  · rw [w3.out, o2, w1.out]
    simp [Sink.setTab]
  · rw [w3.last, ← List.append_assoc, ← List.cons_append, List.getLast?_append]
    simp
  · rw [← List.append_assoc]
    exact endsSolid_append ('{' :: (V2.slots sl ++ g3)) ⟨'}', rfl, by decide⟩
  · rw [asRead20, asReadPairs20_map]
    exact hr

/-- Every writable value is written as a word that is read as the value. -/
theorem writes_value {maxOut : Int} {ds : List (Option Str)} {v : PyVal} (h : Writable20 (Style.v20 maxOut) ds v) : WritesAs (Style.v20 maxOut) ds v := by
  induction h with
  | str h => exact writes_str h
  | num h => exact writes_num h
  | slist _ ih =>
    intro s c d col _
    obtain ⟨s', g, w, h1, h2, h3⟩ := writes_list ih s c col
    exact ⟨s', g, w, by rw [formatValue]; exact h1, h2, fun h => h.elim, fun _ => h3⟩
  | list _ ih =>
    intro s c d col _
    obtain ⟨s', g, w, h1, h2, h3⟩ := writes_list ih s c col
    exact ⟨s', g, w, by rw [formatValue]; exact h1, ⟨h2.frame, h2.gap, h2.out, h2.last, h2.solid, h2.reads⟩, fun h => h.elim, fun _ => h3⟩
  | sdict h1 h2 _ ih => exact writes_table ih h2 h1

end Verif.RoundTrip
