import Verif.Lemmas.RoundTrip
import Verif.Lemmas.Print
/-! # Printing succeeds -/
set_option linter.unusedSectionVars false
namespace Verif.Print
variable [CaseFold]

theorem write_total {s : Sink} {t : Str} {o : WriteOpts} (h : (o.delimiter = true ∧ t.length ≤ 1) ∨ (o.delimiter = false ∧ t ≠ []) ∨
      (o.delimiter = false ∧ o.mustbreak = false ∧ s.pos ≤ s.width)) :
    ∃ s', s.write t o = .ok s' ∧ s'.width = s.width ∧ (t = ['\n'] → s'.pos = 1) ∧ (t = "loop_\n".toList → s'.pos = 1) := by
  unfold Sink.write
  rw [if_neg (by
    rintro ⟨h1, h2⟩
    rcases h with h | h | h
    · omega
    · simp [h.1] at h1
    · simp [h.1] at h1)]
  simp only
  generalize hs1 : (if o.mustbreak = true then s.newline else s) = s1
  have hw1 : s1.width = s.width := by rw [← hs1]; split <;> rfl
  generalize hfull : decide (s1.pos + t.length > s1.width) = full
  rw [if_neg (by
    rintro ⟨h1, h2, h3⟩
    rcases h with h | h | h
    · simp [h.1] at h2
    · exact h.2 h3
    · rw [h.2.1] at hs1
      simp only [Bool.false_eq_true, if_false] at hs1
      subst hs1
      rw [← hfull, h3] at h1
      simp at h1
      omega)]
  generalize hbr : (full && !o.delimiter && decide (t.head? ≠ some '\n')) = br
  generalize hs2 : (if (br && o.canbreak) = true then s1.newline else s1) = s2
  have hw2 : s2.width = s.width := by rw [← hw1, ← hs2]; split <;> rfl
  have hw3 : (s2.toColumn o.startcol).1.width = s.width := by
    rw [← hw2]; unfold Sink.toColumn; split <;> (try split) <;> rfl
  generalize s2.toColumn o.startcol = c at hw3
  have hw4 : ((c.1.toTab o.doTab c.2).setIndent o.newindent o.unindent).width = s.width := by
    rw [← hw3]
    have : (c.1.toTab o.doTab c.2).width = c.1.width := by
      unfold Sink.toTab
      split
      · simp only; split <;> rfl
      · rfl
    rw [← this]
    unfold Sink.setIndent
    split
    · rfl
    · split
      · split <;> rfl
      · rfl
  generalize (c.1.toTab o.doTab c.2).setIndent o.newindent o.unindent = s3 at hw4
  refine ⟨_, rfl, ?_, ?_, ?_⟩
  · rw [← hw4]
    simp only [Sink.account]
    split <;> rfl
  · rintro rfl
    simp [Sink.account, Sink.afterBreak]
  · rintro rfl
    have : Sink.afterBreak "loop_\n".toList = some 0 := by decide +kernel
    simp only [Sink.account, this]

theorem andThen_total {P : Sink → Prop} {r : Except PyErr Sink} {f : Sink → Except PyErr Sink} {Q : Sink → Prop} (h : ∃ s, r = .ok s ∧ P s)
    (hf : ∀ s, P s → ∃ s', f s = .ok s' ∧ Q s') : ∃ s', andThen r f = .ok s' ∧ Q s' := by
  obtain ⟨s, rfl, hp⟩ := h
  exact hf s hp

/-- Every text gets a representation, which is not empty. -/
def Solid (st : Style) : Prop := ∀ s d, ∃ w, formatString st s d = .ok w ∧ w ≠ []

theorem formatValue_total {st : Style} (hst : Solid st) {s : Sink} {c : Bool} {d : Option Str} {col : Int} {v : PyVal} (hv : Simple v) :
    ∃ s', formatValue st s c d col v = .ok s' ∧ s'.width = s.width := by
  cases v with
  | str t =>
    obtain ⟨w, h1, h2⟩ := hst t d
    rw [formatValue, h1]
    obtain ⟨s', h3, h4, -⟩ := write_total (s := s) (t := w) (o := { canbreak := true, startcol := col }) (.inr (.inl ⟨rfl, h2⟩))
    exact ⟨s', h3, h4⟩
  | num t =>
    rw [formatValue]
    obtain ⟨s', h3, h4, -⟩ := write_total (s := s) (t := t) (o := { canbreak := true, startcol := col }) (.inr (.inl ⟨rfl, hv⟩))
    exact ⟨s', h3, h4⟩
  | _ => exact absurd hv (by simp [Simple])

theorem formatPacketItem_total {st : Style} (hst : Solid st) {s : Sink} {hint : Option Hint} {v : PyVal} (hv : Simple v) :
    ∃ s', formatPacketItem st hint s v = .ok s' ∧ s'.width = s.width := by
  cases v with
  | str t =>
    obtain ⟨w, h1, h2⟩ := hst t (hintDelimiter hint)
    unfold formatPacketItem
    simp only [h1]
    obtain ⟨s', h3, h4, -⟩ := write_total (s := s) (t := w) (o := { startcol := hintColumn hint }) (.inr (.inl ⟨rfl, h2⟩))
    exact ⟨s', h3, h4⟩
  | num t => exact formatValue_total hst hv
  | _ => exact absurd hv (by simp [Simple])

theorem formatRow_total {st : Style} (hst : Solid st) {hints : List Hint} : ∀ (ns : List Str) (row : List PyVal) (s : Sink), (∀ v ∈ row, Simple v) →
    ∃ s', formatRow st hints s ns row = .ok s' ∧ s'.width = s.width
  | [], _, s, _ => ⟨s, by simp [formatRow], rfl⟩
  | _ :: _, [], s, _ => ⟨s, by simp [formatRow], rfl⟩
  | n :: ns, v :: vs, s, hv => by
    rw [formatRow]
    refine andThen_total (formatPacketItem_total hst (hv v (by simp))) fun s1 e1 => ?_
    obtain ⟨s2, h2, w2, -⟩ := write_total (s := s1) (t := [' ']) (o := { canbreak := true, doTab := false, delimiter := true }) (.inl ⟨rfl, by simp⟩)
    refine andThen_total (P := fun x => x.width = s1.width) ⟨s2, h2, w2⟩ fun s3 e3 => ?_
    obtain ⟨s4, h4, w4⟩ := formatRow_total hst ns vs s3 fun x hx => hv x (by simp [hx])
    exact ⟨s4, h4, by rw [w4, e3, e1]⟩

theorem formatRows_total {st : Style} (hst : Solid st) {hints : List Hint} (ns : List Str) : ∀ (rs : List (List PyVal)) (s : Sink) (first : Bool),
    (∀ r ∈ rs, ∀ v ∈ r, Simple v) → ∃ s', formatRows st hints ns s first rs = .ok s' ∧ s'.width = s.width
  | [], s, _, _ => ⟨s, rfl, rfl⟩
  | row :: r, s, first, hv => by
    rw [formatRows]
    have h1 : ∃ s1, (if first then Except.ok s else s.write ['\n']) = .ok s1 ∧ s1.width = s.width := by
      cases first with
      | true => exact ⟨s, rfl, rfl⟩
      | false =>
        obtain ⟨s1, h1, w1, -⟩ := write_total (s := s) (t := ['\n']) (o := {}) (.inr (.inl ⟨rfl, by simp⟩))
        exact ⟨s1, h1, w1⟩
    refine andThen_total h1 fun s1 e1 => ?_
    refine andThen_total (formatRow_total hst ns row s1 (hv row (by simp))) fun s2 e2 => ?_
    obtain ⟨s4, h4, w4⟩ := formatRows_total hst ns r s2 false fun x hx => hv x (by simp [hx])
    exact ⟨s4, h4, by rw [w4, e2, e1]⟩

theorem formatNames_total {b : Block} {hints : List Hint} {indent : Nat} : ∀ (ns ts : List Str) (s : Sink), spelled b ns = some ts →
    (∀ t ∈ ts, t ≠ []) → 1 ≤ s.width → s.pos = 1 → ∃ s', formatNames b hints indent s ns = .ok s' ∧ s'.width = s.width
  | [], _, s, _, _, _, _ => ⟨s, rfl, rfl⟩
  | n :: ns, ts, s, h, hne, hw, hp => by
    rw [spelled] at h
    split at h
    · rename_i t ts' h1 h2
      simp only [Option.some.injEq] at h
      subst h
      rw [formatNames]
      obtain ⟨s1, g1, w1, -⟩ := write_total (s := s) (t := List.replicate (hintNamePos (loopHint hints n) indent).toNat ' ') (o := { doTab := false })
        (.inr (.inr ⟨rfl, rfl, by omega⟩))
      refine andThen_total (P := fun x => x.width = s.width) ⟨s1, g1, w1⟩ fun s1 e1 => ?_
      rw [h1]
      simp only
      obtain ⟨s2, g2, w2, -⟩ := write_total (s := s1) (t := t) (o := { doTab := false }) (.inr (.inl ⟨rfl, hne t (by simp)⟩))
      refine andThen_total (P := fun x => x.width = s1.width) ⟨s2, g2, w2⟩ fun s2 e2 => ?_
      obtain ⟨s3, g3, w3, p3, -⟩ := write_total (s := s2) (t := ['\n']) (o := { doTab := false }) (.inr (.inl ⟨rfl, by simp⟩))
      refine andThen_total (P := fun x => x.width = s2.width ∧ x.pos = 1) ⟨s3, g3, w3, p3 rfl⟩ fun s3 e3 => ?_
      obtain ⟨s4, h4, w4⟩ := formatNames_total (hints := hints) (indent := indent) ns ts' s3 h2 (fun x hx => hne x (by simp [hx])) (by omega) e3.2
      exact ⟨s4, h4, by rw [w4, e3.1, e2, e1]⟩
    · cases h

/-- Blocks whose entries have names and simple values can be printed. -/
theorem printRefs_total {st : Style} (hst : Solid st) {hints : List Hint} {indent : Nat} (hh : ∃ li, loopIndent hints indent = .ok li) {b : Block} :
    ∀ (refs : List Ref) (es : List Entry) (s : Sink), docOf b refs = some es → (∀ e ∈ es, SimpleEntry e ∧ ∀ n ∈ e.names, n ≠ []) → 1 ≤ s.width →
      ∃ s', printRefs st hints b indent s refs = .ok s' ∧ s'.width = s.width
  | [], _, s, _, _, _ => ⟨s, rfl, rfl⟩
  | r :: rs, es, s, h, he, hw => by
    rw [docOf] at h
    split at h
    · rename_i e es' h1 h2
      simp only [Option.some.injEq] at h
      subst h
      obtain ⟨q1, q2⟩ := he e (by simp)
      have hfirst : ∃ s', (match r with
          | .name n => printItem st hints b s n
          | .loop n => printLoop st hints b indent s n) = .ok s' ∧ s'.width = s.width := by
        cases r with
        | name n =>
          rw [entryOf] at h1
          split at h1
          · rename_i v t hv ht
            simp only [Option.some.injEq] at h1
            subst h1
            simp only [printItem, hv, ht]
            obtain ⟨s1, g1, w1, -⟩ := write_total (s := s.setTab (if hintColumn (hints.find? fun h => decide (lower h.dataname = lower n)) < 0 then 40 else
                hintColumn (hints.find? fun h => decide (lower h.dataname = lower n)))) (t := t)
              (o := { mustbreak := true, doTab := false, startcol := hintNamePos (hints.find? fun h => decide (lower h.dataname = lower n)) (-1) })
              (.inr (.inl ⟨rfl, q2 t (by simp [Entry.names])⟩))
            refine andThen_total (P := fun x => x.width = s.width) ⟨s1, g1, w1⟩ fun s1 e1 => ?_
            obtain ⟨s2, g2, w2, -⟩ := write_total (s := s1) (t := [' ']) (o := { canbreak := true, doTab := false, delimiter := true }) (.inl ⟨rfl, by simp⟩)
            refine andThen_total (P := fun x => x.width = s1.width) ⟨s2, g2, w2⟩ fun s2 e2 => ?_
            obtain ⟨s3, h3, w3⟩ := formatValue_total hst (s := s2) (c := false) (d := hintDelimiter (hints.find? fun h => decide (lower h.dataname = lower n)))
              (col := hintColumn (hints.find? fun h => decide (lower h.dataname = lower n))) (v := v) q1
            exact ⟨s3, h3, by rw [w3, e2, e1]⟩
          · cases h1
        | loop n =>
          obtain ⟨li, hli⟩ := hh
          rw [entryOf] at h1
          split at h1
          · cases h1
          rename_i names hn
          split at h1
          · rename_i ts cols hts hcols
            simp only [Option.some.injEq] at h1
            subst h1
            simp only [printLoop, hli, hn]
            obtain ⟨s1, g1, w1, -, p1⟩ := write_total (s := s.setTab 10) (t := "loop_\n".toList) (o := { mustbreak := true, doTab := false, startcol := li })
              (.inr (.inl ⟨rfl, by simp⟩))
            refine andThen_total (P := fun x => x.width = s.width ∧ x.pos = 1) ⟨s1, g1, w1, p1 rfl⟩ fun s1 e1 => ?_
            refine andThen_total (formatNames_total (hints := hints) (indent := indent + 2) names ts s1 hts q2 (by omega) e1.2) fun s2 e2 => ?_
            rw [hcols]
            simp only
            obtain ⟨s3, h3, w3⟩ := formatRows_total hst (hints := hints) names (rows cols) s2 true fun row hr v hv => q1 v (List.mem_flatten.2 ⟨row, hr, hv⟩)
            exact ⟨s3, h3, by rw [w3, e2, e1.1]⟩
          · cases h1
      obtain ⟨s1, g1, w1⟩ := hfirst
      obtain ⟨s2, g2, w2⟩ := printRefs_total hst hh rs es' s1 h2 (fun x hx => he x (by simp [hx])) (by omega)
      refine ⟨s2, ?_, by rw [w2, w1]⟩
      cases r with
      | name n => rw [printRefs]; simp only at g1; rw [g1]; exact g2
      | loop n => rw [printRefs]; simp only at g1; rw [g1]; exact g2
    · cases h

end Verif.Print
