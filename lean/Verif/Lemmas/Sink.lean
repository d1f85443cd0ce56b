import Verif.Lemmas.Print
/-! # Lemmas about positions while writing -/
set_option linter.unusedSectionVars false
namespace Verif.Print
variable [CaseFold]

/-- The number of characters after the last line feed. -/
def column (t : Str) : Nat := (t.reverse.takeWhile (· != '\n')).length

theorem takeWhile_full {p : Char → Bool} : ∀ {l : Str}, (∀ c ∈ l, p c = true) → l.takeWhile p = l
  | [], _ => rfl
  | c :: l, h => by rw [List.takeWhile_cons, if_pos (h c (by simp)), takeWhile_full fun x hx => h x (by simp [hx])]

theorem takeWhile_stop {p : Char → Bool} : ∀ {l : Str} (m : Str), (∃ c ∈ l, p c = false) → (l ++ m).takeWhile p = l.takeWhile p
  | [], _, h => by simp at h
  | c :: l, m, h => by
    rw [List.cons_append, List.takeWhile_cons, List.takeWhile_cons]
    cases hc : p c with
    | false => rfl
    | true =>
      simp only [if_true]
      rw [takeWhile_stop m]
      obtain ⟨d, h1, h2⟩ := h
      rcases List.mem_cons.1 h1 with rfl | h1
      · rw [hc] at h2; cases h2
      · exact ⟨d, h1, h2⟩

theorem column_line (x : Str) {t : Str} (h : '\n' ∉ t) : column (x ++ t) = column x + t.length := by
  unfold column
  have h' : ∀ c ∈ t.reverse, (c != '\n') = true := by
    intro c hc
    simp only [bne_iff_ne]
    rintro rfl
    exact h (by simpa using hc)
  rw [List.reverse_append, List.takeWhile_append_of_pos h', List.length_append]
  simp; omega

theorem column_break (x : Str) {t : Str} (h : '\n' ∈ t) : column (x ++ t) = column t := by
  unfold column
  rw [List.reverse_append, takeWhile_stop]
  exact ⟨'\n', by simpa using h, by simp⟩

theorem column_newline (x : Str) (n : Nat) : column (x ++ '\n' :: List.replicate n ' ') = n := by
  rw [column_break x (by simp)]
  have : '\n' :: List.replicate n ' ' = ['\n'] ++ List.replicate n ' ' := rfl
  rw [this, column_line _ (by simp)]
  simp [column]

/-- The recorded position is at most one more than the true one. -/
def True1 (s : Sink) : Prop := s.pos ≤ column s.out + 1

/-- Only white space has been added, and the recorded position is as good as before. -/
structure Moves (s s' : Sink) (g : Str) : Prop where
  gap : IsGap g
  out : s'.out = s.out ++ g
  tab : s'.tab = s.tab
  width : s'.width = s.width
  truth : True1 s → True1 s'
  indent : s'.indent = s.indent
  indents : s'.indents = s.indents

theorem Moves.refl (s : Sink) : Moves s s [] := ⟨isGap_nil, by simp, rfl, rfl, id, rfl, rfl⟩

theorem Moves.trans {a b c : Sink} {g h : Str} (h1 : Moves a b g) (h2 : Moves b c h) : Moves a c (g ++ h) :=
  ⟨isGap_append.2 ⟨h1.gap, h2.gap⟩, by rw [h2.out, h1.out, List.append_assoc], h2.tab.trans h1.tab, h2.width.trans h1.width, h2.truth ∘ h1.truth,
    h2.indent.trans h1.indent, h2.indents.trans h1.indents⟩

theorem moves_newline (s : Sink) : ∃ g, Moves s s.newline g ∧ g ≠ [] := by
  refine ⟨_, ⟨isGap_newline s.indent, rfl, rfl, rfl, fun _ => ?_, rfl, rfl⟩, by simp⟩
  unfold True1 Sink.newline
  simp only
  rw [column_newline]
  omega

theorem moves_padTo (s : Sink) (col : Nat) (h : s.pos < col) : ∃ g, Moves s (s.padTo col) g ∧ g ≠ [] := by
  refine ⟨_, ⟨isGap_blanks (col - s.pos), rfl, rfl, rfl, fun ht => ?_, rfl, rfl⟩, by simp; omega⟩
  unfold True1 at ht ⊢
  unfold Sink.padTo
  simp only
  rw [column_line _ (by simp), List.length_replicate]
  omega

theorem moves_toColumn (s : Sink) (k : Int) : ∃ g, Moves s (s.toColumn k).1 g ∧ ((s.toColumn k).2 < 0 ∨ k = 0 ∨ g ≠ []) := by
  unfold Sink.toColumn
  split
  · split
    · obtain ⟨g, h1, h2⟩ := moves_padTo s k.toNat (by omega)
      exact ⟨g, h1, .inr (.inr h2)⟩
    · exact ⟨[], .refl s, .inl (by simp)⟩
  · exact ⟨[], .refl s, by
      by_cases hk : k < 0
      · exact .inl hk
      · exact .inr (.inl (by omega))⟩

theorem moves_toTab (s : Sink) (d : Bool) (k : Int) :
    ∃ g, Moves s (s.toTab d k) g ∧ (s.tab > 0 → d = true → k < 0 → g ≠ []) := by
  unfold Sink.toTab
  split
  · rename_i h
    have : s.pos < (s.pos / s.tab.toNat + 1) * s.tab.toNat := by
      have hp : 0 < s.tab.toNat := by omega
      have := Nat.div_add_mod s.pos s.tab.toNat
      have := Nat.mod_lt s.pos hp
      rw [Nat.add_mul, Nat.one_mul, Nat.mul_comm]
      omega
    simp only
    rw [if_pos this]
    obtain ⟨g, h1, h2⟩ := moves_padTo s _ this
    exact ⟨g, h1, fun _ _ _ => h2⟩
  · rename_i h
    exact ⟨[], .refl s, fun a b c => absurd ⟨a, b, c⟩ h⟩

theorem moves_if {p : Prop} [Decidable p] (s : Sink) : ∃ g, Moves s (if p then s.newline else s) g ∧ (p → g ≠ []) := by
  split
  · obtain ⟨g, h1, h2⟩ := moves_newline s
    exact ⟨g, h1, fun _ => h2⟩
  · rename_i h
    exact ⟨[], .refl s, fun h' => absurd h' h⟩

/-- The indentation after `write`. -/
def Indents (s s' : Sink) (newindent unindent : Bool) : Prop :=
  if newindent then s'.indents = s.indent :: s.indents
  else if unindent then ∀ i r, s.indents = i :: r → s'.indent = i ∧ s'.indents = r
  else s'.indent = s.indent ∧ s'.indents = s.indents

theorem indents_setIndent (s : Sink) (a b : Bool) : Indents s (s.setIndent a b) a b := by
  unfold Indents Sink.setIndent
  cases a with
  | true => simp
  | false =>
    cases b with
    | true =>
      simp only [Bool.false_eq_true, if_false, if_true]
      intro i r h
      rw [h]
      exact ⟨rfl, rfl⟩
    | false => simp

/-- The other parts of the sink are left alone. -/
theorem setIndent_same (s : Sink) (a b : Bool) : (s.setIndent a b).out = s.out ∧ (s.setIndent a b).pos = s.pos ∧ (s.setIndent a b).tab = s.tab ∧
    (s.setIndent a b).width = s.width ∧ (s.setIndent a b).last = s.last := by
  unfold Sink.setIndent
  split
  · simp
  · split
    · split <;> simp
    · simp

/-- What happens when a text that is not a delimiter is written. -/
structure Writes (s s' : Sink) (t : Str) (o : WriteOpts) (g : Str) : Prop where
  gap : IsGap g
  out : s'.out = s.out ++ g ++ t
  tab : s'.tab = s.tab
  width : s'.width = s.width
  truth : True1 s → True1 s'
  indents : Indents s s' o.newindent o.unindent
  last : s'.last = t.getLast?
  must : o.mustbreak = true → g ≠ []
  stop : s.tab > 0 → o.doTab = true → o.startcol ≠ 0 → g ≠ []
  full : o.canbreak = true → t.head? ≠ some '\n' → s.pos + t.length > s.width → g ≠ []

theorem write_writes (s : Sink) {t : Str} {o : WriteOpts} (ht : t ≠ []) (hd : o.delimiter = false) : ∃ s' g, s.write t o = .ok s' ∧ Writes s s' t o g := by
  unfold Sink.write
  rw [if_neg (by simp [hd])]
  simp only
  obtain ⟨g1, p1, q1⟩ := moves_if (p := o.mustbreak = true) s
  generalize hs1 : (if o.mustbreak = true then s.newline else s) = s1 at p1
  generalize hfull : decide (s1.pos + t.length > s1.width) = full
  rw [if_neg (by simp [ht])]
  generalize hbr : (full && !o.delimiter && decide (t.head? ≠ some '\n')) = br
  obtain ⟨g2, p2, q2⟩ := moves_if (p := (br && o.canbreak) = true) s1
  generalize hs2 : (if (br && o.canbreak) = true then s1.newline else s1) = s2 at p2
  obtain ⟨g3, p3, q3⟩ := moves_toColumn s2 o.startcol
  generalize s2.toColumn o.startcol = c at p3 q3
  obtain ⟨g4, p4, q4⟩ := moves_toTab c.1 o.doTab c.2
  have P := ((p1.trans p2).trans p3).trans p4
  generalize hs4 : c.1.toTab o.doTab c.2 = s4 at p4 P
  obtain ⟨e1, e2, e3, e4, e5⟩ := setIndent_same s4 o.newindent o.unindent
  have hind := indents_setIndent s4 o.newindent o.unindent
  generalize s4.setIndent o.newindent o.unindent = s5 at e1 e2 e3 e4 e5 hind
  refine ⟨_, g1 ++ g2 ++ g3 ++ g4, rfl, P.gap, ?_, ?_, ?_, ?_, ?_, ?_, ?_, ?_, ?_⟩
  · rw [if_pos (by simp [hd])]
    simp only [Sink.account]
    rw [e1, P.out]
  · rw [if_pos (by simp [hd])]
    simp only [Sink.account]
    rw [e3, P.tab]
  · rw [if_pos (by simp [hd])]
    simp only [Sink.account]
    rw [e4, P.width]
  · intro hs
    have h4 := P.truth hs
    rw [if_pos (by simp [hd])]
    unfold True1 at h4 ⊢
    simp only [Sink.account]
    rw [e1]
    unfold Sink.afterBreak
    by_cases hn : '\n' ∈ t
    · rw [if_pos hn, column_break _ hn]
      simp [column]
    · rw [if_neg hn, column_line _ hn]
      simp only [e2]
      omega
  · rw [if_pos (by simp [hd])]
    unfold Indents at hind ⊢
    rw [P.indent, P.indents] at hind
    exact hind
  · rw [if_pos (by simp [hd])]
    simp only [Sink.account]
    cases hl : t.getLast? with
    | none => rw [List.getLast?_eq_none_iff] at hl; exact absurd hl ht
    | some c => rfl
  · intro hm
    simp [q1 hm]
  · intro h1 h2 h3
    rcases q3 with q3 | q3 | q3
    · have := q4 (by rw [((p1.trans p2).trans p3).tab]; exact h1) h2 q3
      simp [this]
    · exact absurd q3 h3
    · simp [q3]
  · intro h1 h2 h3
    by_cases hm : o.mustbreak = true
    · simp [q1 hm]
    · rw [if_neg hm] at hs1
      subst hs1
      have : full = true := by rw [← hfull]; simpa using h3
      have hb : br = true := by rw [← hbr, this, hd]; simpa using h2
      simp [q2 (by rw [hb, h1]; rfl)]

/-- The blank after a word is written if there is room for it. -/
theorem write_blank (s : Sink) : ∃ s', s.write [' '] { canbreak := true, doTab := false, delimiter := true } = .ok s' ∧
    s'.tab = s.tab ∧ s'.width = s.width ∧ s'.indent = s.indent ∧ s'.indents = s.indents ∧ s'.pos = s.pos + 1 ∧
    (s.pos + 1 ≤ s.width → (∃ c, s.last = some c ∧ ¬ (c = ' ' ∨ c = '\n' ∨ c = '\t')) → s'.out = s.out ++ [' '] ∧ (True1 s → True1 s')) ∧
    (s'.out = s.out ∨ s'.out = s.out ++ [' ']) := by
  have hr : s.write [' '] { canbreak := true, doTab := false, delimiter := true } = .ok ((if (!decide (s.pos + 1 > s.width) &&
      !(decide (s.last = some ' ' ∨ s.last = some '\n' ∨ s.last = some '\t'))) = true then { s with out := s.out ++ [' '] } else s).account [' ']) := by
    unfold Sink.write
    simp [Sink.toColumn, Sink.toTab, Sink.setIndent]
  refine ⟨_, hr, ?_⟩
  split
  · refine ⟨rfl, rfl, rfl, rfl, ?_, fun _ _ => ⟨rfl, ?_⟩, .inr rfl⟩
    · simp [Sink.account, Sink.afterBreak]
    · unfold True1
      simp only [Sink.account, Sink.afterBreak]
      rw [column_line _ (by decide)]
      simp
  · rename_i h
    refine ⟨rfl, rfl, rfl, rfl, ?_, ?_, .inl rfl⟩
    · simp [Sink.account, Sink.afterBreak]
    · rintro h1 ⟨c, h2, h3⟩
      exfalso
      apply h
      rw [h2]
      simp only [Option.some.injEq, Bool.and_eq_true, Bool.not_eq_true', decide_eq_false_iff_not]
      exact ⟨by omega, h3⟩

/-- The position after a name on a new line. -/
theorem write_name (s : Sink) {t : Str} (ht : t ≠ []) (hn : '\n' ∉ t) (hi : s.indent = 0) (k : Int) {s' : Sink}
    (h : s.write t { mustbreak := true, doTab := false, startcol := k } = .ok s') : s'.pos = k.toNat + t.length := by
  unfold Sink.write at h
  rw [if_neg (by simp)] at h
  simp only [if_true] at h
  rw [if_neg (by simp [ht])] at h
  simp only [Bool.and_false, Bool.false_eq_true, if_false, Except.ok.injEq] at h
  rw [← h]
  have hp : s.newline.pos = 0 := hi
  have hc : (s.newline.toColumn k).1.pos = k.toNat := by
    unfold Sink.toColumn
    rw [hp]
    by_cases hk : (0 : Int) < k
    · simp [hk, Sink.padTo]
    · rw [if_neg (by omega)]
      simp only [hp]
      omega
  generalize s.newline.toColumn k = c at hc
  have h4 : (c.1.toTab false c.2) = c.1 := by simp [Sink.toTab]
  rw [h4]
  have h5 : c.1.setIndent false false = c.1 := by simp [Sink.setIndent]
  rw [h5]
  simp only [Sink.account, Sink.afterBreak, if_neg hn, Bool.not_false, Bool.true_or, if_true]
  rw [hc]

end Verif.Print
