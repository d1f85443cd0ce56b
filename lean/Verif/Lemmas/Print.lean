import Verif.Spec.Print
/-! # Lemmas about the layout of printed text -/
namespace Verif.Print
variable [CaseFold]
set_option linter.unusedSectionVars false

theorem isGap_nil : IsGap [] := by simp [IsGap]
theorem isGap_append {a b : Str} : IsGap (a ++ b) ↔ IsGap a ∧ IsGap b := by
  simp only [IsGap, List.mem_append]
  exact ⟨fun h => ⟨fun c hc => h c (.inl hc), fun c hc => h c (.inr hc)⟩, fun h c hc => hc.elim (h.1 c) (h.2 c)⟩
theorem isGap_blanks (n : Nat) : IsGap (List.replicate n ' ') := by
  intro c hc
  exact .inl (List.eq_of_mem_replicate hc)
theorem isGap_newline (n : Nat) : IsGap ('\n' :: List.replicate n ' ') := by
  intro c hc
  rcases List.mem_cons.1 hc with rfl | h
  · exact .inr rfl
  · exact isGap_blanks n c h

/-- Only white space has been added. -/
def Pads (s s' : Sink) (g : Str) : Prop := IsGap g ∧ s'.out = s.out ++ g ∧ s'.tab = s.tab

theorem Pads.refl (s : Sink) : Pads s s [] := ⟨isGap_nil, by simp, rfl⟩
theorem Pads.trans {a b c : Sink} {g h : Str} (h1 : Pads a b g) (h2 : Pads b c h) : Pads a c (g ++ h) :=
  ⟨isGap_append.2 ⟨h1.1, h2.1⟩, by rw [h2.2.1, h1.2.1, List.append_assoc], h2.2.2.trans h1.2.2⟩

theorem pads_newline (s : Sink) : ∃ g, Pads s s.newline g ∧ g ≠ [] := ⟨_, ⟨isGap_newline _, rfl, rfl⟩, by simp⟩

theorem pads_padTo (s : Sink) (col : Nat) (h : s.pos < col) : ∃ g, Pads s (s.padTo col) g ∧ g ≠ [] :=
  ⟨_, ⟨isGap_blanks _, rfl, rfl⟩, by simp; omega⟩

theorem pads_toColumn (s : Sink) (k : Int) : ∃ g, Pads s (s.toColumn k).1 g ∧ ((s.toColumn k).2 < 0 ∨ k = 0 ∨ g ≠ []) := by
  unfold Sink.toColumn
  split
  · split
    · obtain ⟨g, h1, h2⟩ := pads_padTo s k.toNat (by omega)
      exact ⟨g, h1, .inr (.inr h2)⟩
    · exact ⟨[], .refl s, .inl (by simp)⟩
  · exact ⟨[], .refl s, by
      by_cases hk : k < 0
      · exact .inl hk
      · exact .inr (.inl (by omega))⟩

theorem pads_toTab (s : Sink) (d : Bool) (k : Int) :
    ∃ g, Pads s (s.toTab d k) g ∧ (s.tab > 0 → d = true → k < 0 → g ≠ []) := by
  unfold Sink.toTab
  split
  · rename_i h
    have : s.pos < (s.pos / s.tab.toNat + 1) * s.tab.toNat := by
      have hp : 0 < s.tab.toNat := by omega
      have := Nat.div_add_mod s.pos s.tab.toNat
      have := Nat.mod_lt s.pos hp
      rw [Nat.add_mul, Nat.one_mul, Nat.mul_comm]
      omega
    simp only
    rw [if_pos this]
    obtain ⟨g, h1, h2⟩ := pads_padTo s _ this
    exact ⟨g, h1, fun _ _ _ => h2⟩
  · rename_i h
    exact ⟨[], .refl s, fun a b c => absurd ⟨a, b, c⟩ h⟩

theorem pads_setIndent (s : Sink) (a b : Bool) : Pads s (s.setIndent a b) [] := by
  unfold Sink.setIndent
  split
  · exact ⟨isGap_nil, by simp, rfl⟩
  · split
    · split
      · exact .refl s
      · exact ⟨isGap_nil, by simp, rfl⟩
    · exact .refl s

theorem pads_if {p : Prop} [Decidable p] (s : Sink) : ∃ g, Pads s (if p then s.newline else s) g ∧ (p → g ≠ []) := by
  split
  · obtain ⟨g, h1, h2⟩ := pads_newline s
    exact ⟨g, h1, fun _ => h2⟩
  · rename_i h
    exact ⟨[], .refl s, fun h' => absurd h' h⟩

/-- What `write` adds to the text. -/
theorem write_ok {s s' : Sink} {t : Str} {o : WriteOpts} (h : s.write t o = .ok s') :
    ∃ g, IsGap g ∧ s'.tab = s.tab ∧ (s'.out = s.out ++ g ++ t ∨ (o.delimiter = true ∧ s'.out = s.out ++ g)) ∧
      (o.mustbreak = true → g ≠ []) ∧ (s.tab > 0 → o.doTab = true → o.startcol ≠ 0 → g ≠ []) := by
  unfold Sink.write at h
  split at h
  · cases h
  simp only at h
  obtain ⟨g1, p1, q1⟩ := pads_if (p := o.mustbreak = true) s
  generalize hs1 : (if o.mustbreak = true then s.newline else s) = s1 at h p1
  generalize hfull : decide (s1.pos + t.length > s1.width) = full at h
  split at h
  · cases h
  simp only [Except.ok.injEq] at h
  generalize hbr : (full && !o.delimiter && decide (t.head? ≠ some '\n')) = br at h
  obtain ⟨g2, p2, -⟩ := pads_if (p := (br && o.canbreak) = true) s1
  generalize hs2 : (if (br && o.canbreak) = true then s1.newline else s1) = s2 at h p2
  obtain ⟨g3, p3, q3⟩ := pads_toColumn s2 o.startcol
  generalize s2.toColumn o.startcol = c at h p3 q3
  obtain ⟨g4, p4, q4⟩ := pads_toTab c.1 o.doTab c.2
  have p5 := pads_setIndent (c.1.toTab o.doTab c.2) o.newindent o.unindent
  generalize (c.1.toTab o.doTab c.2).setIndent o.newindent o.unindent = s3 at h p5
  have P := (((p1.trans p2).trans p3).trans p4).trans p5
  refine ⟨g1 ++ g2 ++ g3 ++ g4 ++ [], P.1, ?_, ?_, ?_, ?_⟩
  · rw [← h]
    rw [← P.2.2]
    simp only [Sink.account]
    split <;> rfl
  · split at h
    · left
      rw [← h, ← P.2.1]
      rfl
    · rename_i hd
      right
      simp only [Bool.or_eq_true, Bool.not_eq_eq_eq_not, Bool.not_true, not_or, Bool.not_eq_false] at hd
      refine ⟨hd.1, ?_⟩
      rw [← h, ← P.2.1]
      rfl
  · intro hm
    simp [q1 hm]
  · intro ht hd hk
    rcases q3 with q3 | q3 | q3
    · have := q4 (by rw [(p1.trans p2 |>.trans p3).2.2]; exact ht) hd q3
      simp [this]
    · exact absurd q3 hk
    · simp [q3]

/-- A text that is written, not a delimiter. -/
theorem write_word {s s' : Sink} {t : Str} {o : WriteOpts} (h : s.write t o = .ok s') (hd : o.delimiter = false) :
    ∃ g, IsGap g ∧ s'.tab = s.tab ∧ s'.out = s.out ++ g ++ t ∧
      (o.mustbreak = true → g ≠ []) ∧ (s.tab > 0 → o.doTab = true → o.startcol ≠ 0 → g ≠ []) := by
  obtain ⟨g, h1, h2, h3 | h3, h4⟩ := write_ok h
  · exact ⟨g, h1, h2, h3, h4⟩
  · rw [hd] at h3
    cases h3.1

/-- White space that is written. -/
theorem write_gap {s s' : Sink} {t : Str} {o : WriteOpts} (h : s.write t o = .ok s') (ht : IsGap t) :
    ∃ g, Pads s s' g ∧ (t ≠ [] → o.delimiter = false → g ≠ []) := by
  obtain ⟨g, h1, h2, h3 | h3, -⟩ := write_ok h
  · exact ⟨g ++ t, ⟨isGap_append.2 ⟨h1, ht⟩, by rw [h3, List.append_assoc], h2⟩, fun hn _ => by simp [hn]⟩
  · exact ⟨g, ⟨h1, h3.2, h2⟩, fun _ hd => by rw [hd] at h3; cases h3.1⟩

/-- The text so far: words and a gap at the end. -/
def LaidTo (words : List Str) (text tail : Str) : Prop :=
  ∃ l : List (Str × Str), words = l.map (·.2) ∧ text = l.flatMap (fun p => p.1 ++ p.2) ++ tail ∧ IsGap tail ∧
    ∀ p ∈ l, IsGap p.1 ∧ (p.1 ≠ [] ∨ semiDelim <+: p.2)

theorem LaidTo.laid {ws : List Str} {text tail : Str} (h : LaidTo ws text tail) : Laid ws text := by
  obtain ⟨l, h⟩ := h
  exact ⟨l, tail, h⟩

theorem LaidTo.gap {ws : List Str} {text tail g : Str} (h : LaidTo ws text tail) (hg : IsGap g) : LaidTo ws (text ++ g) (tail ++ g) := by
  obtain ⟨l, h1, h2, h3, h4⟩ := h
  exact ⟨l, h1, by rw [h2, List.append_assoc], isGap_append.2 ⟨h3, hg⟩, h4⟩

theorem LaidTo.word {ws : List Str} {text tail : Str} {w : Str} (h : LaidTo ws text tail) (hw : tail ≠ [] ∨ semiDelim <+: w) :
    LaidTo (ws ++ [w]) (text ++ w) [] := by
  obtain ⟨l, h1, h2, h3, h4⟩ := h
  refine ⟨l ++ [(tail, w)], by simp [h1], by simp [h2], isGap_nil, ?_⟩
  intro p hp
  rcases List.mem_append.1 hp with hp | hp
  · exact h4 p hp
  · simp only [List.mem_singleton] at hp
    subst hp
    exact ⟨h3, hw⟩

theorem andThen_ok {r : Except PyErr Sink} {f : Sink → Except PyErr Sink} {s' : Sink} (h : andThen r f = .ok s') :
    ∃ s, r = .ok s ∧ f s = .ok s' := by
  unfold andThen at h
  cases r with
  | error e => cases h
  | ok s => exact ⟨s, rfl, h⟩

/-- Writing a word after white space. -/
theorem laid_write {ws : List Str} {s s' : Sink} {tail t : Str} {o : WriteOpts} (hl : LaidTo ws s.out tail)
    (h : s.write t o = .ok s') (hd : o.delimiter = false)
    (hc : tail ≠ [] ∨ o.mustbreak = true ∨ (s.tab > 0 ∧ o.doTab = true ∧ o.startcol ≠ 0) ∨ semiDelim <+: t) :
    LaidTo (ws ++ [t]) s'.out [] ∧ s'.tab = s.tab := by
  obtain ⟨g, h1, h2, h3, h4, h5⟩ := write_word h hd
  refine ⟨?_, h2⟩
  rw [h3]
  apply (hl.gap h1).word
  rcases hc with hc | hc | hc | hc
  · left; simp [hc]
  · left; simp [h4 hc]
  · left; simp [h5 hc.1 hc.2.1 hc.2.2]
  · exact .inr hc

/-- Writing white space. -/
theorem laid_write_gap {ws : List Str} {s s' : Sink} {tail t : Str} {o : WriteOpts} (hl : LaidTo ws s.out tail)
    (h : s.write t o = .ok s') (ht : IsGap t) :
    ∃ tail', LaidTo ws s'.out tail' ∧ s'.tab = s.tab ∧ (tail ≠ [] → tail' ≠ []) ∧ (t ≠ [] → o.delimiter = false → tail' ≠ []) := by
  obtain ⟨g, h1, h2⟩ := write_gap h ht
  refine ⟨tail ++ g, ?_, h1.2.2, fun h => by simp [h], fun a b => by simp [h2 a b]⟩
  rw [h1.2.1]
  exact hl.gap h1.1

/-- The delimiter after a word, when the line is full: a line break follows. -/
theorem formatValue_simple {st : Style} {s s' : Sink} {c : Bool} {d : Option Str} {col : Int} {v : PyVal} (hv : Simple v)
    (h : formatValue st s c d col v = .ok s') :
    ∃ w, Formatted st v w ∧ s.write w { canbreak := true, startcol := col } = .ok s' := by
  cases v with
  | str x =>
    rw [formatValue] at h
    cases hf : formatString st x d with
    | error e => rw [hf] at h; cases h
    | ok t =>
      rw [hf] at h
      exact ⟨t, .inl ⟨x, d, rfl, hf⟩, h⟩
  | num t =>
    rw [formatValue] at h
    exact ⟨t, .inr rfl, h⟩
  | none => exact absurd hv (by simp [Simple])
  | slist l => exact absurd hv (by simp [Simple])
  | sdict l => exact absurd hv (by simp [Simple])
  | list l => exact absurd hv (by simp [Simple])

theorem formatPacketItem_simple {st : Style} {s s' : Sink} {hint : Option Hint} {v : PyVal} (hv : Simple v)
    (h : formatPacketItem st hint s v = .ok s') :
    ∃ w o, Formatted st v w ∧ s.write w o = .ok s' ∧ o.doTab = true ∧ o.delimiter = false ∧
      (∀ x, hint = some x → o.startcol = x.column) ∧ (hint = none → o.startcol = -1) := by
  unfold formatPacketItem at h
  cases v with
  | str x =>
    simp only at h
    split at h
    · cases h
    · rename_i t hf
      refine ⟨t, _, .inl ⟨x, _, rfl, hf⟩, h, rfl, rfl, ?_, ?_⟩
      · rintro x rfl; rfl
      · rintro rfl; rfl
  | num t =>
    simp only at h
    obtain ⟨w, h1, h2⟩ := formatValue_simple hv h
    refine ⟨w, _, h1, h2, rfl, rfl, ?_, ?_⟩
    · rintro x rfl; rfl
    · rintro rfl; rfl
  | none => exact absurd hv (by simp [Simple])
  | slist l => exact absurd hv (by simp [Simple])
  | sdict l => exact absurd hv (by simp [Simple])
  | list l => exact absurd hv (by simp [Simple])

theorem formattedAll_append {st : Style} : ∀ {vs : List PyVal} {ws : List Str} {vs' : List PyVal} {ws' : List Str},
    FormattedAll st vs ws → FormattedAll st vs' ws' → FormattedAll st (vs ++ vs') (ws ++ ws')
  | [], [], _, _, _, h => h
  | _ :: _, _ :: _, _, _, h, h' => ⟨h.1, formattedAll_append h.2 h'⟩
  | [], _ :: _, _, _, h, _ => h.elim
  | _ :: _, [], _, _, h, _ => h.elim

/-- No hint asks for column 0. -/
def Columns (hints : List Hint) : Prop := ∀ h ∈ hints, h.column ≠ 0

theorem loopHint_mem {hints : List Hint} {n : Str} {x : Hint} (h : loopHint hints n = some x) : x ∈ hints := by
  unfold loopHint at h
  have := List.mem_of_find?_eq_some h
  simpa using this

theorem formatRow_laid {st : Style} {hints : List Hint} (hh : Columns hints) : ∀ (ns : List Str) (row : List PyVal) (s s' : Sink)
    (ws : List Str) (tail : Str), ns.length = row.length → (∀ v ∈ row, Simple v) → s.tab > 0 → LaidTo ws s.out tail →
    formatRow st hints s ns row = .ok s' →
    ∃ ws' tail', FormattedAll st row ws' ∧ LaidTo (ws ++ ws') s'.out tail' ∧ s'.tab = s.tab
  | [], [], s, s', ws, tail, _, _, _, hl, h => by
    simp only [formatRow, Except.ok.injEq] at h
    subst h
    exact ⟨[], tail, trivial, by simpa using hl, rfl⟩
  | n :: ns, v :: row, s, s', ws, tail, hn, hv, ht, hl, h => by
    rw [formatRow] at h
    obtain ⟨s1, h1, h⟩ := andThen_ok h
    obtain ⟨s2, h2, h⟩ := andThen_ok h
    obtain ⟨w, o, hf, hw, hd, hdel, hc1, hc2⟩ := formatPacketItem_simple (hv v (by simp)) h1
    have hcol : o.startcol ≠ 0 := by
      cases hx : loopHint hints n with
      | none => rw [hc2 hx]; decide
      | some x => rw [hc1 x hx]; exact hh x (loopHint_mem hx)
    obtain ⟨hl1, ht1⟩ := laid_write hl hw hdel (.inr (.inr (.inl ⟨ht, hd, hcol⟩)))
    obtain ⟨tail2, hl2, ht2, -⟩ := laid_write_gap hl1 h2 (by intro c hc; simp at hc; exact .inl hc)
    obtain ⟨ws', tail', k1, k2, k3⟩ := formatRow_laid hh ns row s2 s' _ _ (by simpa using hn)
      (fun v hv' => hv v (by simp [hv'])) (by rw [ht2, ht1]; exact ht) hl2 h
    exact ⟨w :: ws', tail', ⟨hf, k1⟩, by simpa using k2, by rw [k3, ht2, ht1]⟩
  | [], _ :: _, _, _, _, _, hn, _, _, _, _ => by simp at hn
  | _ :: _, [], _, _, _, _, hn, _, _, _, _ => by simp at hn

theorem formatRows_laid {st : Style} {hints : List Hint} (hh : Columns hints) (ns : List Str) : ∀ (rs : List (List PyVal)) (s s' : Sink)
    (first : Bool) (ws : List Str) (tail : Str), (∀ r ∈ rs, ns.length = r.length) → (∀ v ∈ rs.flatten, Simple v) → s.tab > 0 →
    LaidTo ws s.out tail → formatRows st hints ns s first rs = .ok s' →
    ∃ ws' tail', FormattedAll st rs.flatten ws' ∧ LaidTo (ws ++ ws') s'.out tail' ∧ s'.tab = s.tab
  | [], s, s', first, ws, tail, _, _, _, hl, h => by
    simp only [formatRows, Except.ok.injEq] at h
    subst h
    exact ⟨[], tail, trivial, by simpa using hl, rfl⟩
  | row :: rs, s, s', first, ws, tail, hn, hv, ht, hl, h => by
    rw [formatRows] at h
    obtain ⟨s1, h1, h⟩ := andThen_ok h
    obtain ⟨s2, h2, h⟩ := andThen_ok h
    have key : ∃ tail1, LaidTo ws s1.out tail1 ∧ s1.tab = s.tab := by
      split at h1
      · simp only [Except.ok.injEq] at h1
        subst h1
        exact ⟨tail, hl, rfl⟩
      · obtain ⟨t1, a, b, -⟩ := laid_write_gap hl h1 (by intro c hc; simp at hc; exact .inr hc)
        exact ⟨t1, a, b⟩
    obtain ⟨tail1, hl1, ht1⟩ := key
    obtain ⟨w2, tail2, f2, hl2, ht2⟩ := formatRow_laid hh ns row s1 s2 ws tail1 (hn row (by simp))
      (fun v hv' => hv v (by simp [hv'])) (by rw [ht1]; exact ht) hl1 h2
    obtain ⟨w3, tail3, f3, hl3, ht3⟩ := formatRows_laid hh ns rs s2 s' false _ tail2 (fun r hr => hn r (by simp [hr]))
      (fun v hv' => hv v (by simp only [List.flatten_cons, List.mem_append]; exact .inr hv')) (by rw [ht2, ht1]; exact ht) hl2 h
    refine ⟨w2 ++ w3, tail3, ?_, by simpa using hl3, by rw [ht3, ht2, ht1]⟩
    simp only [List.flatten_cons]
    exact formattedAll_append f2 f3

theorem formatNames_laid {b : Block} {hints : List Hint} {indent : Nat} : ∀ (ns : List Str) (s s' : Sink) (ws : List Str) (tail : Str),
    LaidTo ws s.out tail → tail ≠ [] → formatNames b hints indent s ns = .ok s' →
    ∃ ts tail', spelled b ns = some ts ∧ LaidTo (ws ++ ts) s'.out tail' ∧ tail' ≠ [] ∧ s'.tab = s.tab
  | [], s, s', ws, tail, hl, hne, h => by
    simp only [formatNames, Except.ok.injEq] at h
    subst h
    exact ⟨[], tail, rfl, by simpa using hl, hne, rfl⟩
  | n :: ns, s, s', ws, tail, hl, hne, h => by
    rw [formatNames] at h
    obtain ⟨s1, h1, h⟩ := andThen_ok h
    cases ht : dget b.trueCase n with
    | none => rw [ht] at h; cases h
    | some t =>
      rw [ht] at h
      simp only at h
      obtain ⟨s2, h2, h⟩ := andThen_ok h
      obtain ⟨s3, h3, h⟩ := andThen_ok h
      obtain ⟨tail1, hl1, ht1, hne1, -⟩ := laid_write_gap hl h1 (isGap_blanks _)
      obtain ⟨hl2, ht2⟩ := laid_write hl1 h2 rfl (.inl (hne1 hne))
      obtain ⟨tail3, hl3, ht3, -, hne3⟩ := laid_write_gap hl2 h3 (by intro c hc; simp at hc; exact .inr hc)
      obtain ⟨ts, tail4, hs, hl4, hne4, ht4⟩ := formatNames_laid ns s3 s' _ tail3 hl3 (hne3 (by simp) rfl) h
      exact ⟨t :: ts, tail4, by simp [spelled, ht, hs], by simpa using hl4, hne4, by rw [ht4, ht3, ht2, ht1]⟩

theorem heads_length : ∀ {cols : List (List PyVal)} {row : List PyVal} {rest : List (List PyVal)}, heads cols = some (row, rest) →
    row.length = cols.length ∧ rest.length = cols.length
  | [], row, rest, h => by
    simp only [heads, Option.some.injEq, Prod.mk.injEq] at h
    rw [← h.1, ← h.2]; simp
  | [] :: _, _, _, h => by simp [heads] at h
  | (v :: c) :: r, row, rest, h => by
    rw [heads] at h
    cases hr : heads r with
    | none => rw [hr] at h; cases h
    | some q =>
      obtain ⟨hs, ts⟩ := q
      rw [hr] at h
      simp only [Option.some.injEq, Prod.mk.injEq] at h
      have := heads_length hr
      rw [← h.1, ← h.2]
      simp [this]

theorem zipRows_length : ∀ (n : Nat) (cols : List (List PyVal)), ∀ r ∈ zipRows n cols, r.length = cols.length
  | 0, _, r, h => by simp [zipRows] at h
  | n + 1, cols, r, h => by
    rw [zipRows] at h
    cases hh : heads cols with
    | none => rw [hh] at h; simp at h
    | some q =>
      obtain ⟨row, rest⟩ := q
      rw [hh] at h
      have hl := heads_length hh
      simp only [List.mem_cons] at h
      rcases h with rfl | h
      · exact hl.1
      · rw [zipRows_length n rest r h, hl.2]

theorem columns_length {b : Block} : ∀ {ns : List Str} {cols : List (List PyVal)}, columns b ns = .ok cols → cols.length = ns.length
  | [], cols, h => by
    simp only [columns, Except.ok.injEq] at h
    rw [← h]; rfl
  | n :: ns, cols, h => by
    rw [columns] at h
    split at h
    · cases h
    · split at h
      · cases h
      · split at h
        · cases h
        · rename_i l hl
          simp only [Except.ok.injEq] at h
          rw [← h]
          simp [columns_length hl]

theorem rows_length {b : Block} {ns : List Str} {cols : List (List PyVal)} (h : columns b ns = .ok cols) :
    ∀ r ∈ rows cols, ns.length = r.length := by
  intro r hr
  cases cols with
  | nil => simp [rows] at hr
  | cons c cs => rw [zipRows_length _ _ r hr, columns_length h]

theorem printItem_laid {st : Style} {hints : List Hint} (hh : Columns hints) {b : Block} {s s' : Sink} {n : Str} {e : Entry}
    {ws : List Str} {tail : Str} (hl : LaidTo ws s.out tail) (he : entryOf b (.name n) = some e) (hs : SimpleEntry e)
    (h : printItem st hints b s n = .ok s') :
    ∃ ws' tail', EntryWords st e ws' ∧ LaidTo (ws ++ ws') s'.out tail' := by
  unfold printItem at h
  simp only at h
  unfold entryOf at he
  simp only at he
  cases hg : b.getItem n with
  | error x => rw [hg] at h; cases h
  | ok v =>
    cases ht : dget b.trueCase n with
    | none => rw [hg, ht] at h; cases h
    | some t =>
      rw [hg, ht] at h he
      simp only [Option.some.injEq] at he
      subst he
      simp only at h
      obtain ⟨s1, h1, h⟩ := andThen_ok h
      obtain ⟨s2, h2, h⟩ := andThen_ok h
      obtain ⟨w, hf, hw⟩ := formatValue_simple hs h
      generalize hspec : (hints.find? fun h => decide (lower h.dataname = lower n)) = spec at h1 h hw
      have hl0 : LaidTo ws (s.setTab (if hintColumn spec < 0 then 40 else hintColumn spec)).out tail := hl
      obtain ⟨hl1, ht1⟩ := laid_write hl0 h1 rfl (.inr (.inl rfl))
      obtain ⟨tail2, hl2, ht2, -⟩ := laid_write_gap hl1 h2 (by intro c hc; simp at hc; exact .inl hc)
      have hcol : hintColumn spec ≠ 0 := by
        cases spec with
        | none => simp [hintColumn]
        | some x => exact hh x (List.mem_of_find?_eq_some hspec)
      obtain ⟨hl3, ht3⟩ := laid_write hl2 hw rfl (.inr (.inr (.inl ⟨by
        rw [ht2, ht1]
        simp only [Sink.setTab]
        split
        · omega
        · omega, rfl, hcol⟩)))
      exact ⟨[t, w], [], ⟨w, rfl, hf⟩, by simpa using hl3⟩

theorem printLoop_laid {st : Style} {hints : List Hint} (hh : Columns hints) {b : Block} {indent : Nat} {s s' : Sink} {n : Nat} {e : Entry}
    {ws : List Str} {tail : Str} (hl : LaidTo ws s.out tail) (he : entryOf b (.loop n) = some e) (hs : SimpleEntry e)
    (h : printLoop st hints b indent s n = .ok s') :
    ∃ ws' tail', EntryWords st e ws' ∧ LaidTo (ws ++ ws') s'.out tail' := by
  unfold printLoop at h
  unfold entryOf at he
  simp only at he
  split at h
  · cases h
  rename_i li _
  obtain ⟨s1, h1, h⟩ := andThen_ok h
  cases hn : dget b.loops n with
  | none => rw [hn] at h; cases h
  | some names =>
    rw [hn] at h he
    simp only at h he
    obtain ⟨s2, h2, h⟩ := andThen_ok h
    obtain ⟨g, g1, g2, g3, g4, -⟩ := write_word h1 rfl
    have hl1 : LaidTo (ws ++ ["loop_".toList]) s1.out ['\n'] := by
      have e1 : s1.out = (s.out ++ g ++ "loop_".toList) ++ ['\n'] := by
        rw [g3]
        simp only [Sink.setTab, List.append_assoc]
        rfl
      rw [e1]
      exact ((hl.gap g1).word (.inl (by simp [g4 rfl]))).gap (by intro c hc; simp at hc; exact .inr hc)
    obtain ⟨ts, tail2, hsp, hl2, -, ht2⟩ := formatNames_laid names s1 s2 _ _ hl1 (by simp) h2
    cases hc : columns b names with
    | error x => rw [hc] at h; cases h
    | ok cols =>
      rw [hc] at h he
      rw [hsp] at he
      simp only [Option.some.injEq] at he
      subst he
      simp only at h
      obtain ⟨ws3, tail3, f3, hl3, -⟩ := formatRows_laid hh names (rows cols) s2 s' true _ tail2 (rows_length hc) hs
        (by rw [ht2, g2]; simp [Sink.setTab]) hl2 h
      exact ⟨"loop_".toList :: ts ++ ws3, tail3, ⟨ws3, rfl, f3⟩, by simpa using hl3⟩

theorem printRefs_laid {st : Style} {hints : List Hint} (hh : Columns hints) {b : Block} {indent : Nat} : ∀ (refs : List Ref) (s s' : Sink)
    (es : List Entry) (ws : List Str) (tail : Str), LaidTo ws s.out tail → docOf b refs = some es → (∀ e ∈ es, SimpleEntry e) →
    printRefs st hints b indent s refs = .ok s' → ∃ ws' tail', DocWords st es ws' ∧ LaidTo (ws ++ ws') s'.out tail'
  | [], s, s', es, ws, tail, hl, hd, _, h => by
    simp only [docOf, Option.some.injEq] at hd
    simp only [printRefs, Except.ok.injEq] at h
    subst hd h
    exact ⟨[], tail, rfl, by simpa using hl⟩
  | r :: rs, s, s', es, ws, tail, hl, hd, hs, h => by
    rw [docOf] at hd
    cases he : entryOf b r with
    | none => rw [he] at hd; cases hd
    | some e =>
      cases hes : docOf b rs with
      | none => rw [he, hes] at hd; cases hd
      | some es' =>
        rw [he, hes] at hd
        simp only [Option.some.injEq] at hd
        subst hd
        have hse := hs e (by simp)
        obtain ⟨s1, ws1, tail1, e1, l1, h⟩ : ∃ s1 ws1 tail1, EntryWords st e ws1 ∧ LaidTo (ws ++ ws1) s1.out tail1 ∧
            printRefs st hints b indent s1 rs = .ok s' := by
          cases r with
          | name n =>
            rw [printRefs] at h
            obtain ⟨s1, h1, h⟩ := andThen_ok h
            obtain ⟨ws1, tail1, a, c⟩ := printItem_laid hh hl he hse h1
            exact ⟨s1, ws1, tail1, a, c, h⟩
          | loop n =>
            rw [printRefs] at h
            obtain ⟨s1, h1, h⟩ := andThen_ok h
            obtain ⟨ws1, tail1, a, c⟩ := printLoop_laid hh hl he hse h1
            exact ⟨s1, ws1, tail1, a, c, h⟩
        obtain ⟨ws2, tail2, d2, l2⟩ := printRefs_laid hh rs s1 s' es' _ tail1 l1 hes (fun e he => hs e (by simp [he])) h
        exact ⟨ws1 ++ ws2, tail2, ⟨ws1, ws2, rfl, e1, d2⟩, by simpa using l2⟩

end Verif.Print

namespace Verif.Print
variable [CaseFold]

theorem formatNames_spelled {b : Block} {hints : List Hint} {indent : Nat} : ∀ (ns : List Str) (s s' : Sink),
    formatNames b hints indent s ns = .ok s' → ∃ ts, spelled b ns = some ts
  | [], _, _, _ => ⟨[], rfl⟩
  | n :: ns, s, s', h => by
    rw [formatNames] at h
    obtain ⟨s1, h1, h⟩ := andThen_ok h
    cases ht : dget b.trueCase n with
    | none => rw [ht] at h; cases h
    | some t =>
      rw [ht] at h
      simp only at h
      obtain ⟨s2, h2, h⟩ := andThen_ok h
      obtain ⟨s3, h3, h⟩ := andThen_ok h
      obtain ⟨ts, hs⟩ := formatNames_spelled ns s3 s' h
      exact ⟨t :: ts, by simp [spelled, ht, hs]⟩

/-- Only names and loops that are there can be printed. -/
theorem printRefs_doc {st : Style} {hints : List Hint} {b : Block} {indent : Nat} : ∀ (refs : List Ref) (s s' : Sink),
    printRefs st hints b indent s refs = .ok s' → ∃ es, docOf b refs = some es
  | [], _, _, _ => ⟨[], rfl⟩
  | r :: rs, s, s', h => by
    obtain ⟨s1, e, he, h⟩ : ∃ s1 e, entryOf b r = some e ∧ printRefs st hints b indent s1 rs = .ok s' := by
      cases r with
      | name n =>
        rw [printRefs] at h
        obtain ⟨s1, h1, h⟩ := andThen_ok h
        unfold printItem at h1
        simp only at h1
        cases hg : b.getItem n with
        | error x => rw [hg] at h1; cases h1
        | ok v =>
          cases ht : dget b.trueCase n with
          | none => rw [hg, ht] at h1; cases h1
          | some t => exact ⟨s1, .item t v, by simp [entryOf, hg, ht], h⟩
      | loop n =>
        rw [printRefs] at h
        obtain ⟨s1, h1, h⟩ := andThen_ok h
        unfold printLoop at h1
        split at h1
        · cases h1
        obtain ⟨s2, h2, h1⟩ := andThen_ok h1
        cases hn : dget b.loops n with
        | none => rw [hn] at h1; cases h1
        | some names =>
          rw [hn] at h1
          simp only at h1
          obtain ⟨s3, h3, h1⟩ := andThen_ok h1
          obtain ⟨ts, hs⟩ := formatNames_spelled _ _ _ h3
          cases hc : columns b names with
          | error x => rw [hc] at h1; cases h1
          | ok cols => exact ⟨s1, .loop ts (rows cols).flatten, by simp [entryOf, hn, hs, hc], h⟩
    obtain ⟨es, hes⟩ := printRefs_doc rs s1 s' h
    exact ⟨e :: es, by simp [docOf, he, hes]⟩
end Verif.Print
