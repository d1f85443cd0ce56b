import Verif.Model.Template
import Verif.Spec.Template
/-! # Searching a template -/
namespace Verif
namespace Template

/-- What a plain name means. -/
def plainPiece (c : Char) : Piece := if c = '.' then .any else .char c

theorem pieces_plain : ∀ s : Str, (∀ c ∈ s, c ∉ ['\\', '^', '$', '*', '+', '?', '{', '}', '|', '(', ')', '[']) → pieces none s = some (s.map plainPiece)
  | [], _ => rfl
  | c :: r, h => by
    have hc := h c List.mem_cons_self
    have h1 : c ∉ otherSigns := by
      intro hm
      apply hc
      simp only [otherSigns, List.mem_cons, List.not_mem_nil, or_false] at hm ⊢
      rcases hm with h | h | h | h | h | h | h | h | h | h | h <;> simp [h]
    have h2 : c ≠ '[' := fun e => hc (by simp [e])
    have ih := pieces_plain r fun x hx => h x (List.mem_cons_of_mem _ hx)
    rw [pieces, if_neg h1]
    by_cases hd : c = '.'
    · rw [if_pos hd, ih]
      simp [plainPiece, hd]
    · rw [if_neg hd, if_neg h2, ih]
      simp [plainPiece, hd]

theorem afterName_like : ∀ (item : Str) (s r : Str), afterName (item.map plainPiece) s = some r → ∃ w, s = w ++ r ∧ Like item w
  | [], s, r, h => by
    have e : s = r := by simpa [afterName] using h
    exact ⟨[], by simp [e], rfl, by simp⟩
  | i :: is, [], r, h => by simp [afterName] at h
  | i :: is, c :: s, r, h => by
    simp only [List.map_cons, afterName] at h
    split at h
    · rename_i hf
      obtain ⟨w, hw, hl, ha⟩ := afterName_like is s r h
      refine ⟨c :: w, by simp [hw], by simp [hl], ?_⟩
      intro p hp
      rcases List.mem_cons.mp (by simpa using hp : p ∈ (i, c) :: is.zip w) with rfl | hp
      · unfold plainPiece at hf
        split at hf
        · rename_i hd
          exact .inl hd
        · exact .inr (by simpa [Piece.fits] using hf)
      · exact ha p hp
    · cases h

theorem afterName_same : ∀ (item w r : Str), '\n' ∉ item → Same item w → afterName (item.map plainPiece) (w ++ r) = some r
  | [], [], r, _, _ => rfl
  | [], _ :: _, _, _, h => by simp [Same] at h
  | _ :: _, [], _, _, h => by simp [Same] at h
  | i :: is, c :: w, r, hn, h => by
    simp only [Same, List.map_cons, List.cons.injEq] at h
    have ih := afterName_same is w r (fun hm => hn (List.mem_cons_of_mem _ hm)) h.2
    have hf : (plainPiece i).fits c = true := by
      unfold plainPiece
      split
      · rename_i hd
        simp only [Piece.fits, bne_iff_ne, ne_eq]
        rintro rfl
        rw [hd] at h
        exact absurd h.1 (by decide)
      · simpa [Piece.fits] using h.1
    simp only [List.map_cons, List.cons_append, afterName, hf, if_true]
    exact ih

theorem blank_isBlank {s : Str} (h : Blank s) : ∀ c ∈ s, isBlank c = true := by
  intro c hc
  rcases h c hc with rfl | rfl <;> rfl

theorem gap_isGap {s : Str} (h : Gap s) : ∀ c ∈ s, isGap c = true := by
  intro c hc
  rcases h.2 c hc with rfl | rfl | rfl <;> rfl

theorem takeWhile_stop {p : Char → Bool} : ∀ (a b : Str), (∀ c ∈ a, p c = true) → (∀ c ∈ b.head?, p c = false) → (a ++ b).takeWhile p = a ∧ (a ++ b).dropWhile p = b
  | [], [], _, _ => ⟨rfl, rfl⟩
  | [], c :: b, _, h => by simp [h c (by simp)]
  | c :: a, b, ha, hb => by
    have ih := takeWhile_stop a b (fun x hx => ha x (List.mem_cons_of_mem _ hx)) hb
    simp [ha c List.mem_cons_self, ih.1, ih.2]

theorem lower_under {c : Char} (h : '_'.toLower = c.toLower) : isBlank c = false := by
  by_cases hb : isBlank c = true
  · exfalso
    simp only [isBlank, Bool.or_eq_true, beq_iff_eq] at hb
    rcases hb with rfl | rfl
    · exact absurd h (by decide)
    · exact absurd h (by decide)
  · simpa using hb

/-- What a match consists of. -/
theorem matchAt_parts {ps : List Piece} {s : Str} {m : Nat × Nat × Str} (h : matchAt ps s = some m) :
    ∃ indent t gap c r, s = indent ++ t ∧ Blank indent ∧ afterName ps t = some (gap ++ c :: r) ∧ Gap gap ∧ isSpace c = false := by
  unfold matchAt at h
  dsimp only at h
  split at h
  · cases h
  · rename_i r hr
    split at h
    · cases h
    · rename_i hg
      simp only [Option.map_eq_some_iff] at h
      obtain ⟨v, hv, _⟩ := h
      cases hd : r.dropWhile isGap with
      | nil => rw [hd] at hv; cases hv
      | cons c t =>
        rw [hd, value] at hv
        split at hv
        · cases hv
        · rename_i hsp
          refine ⟨s.takeWhile isBlank, s.dropWhile isBlank, r.takeWhile isGap, c, t, (List.takeWhile_append_dropWhile).symm, ?_, ?_, ⟨?_, ?_⟩, by simpa using hsp⟩
          · intro x hx
            have := List.all_eq_true.mp (List.all_takeWhile (p := isBlank) (l := s)) x hx
            simpa [isBlank] using this
          · rw [hr, ← hd, List.takeWhile_append_dropWhile]
          · exact fun e => hg (by rw [e]; rfl)
          · intro x hx
            have := List.all_eq_true.mp (List.all_takeWhile (p := isGap) (l := r)) x hx
            simpa [isGap, or_assoc] using this

/-- A match begins with something like the name. -/
theorem matchAt_begins {item s : Str} {m : Nat × Nat × Str} (h : matchAt (item.map plainPiece) s = some m) : Begins item s := by
  obtain ⟨indent, t, gap, c, r, hs, hi, ha, hg, hc⟩ := matchAt_parts h
  obtain ⟨w, hw, hl⟩ := afterName_like item t _ ha
  exact ⟨indent, w, gap, c, r, by rw [hs, hw], hi, hl, hg, hc⟩

theorem afterName_append : ∀ (ps qs : List Piece) (s r : Str), afterName (ps ++ qs) s = some r → ∃ t, afterName ps s = some t ∧ afterName qs t = some r
  | [], _, s, r, h => ⟨s, rfl, h⟩
  | _ :: _, _, [], _, h => by simp [afterName] at h
  | p :: ps, qs, c :: s, r, h => by
    simp only [List.cons_append, afterName] at h ⊢
    split at h
    · rename_i hf
      rw [if_pos hf]
      exact afterName_append ps qs s r h
    · cases h

/-- With a class at the end. -/
theorem matchAt_oneOf {stem cs s : Str} {m : Nat × Nat × Str} (h : matchAt (stem.map plainPiece ++ [.oneOf cs]) s = some m) : BeginsOneOf stem cs s := by
  obtain ⟨indent, t, gap, c, r, hs, hi, ha, hg, hc⟩ := matchAt_parts h
  obtain ⟨u, h1, h2⟩ := afterName_append _ _ _ _ ha
  obtain ⟨w, hw, hl⟩ := afterName_like stem t _ h1
  cases u with
  | nil => simp [afterName] at h2
  | cons x u =>
    simp only [afterName] at h2
    split at h2
    · rename_i hf
      have hu : u = gap ++ c :: r := by simpa using h2
      simp only [Piece.fits, List.any_eq_true, beq_iff_eq] at hf
      exact ⟨indent, w, x, gap, c, r, by rw [hs, hw, hu], hi, hl, hf, hg, hc⟩
    · cases h2

theorem pieces_class (t : Str) : ∀ (cs acc : Str), (∀ c ∈ cs, c ∉ classSigns) → acc ++ cs ≠ [] → pieces (some acc) (cs ++ ']' :: t) = (pieces none t).map (Piece.oneOf (acc ++ cs) :: ·)
  | [], acc, _, hne => by
    have : acc ≠ [] := by simpa using hne
    rw [List.nil_append, pieces, if_pos ⟨rfl, this⟩, List.append_nil]
  | c :: cs, acc, h, _ => by
    have hc := h c List.mem_cons_self
    have h1 : ¬(c = ']' ∧ acc ≠ []) := fun e => hc (by rw [e.1]; decide)
    rw [List.cons_append, pieces, if_neg h1, if_neg hc, pieces_class t cs (acc ++ [c]) (fun x hx => h x (List.mem_cons_of_mem _ hx)) (by simp)]
    simp

theorem pieces_append : ∀ (s t : Str), (∀ c ∈ s, c ∉ ['\\', '^', '$', '*', '+', '?', '{', '}', '|', '(', ')', '[']) → pieces none (s ++ t) = (pieces none t).map (s.map plainPiece ++ ·)
  | [], t, _ => by simp
  | c :: r, t, h => by
    have hc := h c List.mem_cons_self
    have h1 : c ∉ otherSigns := by
      intro hm
      apply hc
      simp only [otherSigns, List.mem_cons, List.not_mem_nil, or_false] at hm ⊢
      rcases hm with h | h | h | h | h | h | h | h | h | h | h <;> simp [h]
    have h2 : c ≠ '[' := fun e => hc (by simp [e])
    have ih := pieces_append r t fun x hx => h x (List.mem_cons_of_mem _ hx)
    rw [List.cons_append, pieces, if_neg h1]
    by_cases hd : c = '.'
    · rw [if_pos hd, ih]
      simp [plainPiece, hd, Option.map_map, Function.comp_def]
    · rw [if_neg hd, if_neg h2, ih]
      simp [plainPiece, hd, Option.map_map, Function.comp_def]

/-- The line of the item matches. -/
theorem matchAt_item {item indent nm gap val : Str} (hp : item.head? = some '_') (hn : '\n' ∉ item) (hi : Blank indent) (hs : Same item nm) (hg : Gap gap)
    (hv : ∃ c r, val = c :: r ∧ isSpace c = false) :
    matchAt (item.map plainPiece) (indent ++ (nm ++ (gap ++ val))) = some (indent.length, indent.length + nm.length + gap.length, val) := by
  obtain ⟨c, r, rfl, hc⟩ := hv
  have hlen : item.length = nm.length := by
    have := congrArg List.length hs
    simpa using this
  have hgc : isGap c = false := by
    by_cases h : isGap c = true
    · exfalso
      simp only [isGap, Bool.or_eq_true, beq_iff_eq] at h
      rcases h with (rfl | rfl) | rfl <;> exact absurd hc (by decide)
    · simpa using h
  have h1 := takeWhile_stop (p := isBlank) indent (nm ++ (gap ++ c :: r)) (blank_isBlank hi) (by
    intro x hx
    cases item with
    | nil => cases hp
    | cons i is =>
      have hi' : i = '_' := by simpa using hp
      cases nm with
      | nil => cases hlen
      | cons y ys =>
        have hy : x = y := by simpa using hx.symm
        subst hy
        simp only [Same, List.map_cons, List.cons.injEq] at hs
        rw [hi'] at hs
        exact lower_under hs.1)
  have h2 := takeWhile_stop (p := isGap) gap (c :: r) (gap_isGap hg) (by simpa using hgc)
  have hg0 : gap.length ≠ 0 := fun e => hg.1 (List.eq_nil_of_length_eq_zero e)
  unfold matchAt
  simp only [h1.1, h1.2, afterName_same item nm (gap ++ c :: r) hn hs, h2.1, h2.2, if_neg hg0, value, hc, List.length_map, hlen]
  simp

theorem search_skip (ps : List Piece) : ∀ (pre s : Str) (f : Bool), (pre = [] → f = true) → (pre ≠ [] → pre.getLast? = some '\n') →
    (f = true → pre ≠ [] → matchAt ps (pre ++ s) = none) →
    (∀ a b, pre = a ++ b → a ≠ [] → b ≠ [] → a.getLast? = some '\n' → matchAt ps (b ++ s) = none) → search ps f (pre ++ s) = search ps true s
  | [], s, f, h1, _, _, _ => by simp [h1 rfl]
  | c :: r, s, f, _, h2, h3, h4 => by
    have step : search ps f (c :: (r ++ s)) = search ps (c == '\n') (r ++ s) := by
      cases f with
      | false => rw [search]
      | true =>
        rw [search]
        have := h3 rfl (by simp)
        rw [List.cons_append] at this
        rw [this]
    rw [List.cons_append, step]
    refine search_skip ps r s (c == '\n') ?_ ?_ ?_ ?_
    · rintro rfl
      have := h2 (by simp)
      simpa using this
    · intro hr
      have := h2 (by simp)
      rw [List.getLast?_cons_of_ne_nil hr] at this
      exact this
    · intro hc hr
      have hc' : c = '\n' := by simpa using hc
      exact h4 [c] r rfl (by simp) hr (by simp [hc'])
    · intro a b hab ha hb hl
      exact h4 (c :: a) b (by simp [hab]) (by simp) hb (by rw [List.getLast?_cons_of_ne_nil ha]; exact hl)

/-- Nothing is found where no line begins with something like the name. -/
theorem search_none (ps : List Piece) : ∀ (s : Str) (f : Bool), (f = true → matchAt ps s = none) →
    (∀ a b, s = a ++ b → a ≠ [] → a.getLast? = some '\n' → matchAt ps b = none) → search ps f s = none
  | [], true, h, _ => by rw [search]; exact h rfl
  | [], false, _, _ => by rw [search]
  | c :: r, f, h, h' => by
    have step : search ps f (c :: r) = search ps (c == '\n') r := by
      cases f with
      | false => rw [search]
      | true => rw [search, h rfl]
    rw [step]
    refine search_none ps r (c == '\n') ?_ ?_
    · intro hc
      have hc' : c = '\n' := by simpa using hc
      exact h' [c] r rfl (by simp) (by simp [hc'])
    · intro a b hab ha hl
      exact h' (c :: a) b (by simp [hab]) (by simp) (by rw [List.getLast?_cons_of_ne_nil ha]; exact hl)


/-! ## Writing an item -/

theorem no_break {t : Str} (h : ∀ c ∈ t, isSpace c = false) : '\n' ∉ t := fun hm => absurd (h _ hm) (by decide)

theorem last_word {t : Str} (hne : t ≠ []) (h : ∀ c ∈ t, isSpace c = false) : ∃ c, t.getLast? = some c ∧ c ≠ ' ' ∧ c ≠ '\n' ∧ c ≠ '\t' := by
  refine ⟨t.getLast hne, List.getLast?_eq_some_getLast hne, ?_, ?_, ?_⟩ <;> intro e
  all_goals
    have := h _ (List.getLast_mem hne)
    rw [e] at this
    exact absurd this (by decide)

/-- The name on a new line. -/
theorem write_name {s : Sink} {name : Str} (n : Nat) (tab : Int) (hi : s.indent = 0) (hw : name.length ≤ s.width) (hn : '\n' ∉ name) (hne : name ≠ []) :
    (s.setTab tab).write name { mustbreak := true, doTab := false, startcol := (n : Int) } =
      .ok { s with out := s.out ++ ('\n' :: (List.replicate n ' ' ++ name)), pos := n + name.length, tab := tab, last := name.getLast? } := by
  have hfull : ¬(0 + name.length > s.width) := by omega
  cases hl : name.getLast? with
  | none => exact absurd (List.getLast?_eq_none_iff.mp hl) hne
  | some c =>
    by_cases h0 : n = 0
    · subst h0
      simp [Sink.write, Sink.setTab, Sink.newline, hi, Sink.toColumn, Sink.toTab, Sink.setIndent, Sink.account, Sink.afterBreak, hn, hl]
      omega
    · have hpos : 0 < n := by omega
      simp [Sink.write, Sink.setTab, Sink.newline, hi, Sink.toColumn, Sink.toTab, Sink.setIndent, Sink.account, Sink.afterBreak, Sink.padTo, hn, hl, hpos]
      omega

/-- The blank after the name. -/
theorem write_blank {s : Sink} {c : Char} (hl : s.last = some c) (h1 : c ≠ ' ') (h2 : c ≠ '\n') (h3 : c ≠ '\t') (hw : s.pos + 1 ≤ s.width) :
    s.write [' '] { canbreak := true, doTab := false, delimiter := true } = .ok { s with out := s.out ++ [' '], pos := s.pos + 1, last := some ' ' } := by
  have hfull : ¬(s.pos + 1 > s.width) := by omega
  simp [Sink.write, Sink.toColumn, Sink.toTab, Sink.setIndent, Sink.account, Sink.afterBreak, hl, h1, h2, h3, hfull]

/-- The value at a column that lies ahead. -/
theorem write_at {s : Sink} {t : Str} {col : Nat} (hc : s.pos < col) (hw : s.pos + t.length ≤ s.width) :
    ∃ s', s.write t { canbreak := true, startcol := (col : Int) } = .ok s' ∧ s'.out = s.out ++ List.replicate (col - s.pos) ' ' ++ t := by
  have hfull : ¬(s.pos + t.length > s.width) := by omega
  have hpos : 0 < col := by omega
  refine ⟨_, by simp [Sink.write, hfull]; rfl, ?_⟩
  have : ¬((col : Int) < 0) := by omega
  simp [Sink.toColumn, Sink.toTab, Sink.setIndent, Sink.account, Sink.padTo, hpos, hc, this]

/-- The value where the column is reached already. -/
theorem write_late {s : Sink} {t : Str} {col : Nat} (h0 : 0 < col) (hc : s.pos = col) (ht : s.tab = col) (hw : s.pos + t.length ≤ s.width) :
    ∃ s', s.write t { canbreak := true, startcol := (col : Int) } = .ok s' ∧ s'.out = s.out ++ List.replicate col ' ' ++ t := by
  have hfull : ¬(s.pos + t.length > s.width) := by omega
  refine ⟨_, by simp [Sink.write, hfull]; rfl, ?_⟩
  have hd : col / col = 1 := Nat.div_self h0
  have h2 : col < (1 + 1) * col := by omega
  have h3 : (1 + 1) * col - col = col := by omega
  simp [Sink.toColumn, Sink.toTab, Sink.setIndent, Sink.account, Sink.padTo, hc, ht, h0, hd, h2, h3]

section Laws
open Print
variable [CaseFold]

/-- The value with the delimiter of the hint: text in the representation chosen for that delimiter, or a number as it is. -/
theorem formatValue_word {st : Style} {s : Sink} {d : Option Str} {col : Int} {v : PyVal} {t : Str} (hv : (∃ x, v = .str x ∧ formatString st x d = .ok t) ∨ v = .num t) :
    formatValue st s false d col v = s.write t { canbreak := true, startcol := col } := by
  rcases hv with ⟨x, rfl, hx⟩ | rfl
  · simp only [formatValue, hx]
  · simp only [formatValue]

/-- Name and blank of an item with a hint; the value follows. -/
theorem printItem_to {st : Style} {hs hs' : List Hint} {b : Block} {s : Sink} {item n name t : Str} {v : PyVal} {d : Option Str} {k col : Nat}
    (hf : ∀ x ∈ hs, lower x.dataname ≠ lower n) (hn : lower item = lower n) (hb : b.getItem n = .ok v) (hc : dget b.trueCase n = some name)
    (hv : (∃ x, v = .str x ∧ formatString st x d = .ok t) ∨ v = .num t) (hw : ∀ c ∈ name, isSpace c = false) (hne : name ≠ []) (hi : s.indent = 0)
    (hlen : k + name.length + 1 + t.length ≤ s.width) :
    printItem st (hs ++ { dataname := item, delimiter := d, column := (col : Int), namePos := some (k : Int) } :: hs') b s n =
      ({ s with out := s.out ++ ('\n' :: (List.replicate k ' ' ++ name)) ++ [' '], pos := k + name.length + 1, tab := (col : Int), last := some ' ' } : Sink).write t
        { canbreak := true, startcol := (col : Int) } := by
  have hfind : (hs ++ { dataname := item, delimiter := d, column := (col : Int), namePos := some (k : Int) } :: hs').find? (fun h => decide (lower h.dataname = lower n)) =
      some { dataname := item, delimiter := d, column := (col : Int), namePos := some (k : Int) } := by
    rw [List.find?_append, List.find?_eq_none.mpr (by intro x hx; simpa using hf x hx)]
    simp [hn]
  obtain ⟨c, hl, h1, h2, h3⟩ := last_word hne hw
  have hneg : ¬((col : Int) < 0) := by omega
  simp only [printItem, hfind, hb, hc, hintColumn, hintDelimiter, hintNamePos, if_neg hneg]
  rw [write_name k (col : Int) hi (by omega) (no_break hw) hne]
  simp only [andThen]
  rw [write_blank (c := c) hl h1 h2 h3 (by simp only; omega)]
  simp only
  exact formatValue_word hv

end Laws

end Template
end Verif
