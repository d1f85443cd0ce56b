import Verif.Spec.TypeContents
import Verif.Lemmas.Yapps
import Verif.Lemmas.Match
import Verif.Lemmas.Lex11
import Verif.Lemmas.NumberRx
/-! # The tokens of type expressions -/
namespace Verif.TypeContents
open Yapps Scanner Rx
open Spec.TypeContents

theorem isLetter_iff {c : Char} : isLetter c = true ↔ Letter c := by
  simp [isLetter, Letter]

theorem isBlank_iff {c : Char} : isBlank c = true ↔ c = ' ' ∨ c = '\t' ∨ c = '\n' ∨ c = '\r' := by
  simp [isBlank, or_assoc]

/-- What may follow a word that is not a container. -/
def Ends (rest : Str) : Prop := ∀ c t, rest = c :: t → isLetter c = false

theorem letter_not_blank {c : Char} (h : isLetter c = true) : isBlank c = false := by
  cases hb : isBlank c with
  | false => rfl
  | true =>
    rw [isBlank_iff] at hb
    rcases hb with rfl | rfl | rfl | rfl <;> revert h <;> decide

/-- `search` over the patterns used for an element. -/
theorem accepted_element : accepted lx [.container, .identifier] =
    [(.blank, Rx.pattern (.cls isBlank)), (.container, Rx.pattern (.seq (Rx.plus (.cls isLetter)) (Rx.ch '('))),
      (.identifier, Rx.pattern (Rx.plus (.cls isLetter)))] := rfl

theorem accepted_inner : accepted lx [.comma, .close] =
    [(.blank, Rx.pattern (.cls isBlank)), (.close, Rx.pattern (Rx.ch ')')), (.comma, Rx.pattern (Rx.ch ','))] := rfl

theorem accepted_outer : accepted lx [.comma, .fin] =
    [(.blank, Rx.pattern (.cls isBlank)), (.comma, Rx.pattern (Rx.ch ',')), (.fin, Rx.pattern .eol)] := rfl

/-- The three sets of names asked for. -/
def Used (R : List Tok) : Prop := R = [.container, .identifier] ∨ R = [.comma, .close] ∨ R = [.comma, .fin]

theorem pattern_at (r : Rx) (s : Str) : r.pattern s 0 = matchLen r s := by simp [Rx.pattern]

theorem not_letter_of_blank {c : Char} (h : isBlank c = true) : isLetter c = false := by
  cases hl : isLetter c with
  | false => rfl
  | true => rw [letter_not_blank hl] at h; cases h

theorem blank_ne {c x : Char} (h : isBlank c = true) (hx : isBlank x = false) : (c == x) = false := by
  rw [beq_eq_false_iff_ne]
  rintro rfl
  rw [h] at hx
  cases hx

theorem plus_none {p : Char → Bool} {c : Char} {t : Str} (h : p c = false) : matchLen (plus (cls p)) (c :: t) = none :=
  matchLen_seq_none (matchLen_cls_neg h)

theorem search_blank {R : List Tok} (hR : Used R) {c : Char} {t : Str} (h : isBlank c = true) :
    search (c :: t) 0 none (accepted lx R) = some (.blank, 1) := by
  have hb : matchLen (cls isBlank) (c :: t) = some 1 := matchLen_cls_pos h
  have hp : matchLen (plus (cls isLetter)) (c :: t) = none := plus_none (not_letter_of_blank h)
  have hc : matchLen (seq (plus (cls isLetter)) (ch '(')) (c :: t) = none := matchLen_seq_none hp
  have h1 : matchLen (ch ')') (c :: t) = none := matchLen_cls_neg (blank_ne h (by decide))
  have h2 : matchLen (ch ',') (c :: t) = none := matchLen_cls_neg (blank_ne h (by decide))
  rcases hR with rfl | rfl | rfl
  · simp [accepted_element, search, pattern_at, hb, hp, hc]
  · simp [accepted_inner, search, pattern_at, hb, h1, h2]
  · rw [accepted_outer]
    simp only [search, pattern_at, hb, h2]
    cases he : matchLen eol (c :: t) with
    | none => rfl
    | some k =>
      have : k = 0 := by
        simp only [matchLen, lens] at he
        split at he <;> simp at he
        omega
      subst this
      rfl

theorem next_blanks {R : List Tok} (hR : Used R) : ∀ (g t : Str) (fuel : Nat), (∀ c ∈ g, isBlank c = true) → (g ++ t).length < fuel →
    ∃ fuel', t.length < fuel' ∧ next table [.blank] R fuel (g ++ t) = next table [.blank] R fuel' t
  | [], t, fuel, _, hf => ⟨fuel, hf, rfl⟩
  | c :: g, t, 0, _, hf => by simp at hf
  | c :: g, t, fuel + 1, hg, hf => by
    have hs := search_blank hR (t := g ++ t) (hg c (by simp))
    obtain ⟨f', h1, h2⟩ := next_blanks hR g t fuel (fun x hx => hg x (by simp [hx])) (by simp at hf ⊢; omega)
    refine ⟨f', h1, ?_⟩
    rw [List.cons_append, next, show accepted (lexer table [.blank]) R = accepted lx R from rfl, hs]
    simpa using h2

theorem blanks_all {g : Str} (h : Blanks g) : ∀ c ∈ g, isBlank c = true := fun c hc => isBlank_iff.2 (h c hc)

theorem not_container {w rest : Str} (hw : ∀ c ∈ w, isLetter c = true) (hr : ∀ c t, rest = c :: t → isLetter c = false ∧ c ≠ '(') :
    matchLen (seq (plus (cls isLetter)) (ch '(')) (w ++ rest) = none := by
  rw [matchLen_none, List.eq_nil_iff_forall_not_mem]
  intro k hk
  obtain ⟨i, j, hi, hj, -⟩ := mem_seq hk
  have hle : i ≤ w.length := by
    obtain ⟨a, b, ha, hb, rfl⟩ := mem_seq hi
    have := cls_pos ha
    subst this
    cases w with
    | nil =>
      cases rest with
      | nil => simp [lens] at ha
      | cons c t =>
        have := (hr c t rfl).1
        simp [lens, this] at ha
    | cons c w =>
      have := Lex.star_cls_le (fun c t e => (hr c t e).1) (by simpa using hb)
      simp
      omega
  obtain ⟨-, t, ht⟩ := mem_ch hj
  rcases Nat.lt_or_ge i w.length with h | h
  · rw [drop_cons_get (s := w ++ rest) (i := i) (by simp; omega)] at ht
    injection ht with h1 h2
    rw [List.getElem_append_left h] at h1
    have := hw _ (List.getElem_mem h)
    rw [h1] at this
    revert this
    decide
  · have : i = w.length := by omega
    subst this
    rw [List.drop_left] at ht
    exact (hr _ _ ht).2 rfl

theorem word_split {w : Str} (h : Word w) : w ≠ [] ∧ ∀ c ∈ w, isLetter c = true := ⟨h.1, fun c hc => isLetter_iff.2 (h.2 c hc)⟩

theorem word_head {w : Str} (h : Word w) (t : Str) : ∃ c r, w ++ t = c :: r ∧ isBlank c = false := by
  obtain ⟨h1, h2⟩ := word_split h
  cases w with
  | nil => exact absurd rfl h1
  | cons c r => exact ⟨c, r ++ t, rfl, letter_not_blank (h2 c (by simp))⟩

theorem next_container {g w rest : Str} (hg : Blanks g) (hw : Word w) {fuel : Nat} (hf : (g ++ (w ++ '(' :: rest)).length < fuel) :
    next table [.blank] [.container, .identifier] fuel (g ++ (w ++ '(' :: rest)) = .ok (.container, w ++ ['('], rest) := by
  obtain ⟨f, h1, h2⟩ := next_blanks (.inl rfl) g (w ++ '(' :: rest) fuel (blanks_all hg) hf
  rw [h2]
  cases f with
  | zero => simp at h1
  | succ f =>
    obtain ⟨w1, w2⟩ := word_split hw
    have hp : matchLen (plus (cls isLetter)) (w ++ '(' :: rest) = some w.length :=
      matchLen_plus_cls w _ w1 w2 (by rintro c t ⟨⟩; decide)
    have hc : matchLen (seq (plus (cls isLetter)) (ch '(')) (w ++ '(' :: rest) = some (w.length + 1) :=
      matchLen_seq hp (by rw [List.drop_left]; exact matchLen_ch _ _)
    have hb : matchLen (cls isBlank) (w ++ '(' :: rest) = none := by
      obtain ⟨c, r, e, h⟩ := word_head hw ('(' :: rest)
      rw [e]
      exact matchLen_cls_neg h
    rw [next, show accepted (lexer table [.blank]) [.container, .identifier] = accepted lx [.container, .identifier] from rfl,
      accepted_element]
    simp only [search, pattern_at, hb, hc, hp]
    rw [if_neg (by omega)]
    simp only
    rw [if_pos (by simp), List.take_append, List.drop_append]
    simp [List.take_of_length_le]

theorem next_identifier {g w rest : Str} (hg : Blanks g) (hw : Word w) (hr : ∀ c t, rest = c :: t → isLetter c = false ∧ c ≠ '(') {fuel : Nat}
    (hf : (g ++ (w ++ rest)).length < fuel) :
    next table [.blank] [.container, .identifier] fuel (g ++ (w ++ rest)) = .ok (.identifier, w, rest) := by
  obtain ⟨f, h1, h2⟩ := next_blanks (.inl rfl) g (w ++ rest) fuel (blanks_all hg) hf
  rw [h2]
  cases f with
  | zero => simp at h1
  | succ f =>
    obtain ⟨w1, w2⟩ := word_split hw
    have hp : matchLen (plus (cls isLetter)) (w ++ rest) = some w.length :=
      matchLen_plus_cls w _ w1 w2 (fun c t e => (hr c t e).1)
    have hc := not_container w2 hr
    have hb : matchLen (cls isBlank) (w ++ rest) = none := by
      obtain ⟨c, r, e, h⟩ := word_head hw rest
      rw [e]
      exact matchLen_cls_neg h
    rw [next, show accepted (lexer table [.blank]) [.container, .identifier] = accepted lx [.container, .identifier] from rfl,
      accepted_element]
    simp only [search, pattern_at, hb, hc, hp]
    rw [if_pos (by simp)]
    simp

theorem next_sign {R : List Tok} {g rest : Str} {n : Tok} {c : Char} (hg : Blanks g) {fuel : Nat} (hf : (g ++ c :: rest).length < fuel)
    (h : R = [.comma, .close] ∧ (n = .close ∧ c = ')' ∨ n = .comma ∧ c = ',') ∨ R = [.comma, .fin] ∧ n = .comma ∧ c = ',') :
    next table [.blank] R fuel (g ++ c :: rest) = .ok (n, [c], rest) := by
  obtain ⟨f, h1, h2⟩ := next_blanks (R := R) (by rcases h with ⟨rfl, -⟩ | ⟨rfl, -⟩ <;> simp [Used]) g (c :: rest) fuel (blanks_all hg) hf
  rw [h2]
  cases f with
  | zero => simp at h1
  | succ f =>
    rw [next, show accepted (lexer table [.blank]) R = accepted lx R from rfl]
    rcases h with ⟨rfl, ⟨rfl, rfl⟩ | ⟨rfl, rfl⟩⟩ | ⟨rfl, rfl, rfl⟩
    · rw [accepted_inner]
      have a1 : matchLen (cls isBlank) (')' :: rest) = none := matchLen_cls_neg (by decide)
      have a2 : matchLen (ch ')') (')' :: rest) = some 1 := matchLen_ch _ _
      have a3 : matchLen (ch ',') (')' :: rest) = none := matchLen_cls_neg (by decide)
      simp [search, pattern_at, a1, a2, a3]
    · rw [accepted_inner]
      have a1 : matchLen (cls isBlank) (',' :: rest) = none := matchLen_cls_neg (by decide)
      have a2 : matchLen (ch ',') (',' :: rest) = some 1 := matchLen_ch _ _
      have a3 : matchLen (ch ')') (',' :: rest) = none := matchLen_cls_neg (by decide)
      simp [search, pattern_at, a1, a2, a3]
    · rw [accepted_outer]
      have a1 : matchLen (cls isBlank) (',' :: rest) = none := matchLen_cls_neg (by decide)
      have a2 : matchLen (ch ',') (',' :: rest) = some 1 := matchLen_ch _ _
      have a3 : matchLen eol (',' :: rest) = none := by simp [matchLen, lens]
      simp [search, pattern_at, a1, a2, a3]

theorem next_fin {g : Str} (hg : Blanks g) {fuel : Nat} (hf : g.length < fuel) :
    next table [.blank] [.comma, .fin] fuel g = .ok (.fin, [], []) := by
  obtain ⟨f, h1, h2⟩ := next_blanks (.inr (.inr rfl)) g [] fuel (blanks_all hg) (by simpa using hf)
  rw [List.append_nil] at h2
  rw [h2]
  cases f with
  | zero => simp at h1
  | succ f => rfl

/-- Blanks and what is left after them. -/
theorem split_blanks (text : Str) : ∃ g t, text = g ++ t ∧ Blanks g ∧ ∀ c r, t = c :: r → isBlank c = false := by
  refine ⟨text.takeWhile isBlank, text.dropWhile isBlank, (List.takeWhile_append_dropWhile).symm, ?_, ?_⟩
  · intro c hc
    exact isBlank_iff.1 (Number.of_takeWhile _ hc)
  · intro c r h
    have := List.head_dropWhile_not (l := text) isBlank (by rw [h]; simp)
    simp only [h, List.head_cons] at this
    simpa using this

/-- Letters and what is left after them. -/
theorem split_word (text : Str) : ∃ w t, text = w ++ t ∧ (∀ c ∈ w, isLetter c = true) ∧ ∀ c r, t = c :: r → isLetter c = false := by
  refine ⟨text.takeWhile isLetter, text.dropWhile isLetter, (List.takeWhile_append_dropWhile).symm, ?_, ?_⟩
  · intro c hc
    exact Number.of_takeWhile _ hc
  · intro c r h
    have := List.head_dropWhile_not (l := text) isLetter (by rw [h]; simp)
    simp only [h, List.head_cons] at this
    simpa using this

/-- The first token of an element, for any text. -/
theorem next_element (text : Str) {fuel : Nat} (hf : text.length < fuel) :
    (∃ g w rest, text = g ++ (w ++ '(' :: rest) ∧ Blanks g ∧ Word w ∧
      next table [.blank] [.container, .identifier] fuel text = .ok (.container, w ++ ['('], rest)) ∨
    (∃ g w rest, text = g ++ (w ++ rest) ∧ Blanks g ∧ Word w ∧
      next table [.blank] [.container, .identifier] fuel text = .ok (.identifier, w, rest)) ∨
    next table [.blank] [.container, .identifier] fuel text = .error .syntax := by
  obtain ⟨g, t, rfl, hg, ht⟩ := split_blanks text
  obtain ⟨w, r, rfl, hw, hr⟩ := split_word t
  by_cases hne : w = []
  · subst hne
    right; right
    rw [List.nil_append] at *
    obtain ⟨f, h1, h2⟩ := next_blanks (.inl rfl) g r fuel (blanks_all hg) hf
    rw [h2]
    cases f with
    | zero => simp at h1
    | succ f =>
      rw [next, show accepted (lexer table [.blank]) [.container, .identifier] = accepted lx [.container, .identifier] from rfl,
        accepted_element]
      cases r with
      | nil => rfl
      | cons c r =>
        have a1 : matchLen (cls isBlank) (c :: r) = none := matchLen_cls_neg (ht c r rfl)
        have a2 : matchLen (plus (cls isLetter)) (c :: r) = none := plus_none (hr c r rfl)
        have a3 : matchLen (seq (plus (cls isLetter)) (ch '(')) (c :: r) = none := matchLen_seq_none a2
        simp only [search, pattern_at, a1, a2, a3]
  · have hword : Word w := ⟨hne, fun c hc => isLetter_iff.1 (hw c hc)⟩
    cases r with
    | nil =>
      right; left
      exact ⟨g, w, [], rfl, hg, hword, next_identifier hg hword (by simp) hf⟩
    | cons c r =>
      by_cases hc : c = '('
      · subst hc
        left
        exact ⟨g, w, r, rfl, hg, hword, next_container hg hword hf⟩
      · right; left
        refine ⟨g, w, c :: r, rfl, hg, hword, next_identifier hg hword ?_ hf⟩
        rintro x t ⟨⟩
        exact ⟨hr _ _ rfl, hc⟩

/-- The token after an element within brackets, for any text. -/
theorem next_inner (text : Str) {fuel : Nat} (hf : text.length < fuel) :
    (∃ g rest n c, text = g ++ c :: rest ∧ Blanks g ∧ (n = .close ∧ c = ')' ∨ n = .comma ∧ c = ',') ∧
      next table [.blank] [.comma, .close] fuel text = .ok (n, [c], rest)) ∨
    next table [.blank] [.comma, .close] fuel text = .error .syntax := by
  obtain ⟨g, t, rfl, hg, ht⟩ := split_blanks text
  cases t with
  | nil =>
    right
    obtain ⟨f, h1, h2⟩ := next_blanks (.inr (.inl rfl)) g [] fuel (blanks_all hg) hf
    rw [h2]
    cases f with
    | zero => simp at h1
    | succ f => rfl
  | cons c t =>
    by_cases h1 : c = ')'
    · left
      exact ⟨g, t, .close, c, rfl, hg, .inl ⟨rfl, h1⟩, next_sign hg hf (.inl ⟨rfl, .inl ⟨rfl, h1⟩⟩)⟩
    · by_cases h2 : c = ','
      · left
        exact ⟨g, t, .comma, c, rfl, hg, .inr ⟨rfl, h2⟩, next_sign hg hf (.inl ⟨rfl, .inr ⟨rfl, h2⟩⟩)⟩
      · right
        obtain ⟨f, h3, h4⟩ := next_blanks (.inr (.inl rfl)) g (c :: t) fuel (blanks_all hg) hf
        rw [h4]
        cases f with
        | zero => simp at h3
        | succ f =>
          rw [next, show accepted (lexer table [.blank]) [.comma, .close] = accepted lx [.comma, .close] from rfl, accepted_inner]
          have a1 : matchLen (cls isBlank) (c :: t) = none := matchLen_cls_neg (ht c t rfl)
          have a2 : matchLen (ch ')') (c :: t) = none := matchLen_cls_neg (by simpa using h1)
          have a3 : matchLen (ch ',') (c :: t) = none := matchLen_cls_neg (by simpa using h2)
          simp only [search, pattern_at, a1, a2, a3]

/-- The token after an outermost element, for any text. -/
theorem next_outer (text : Str) {fuel : Nat} (hf : text.length < fuel) :
    (∃ g rest, text = g ++ ',' :: rest ∧ Blanks g ∧ next table [.blank] [.comma, .fin] fuel text = .ok (.comma, [','], rest)) ∨
    (Blanks text ∧ next table [.blank] [.comma, .fin] fuel text = .ok (.fin, [], [])) ∨
    next table [.blank] [.comma, .fin] fuel text = .error .syntax := by
  obtain ⟨g, t, rfl, hg, ht⟩ := split_blanks text
  cases t with
  | nil =>
    right; left
    rw [List.append_nil] at *
    exact ⟨hg, next_fin hg hf⟩
  | cons c t =>
    by_cases h2 : c = ','
    · subst h2
      left
      exact ⟨g, t, rfl, hg, next_sign hg hf (.inr ⟨rfl, rfl, rfl⟩)⟩
    · right; right
      obtain ⟨f, h3, h4⟩ := next_blanks (.inr (.inr rfl)) g (c :: t) fuel (blanks_all hg) hf
      rw [h4]
      cases f with
      | zero => simp at h3
      | succ f =>
        rw [next, show accepted (lexer table [.blank]) [.comma, .fin] = accepted lx [.comma, .fin] from rfl, accepted_outer]
        have a1 : matchLen (cls isBlank) (c :: t) = none := matchLen_cls_neg (ht c t rfl)
        have a3 : matchLen (ch ',') (c :: t) = none := matchLen_cls_neg (by simpa using h2)
        have a2 : matchLen eol (c :: t) = none := by
          simp only [matchLen, lens]
          rw [if_neg]
          · rfl
          · rintro (h | h)
            · cases h
            · injection h with h h'
              subst h
              have := ht _ _ rfl
              revert this
              decide
        simp only [search, pattern_at, a1, a2, a3]

end Verif.TypeContents
