import Verif.Lemmas.Lex20
import Verif.Lemmas.ReadDoc
import Verif.Lemmas.Dict
import Verif.Spec.Text
/-! # Reading a value of CIF 2.0 -/
set_option linter.unusedSectionVars false
namespace Verif.Lex.V2
open Rx Scanner Reader Print

/-! ## Triple quotes -/

theorem lazy_any : ∀ (n : Nat) (s : Str), n ≤ s.length → manyLazy (lens (cls fun _ => true)) n s = List.range (n + 1)
  | 0, _, _ => rfl
  | n + 1, [], h => by simp at h
  | n + 1, c :: s, h => by
    have ih := lazy_any n s (by simpa using h)
    have e : lens (cls fun _ => true) (c :: s) = [1] := rfl
    rw [manyLazy, e]
    simp only [Nat.lt_add_one, decide_true, List.filter_cons_of_pos, List.filter_nil, List.flatMap_cons, List.flatMap_nil, List.append_nil,
      List.drop_succ_cons, List.drop_zero]
    rw [ih, List.range_succ_eq_map (n := n + 1)]
    congr 1
    apply List.map_congr_left
    intro x _
    exact Nat.add_comm 1 x

theorem head_range {β : Type} {f : Nat → List β} {k m : Nat} {b : β} (h1 : ∀ i, i < k → f i = []) (h2 : (f k).head? = some b) (hk : k < m) :
    ((List.range m).flatMap f).head? = some b := by
  have e : List.range m = List.range k ++ (List.range (m - k)).map (k + ·) := by
    rw [← List.range_add]
    congr 1
    omega
  rw [e, List.flatMap_append]
  have h0 : (List.range k).flatMap f = [] := by
    rw [List.flatMap_eq_nil_iff]
    intro i hi
    exact h1 i (List.mem_range.1 hi)
  rw [h0, List.nil_append]
  obtain ⟨n, hn⟩ : ∃ n, m - k = n + 1 := ⟨m - k - 1, by omega⟩
  rw [hn, List.range_succ_eq_map]
  simp only [List.map_cons, List.flatMap_cons, Nat.add_zero]
  rw [List.head?_append, h2]
  rfl

theorem matchLen_three (q : Char) (s : Str) : matchLen (lit [q, q, q]) (q :: q :: q :: s) = some 3 := by
  show matchLen (seq (ch q) (seq (ch q) (ch q))) _ = _
  exact matchLen_seq (matchLen_ch _ _) (matchLen_seq (matchLen_ch _ _) (matchLen_ch _ _))

/-- The text between triple quotes has no triple quote in it, and none begins in it. -/
def NoTriple (q : Char) (w : Str) : Prop := ¬ Occurs [q, q, q] (w ++ [q, q])

theorem noTriple_drop {q : Char} {w rest : Str} (h : NoTriple q w) {i : Nat} (hi : i < w.length) :
    lens (lit [q, q, q]) ((w ++ q :: q :: q :: rest).drop i) = [] := by
  cases hl : lens (lit [q, q, q]) ((w ++ q :: q :: q :: rest).drop i) with
  | nil => rfl
  | cons j l =>
    exfalso
    obtain ⟨-, t, e⟩ := lit_three _ _ _ (by rw [hl]; simp : j ∈ _)
    apply h
    have e1 : (w ++ [q, q]).drop i = ((w ++ q :: q :: q :: rest).drop i).take (w.length + 2 - i) := by
      have : w ++ [q, q] = (w ++ q :: q :: q :: rest).take (w.length + 2) := by
        rw [List.take_append, List.take_of_length_le (by omega)]
        have : w.length + 2 - w.length = 2 := by omega
        rw [this]
        rfl
      rw [this, List.drop_take]
    rw [e] at e1
    obtain ⟨m, hm⟩ : ∃ m, w.length + 2 - i = m + 3 := ⟨w.length + 2 - i - 3, by omega⟩
    rw [hm] at e1
    refine ⟨(w ++ [q, q]).take i, t.take m, ?_⟩
    conv => lhs; rw [← List.take_append_drop i (w ++ [q, q]), e1]
    simp

theorem matchLen_triple {q : Char} {w : Str} (h : NoTriple q w) (rest : Str) :
    matchLen (seq (lit [q, q, q]) (seq (lazy (cls fun _ => true)) (lit [q, q, q]))) (q :: q :: q :: (w ++ q :: q :: q :: rest)) = some (w.length + 6) := by
  have h1 : matchLen (seq (lazy (cls fun _ => true)) (lit [q, q, q])) (w ++ q :: q :: q :: rest) = some (w.length + 3) := by
    rw [matchLen, lens, lens, lazy_any _ _ (Nat.le_refl _)]
    refine head_range (k := w.length) ?_ ?_ (by simp; omega)
    · intro i hi
      rw [noTriple_drop h hi]
      rfl
    · rw [List.drop_left, List.head?_map]
      have := matchLen_three q rest
      rw [matchLen] at this
      rw [this]
      rfl
  have h2 := matchLen_seq (matchLen_three q (w ++ q :: q :: q :: rest)) (b := seq (lazy (cls fun _ => true)) (lit [q, q, q])) (j := w.length + 3)
    (by simpa using h1)
  rw [h2]
  congr 1
  omega

theorem between_le {q : Char} {p : Char → Bool} (hq : p q = false) {w rest : Str} (hr : rest.head? ≠ some q) {j : Nat}
    (h : matchLen (seq (ch q) (seq (star (cls p)) (plus (ch q)))) (q :: q :: (w ++ rest)) = some j) : j ≤ w.length + 2 := by
  obtain ⟨i, k, hi, hk, rfl⟩ := mem_seq (mem_of_matchLen h)
  obtain ⟨rfl, -⟩ := mem_ch hi
  simp only [List.drop_succ_cons, List.drop_zero] at hk
  obtain ⟨i', k', hi', hk', rfl⟩ := mem_seq hk
  have h0 : i' ≤ ([] : Str).length := star_cls_le (w := []) (rest := q :: (w ++ rest)) (by
    intro c t e
    simp only [List.cons.injEq] at e
    rw [← e.1]; exact hq) hi'
  have h0 : i' = 0 := Nat.le_zero.1 h0
  subst h0
  rw [List.drop_zero] at hk'
  obtain ⟨i2, k2, hi2, hk2, rfl⟩ := mem_seq hk'
  obtain ⟨rfl, -⟩ := mem_ch hi2
  simp only [List.drop_succ_cons, List.drop_zero] at hk2
  have := star_cls_le (p := (· == q)) (w := w) (rest := rest) (by
    rintro c t rfl
    simpa using hr) hk2
  omega

theorem Ends.quote {rest : Str} (h : Ends rest) : rest.head? ≠ some '\'' ∧ rest.head? ≠ some '"' := by
  cases rest with
  | nil => simp
  | cons c t =>
    have := h c t rfl
    simp only [List.head?_cons, ne_eq, Option.some.injEq]
    constructor <;> (rintro rfl; exact absurd this (by decide))

theorem lexes_tripleS {R : List Tk} (hR : Outside R) (hn : Tk.triple ∈ R) {w rest : Str} (hw : NoTriple '\'' w) (hr : rest.head? ≠ some '\'') :
    Lexes tb R ((tripleS ++ w ++ tripleS) ++ rest) .triple (tripleS ++ w ++ tripleS) rest := by
  have e : (tripleS ++ w ++ tripleS) ++ rest = '\'' :: '\'' :: '\'' :: (w ++ '\'' :: '\'' :: '\'' :: rest) := by simp [tripleS]
  have el : (tripleS ++ w ++ tripleS).length = w.length + 6 := by simp [tripleS]
  apply lexes_of_best (hn := by decide)
  rw [e, el]
  refine best_but hR [.single] (table_split tb 18 (by decide)) (.inl hn) (by omega) ?_ (by decide +kernel) ?_ ?_
  · show matchLen Pat.triple _ = _
    rw [triple_eq]
    exact matchLen_alt_left (matchLen_triple hw rest)
  · intro q hq hx
    exact (not_before 18 .single (by decide +kernel) hq (List.mem_singleton.1 hx)).elim
  · intro q hq hx j hj
    rw [only (List.mem_of_mem_drop hq) 19 (by decide) (List.mem_singleton.1 hx)] at hj
    have hj : matchLen Pat.single2 ('\'' :: '\'' :: '\'' :: (w ++ '\'' :: '\'' :: '\'' :: rest)) = some j := hj
    rw [single2_eq] at hj
    cases hm : matchLen (seq (ch '\'') (seq (star (cls inSingle)) (plus (ch '\'')))) ('\'' :: '\'' :: '\'' :: (w ++ '\'' :: '\'' :: '\'' :: rest)) with
    | none =>
      rw [matchLen_alt_right hm, dead_none (by decide +kernel)] at hj
      cases hj
    | some k =>
      rw [matchLen_alt_left hm] at hj
      cases hj
      have := between_le (q := '\'') (p := inSingle) (by decide) (w := '\'' :: (w ++ ['\'', '\'', '\''])) (rest := rest) hr (j := j) (by simpa using hm)
      simp at this
      omega

theorem lexes_tripleD {R : List Tk} (hR : Outside R) (hn : Tk.triple ∈ R) {w rest : Str} (hw : NoTriple '"' w) (hr : rest.head? ≠ some '"') :
    Lexes tb R ((tripleD ++ w ++ tripleD) ++ rest) .triple (tripleD ++ w ++ tripleD) rest := by
  have e : (tripleD ++ w ++ tripleD) ++ rest = '"' :: '"' :: '"' :: (w ++ '"' :: '"' :: '"' :: rest) := by simp [tripleD]
  have el : (tripleD ++ w ++ tripleD).length = w.length + 6 := by simp [tripleD]
  apply lexes_of_best (hn := by decide)
  rw [e, el]
  refine best_but hR [.single] (table_split tb 18 (by decide)) (.inl hn) (by omega) ?_ (by decide +kernel) ?_ ?_
  · show matchLen Pat.triple _ = _
    rw [triple_eq, matchLen_alt_right (dead_none (by decide +kernel))]
    exact matchLen_triple hw rest
  · intro q hq hx
    exact (not_before 18 .single (by decide +kernel) hq (List.mem_singleton.1 hx)).elim
  · intro q hq hx j hj
    rw [only (List.mem_of_mem_drop hq) 19 (by decide) (List.mem_singleton.1 hx)] at hj
    have hj : matchLen Pat.single2 ('"' :: '"' :: '"' :: (w ++ '"' :: '"' :: '"' :: rest)) = some j := hj
    rw [single2_eq, matchLen_alt_right (dead_none (by decide +kernel))] at hj
    have := between_le (q := '"') (p := inDouble) (by decide) (w := '"' :: (w ++ ['"', '"', '"'])) (rest := rest) hr (j := j) (by simpa using hj)
    simp at this
    omega

/-! ## The reader -/
variable [CaseFold]

theorem gram20_value (fuel : Nat) (p : PState) : gram20.value fuel p = value2 (Pat.lexer tb) fuel p := rfl
theorem gram20_first : gram20.first = first2 := rfl

theorem again2 (fuel : Nat) (p p1 : PState) (t : Tk) (h1 : peek (Pat.lexer tb) first2 p = .ok (t, p1))
    (h2 : peek (Pat.lexer tb) first2 p1 = .ok (t, p1)) : value2 (Pat.lexer tb) fuel p = value2 (Pat.lexer tb) fuel p1 := by
  cases fuel with
  | zero => rw [value2, value2]
  | succ fuel => rw [value2, value2, h1, h2]

/-- The reader of 2.0. -/
def dialect20 : Dialect where
  g := gram20
  tb := tb
  lx := rfl
  Outside := Outside
  nameChar := Pat.nameChar2
  nameFix := by
    intro c h
    constructor <;> (rintro rfl; exact absurd h (by decide))
  first := ⟨by decide, by decide⟩
  follow := ⟨by decide, by decide⟩
  both := ⟨by decide, by decide⟩
  names := ⟨by decide, by decide⟩
  start := ⟨by decide, by decide⟩
  apart := by decide
  gap := lexes_gap
  comment := lexes_comment
  name := lexes_name
  loop := lexes_loop
  heading := lexes_heading
  saveHead := lexes_saveHead
  saveEnd := lexes_saveEnd
  fin := lexes_fin
  again := again2

/-- Wherever the word stands before white space, a closing bracket or the end, it is read as the value. -/
structure Reads (w : Str) (v : PyVal) : Prop where
  start : w.head? ≠ some ';'
  ne : w ≠ []
  read : ∀ rest, Ends rest → ∃ t x rest1, t ∈ first2 ∧ x ≠ [] ∧
    (∀ R, Outside R → first2 ⊆ R → Lexes tb R (w ++ rest) t x rest1) ∧
    ∀ R p fuel, w.length < fuel → first2 ⊆ R → Peeked p R t x rest1 →
      ∃ p', value2 (Pat.lexer tb) fuel p = .ok (v, p') ∧ Ready p' rest

theorem Reads.readsIn {w : Str} {v : PyVal} (h : Reads w v) : ReadsIn dialect20 w v :=
  ⟨h.start, fun rest hr => h.read rest (ends_of_stops hr)⟩

theorem first_outside : Outside first2 := ⟨by decide, by decide⟩

theorem ahead_reads {w : Str} {v : PyVal} (h : Reads w v) {g : Str} (hg : IsGap g) {rest : Str} (hr : Ends rest) :
    ∃ t x rest1, t ∈ first2 ∧ x ≠ [] ∧
    (∀ R, Outside R → first2 ⊆ R → Lexes tb R (g ++ (w ++ rest)) t x rest1) ∧
    ∀ R p fuel, w.length < fuel → first2 ⊆ R → Peeked p R t x rest1 →
      ∃ p', value2 (Pat.lexer tb) fuel p = .ok (v, p') ∧ Ready p' rest := by
  obtain ⟨t, x, rest1, h1, h2, h3, h4⟩ := h.read rest hr
  exact ⟨t, x, rest1, h1, h2, fun R hR hs => lexes_gap hR (head_append h.ne h.start) (h3 R hR hs) g hg, h4⟩

theorem reads_gap {w : Str} {v : PyVal} (h : Reads w v) {g : Str} (hg : IsGap g) {rest : Str} (hr : Ends rest) {p : PState}
    (hp : Ready p (g ++ (w ++ rest))) {fuel : Nat} (hf : w.length < fuel) :
    ∃ p', value2 (Pat.lexer tb) fuel p = .ok (v, p') ∧ Ready p' rest := by
  obtain ⟨t, x, rest1, -, hx, hl, hv⟩ := ahead_reads h hg hr
  obtain ⟨p1, hp1, hk⟩ := peek_ready hp (hl first2 first_outside (fun _ h => h))
  obtain ⟨p2, h2, h3⟩ := hv first2 p1 fuel hf (fun _ h => h) hk
  refine ⟨p2, ?_, h3⟩
  rw [← h2]
  exact again2 fuel p p1 t hp1 (peek_peeked hk (.inr (fun _ h => h)))

theorem value2_value {R : List Tk} {p : PState} {fuel : Nat} {x rest : Str} (hx : x ≠ []) (hR : first2 ⊆ R) (hp : Peeked p R .value x rest) :
    ∃ p', value2 (Pat.lexer tb) (fuel + 1) p = .ok (.str x, p') ∧ Ready p' rest := by
  refine ⟨_, ?_, ready_of_peeked hp hx⟩
  rw [value2, peek_peeked hp (.inr hR)]
  simp only [if_true]
  rw [take_peeked hp (hR (by decide))]

/-- Quoted text that has been looked at. -/
theorem delimited_single {R : List Tk} {p : PState} {x rest : Str} (hx : x ≠ []) (h1 : Tk.single ∈ R) (h2 : Tk.triple ∈ R)
    (hp : Peeked p R .single x rest) : ∃ p', delimited (Pat.lexer tb) p = .ok (stripString x, p') ∧ Ready p' rest := by
  refine ⟨_, ?_, ready_of_peeked hp hx⟩
  rw [delimited, peek_peeked hp (.inr (by simp [h1, h2]))]
  simp only [reduceCtorEq, if_false]
  rw [take_peeked hp h1]

theorem delimited_triple {R : List Tk} {p : PState} {x rest : Str} (hx : x ≠ []) (h1 : Tk.single ∈ R) (h2 : Tk.triple ∈ R)
    (hp : Peeked p R .triple x rest) : ∃ p', delimited (Pat.lexer tb) p = .ok (stripTriple x, p') ∧ Ready p' rest := by
  refine ⟨_, ?_, ready_of_peeked hp hx⟩
  rw [delimited, peek_peeked hp (.inr (by simp [h1, h2]))]
  simp only [if_true]
  rw [take_peeked hp h2]

theorem value2_delimited {R : List Tk} {p p' : PState} {fuel : Nat} {t : Tk} {x y rest : Str} (ht : t = .single ∨ t = .triple) (hR : first2 ⊆ R)
    (hp : Peeked p R t x rest) (h : delimited (Pat.lexer tb) p = .ok (y, p')) : value2 (Pat.lexer tb) (fuel + 1) p = .ok (.str y, p') := by
  rw [value2, peek_peeked hp (.inr hR)]
  simp only
  rw [if_neg (by rcases ht with rfl | rfl <;> decide), if_pos ht, h]

theorem reads_bare {w : Str} (hw : Bare w) : Reads w (.str w) := by
  obtain ⟨c, t, e, hc, hsemi⟩ := hw.first
  refine ⟨by rw [e]; simpa using hsemi, by rw [e]; simp, fun rest hr => ⟨.value, w, rest, by decide, by rw [e]; simp, fun R hR hf => ?_, fun R p fuel hl hf hp => ?_⟩⟩
  · exact lexes_bare hR (hf (by decide)) hw hr
  · obtain ⟨fuel, rfl⟩ : ∃ n, fuel = n + 1 := ⟨fuel - 1, by omega⟩
    exact value2_value (by rw [e]; simp) hf hp

theorem reads_single {w : Str} (hw : ∀ c ∈ w, inSingle c = true) : Reads ('\'' :: w ++ ['\'']) (.str w) := by
  refine ⟨by simp, by simp, fun rest hr => ⟨.single, '\'' :: w ++ ['\''], rest, by decide, by simp, fun R hR hf => ?_, fun R p fuel hl hf hp => ?_⟩⟩
  · exact lexes_single hR (hf (by decide)) hw hr.quote.1
  · obtain ⟨fuel, rfl⟩ : ∃ n, fuel = n + 1 := ⟨fuel - 1, by omega⟩
    obtain ⟨p', h1, h2⟩ := delimited_single (by simp) (hf (by decide)) (hf (by decide)) hp
    rw [strip_single] at h1
    exact ⟨p', value2_delimited (.inl rfl) hf hp h1, h2⟩

theorem reads_double {w : Str} (hw : ∀ c ∈ w, inDouble c = true) : Reads ('"' :: w ++ ['"']) (.str w) := by
  refine ⟨by simp, by simp, fun rest hr => ⟨.single, '"' :: w ++ ['"'], rest, by decide, by simp, fun R hR hf => ?_, fun R p fuel hl hf hp => ?_⟩⟩
  · exact lexes_double hR (hf (by decide)) hw hr.quote.2
  · obtain ⟨fuel, rfl⟩ : ∃ n, fuel = n + 1 := ⟨fuel - 1, by omega⟩
    obtain ⟨p', h1, h2⟩ := delimited_single (by simp) (hf (by decide)) (hf (by decide)) hp
    rw [strip_double] at h1
    exact ⟨p', value2_delimited (.inl rfl) hf hp h1, h2⟩

theorem strip_tripleS (w : Str) : stripTriple (tripleS ++ w ++ tripleS) = w := by
  have h1 : (tripleS ++ w ++ tripleS).take 3 = tripleS := by simp [tripleS]
  have h2 : (tripleS ++ w ++ tripleS).drop ((tripleS ++ w ++ tripleS).length - 3) = tripleS := by
    rw [show (tripleS ++ w ++ tripleS).length - 3 = (tripleS ++ w).length by simp [tripleS], List.drop_left]
  have h3 : ((tripleS ++ w ++ tripleS).drop 3).take ((tripleS ++ w ++ tripleS).length - 6) = w := by
    have e : (tripleS ++ w ++ tripleS).drop 3 = w ++ tripleS := by simp [tripleS]
    have el : (tripleS ++ w ++ tripleS).length - 6 = w.length := by simp [tripleS]
    rw [e, el, List.take_left]
  unfold stripTriple
  dsimp only
  rw [h1, h2, h3, if_neg (by decide), if_pos ⟨rfl, rfl⟩]

theorem strip_tripleD (w : Str) : stripTriple (tripleD ++ w ++ tripleD) = w := by
  have h1 : (tripleD ++ w ++ tripleD).take 3 = tripleD := by simp [tripleD]
  have h2 : (tripleD ++ w ++ tripleD).drop ((tripleD ++ w ++ tripleD).length - 3) = tripleD := by
    rw [show (tripleD ++ w ++ tripleD).length - 3 = (tripleD ++ w).length by simp [tripleD], List.drop_left]
  have h3 : ((tripleD ++ w ++ tripleD).drop 3).take ((tripleD ++ w ++ tripleD).length - 6) = w := by
    have e : (tripleD ++ w ++ tripleD).drop 3 = w ++ tripleD := by simp [tripleD]
    have el : (tripleD ++ w ++ tripleD).length - 6 = w.length := by simp [tripleD]
    rw [e, el, List.take_left]
  unfold stripTriple
  dsimp only
  rw [h1, h2, h3, if_pos ⟨rfl, rfl⟩]

theorem reads_tripleS {w : Str} (hw : NoTriple '\'' w) : Reads (tripleS ++ w ++ tripleS) (.str w) := by
  refine ⟨by simp [tripleS], by simp [tripleS], fun rest hr => ⟨.triple, tripleS ++ w ++ tripleS, rest, by decide, by simp [tripleS], fun R hR hf => ?_, fun R p fuel hl hf hp => ?_⟩⟩
  · exact lexes_tripleS hR (hf (by decide)) hw hr.quote.1
  · obtain ⟨fuel, rfl⟩ : ∃ n, fuel = n + 1 := ⟨fuel - 1, by omega⟩
    obtain ⟨p', h1, h2⟩ := delimited_triple (by simp [tripleS]) (hf (by decide)) (hf (by decide)) hp
    rw [strip_tripleS] at h1
    exact ⟨p', value2_delimited (.inr rfl) hf hp h1, h2⟩

theorem reads_tripleD {w : Str} (hw : NoTriple '"' w) : Reads (tripleD ++ w ++ tripleD) (.str w) := by
  refine ⟨by simp [tripleD], by simp [tripleD], fun rest hr => ⟨.triple, tripleD ++ w ++ tripleD, rest, by decide, by simp [tripleD], fun R hR hf => ?_, fun R p fuel hl hf hp => ?_⟩⟩
  · exact lexes_tripleD hR (hf (by decide)) hw hr.quote.2
  · obtain ⟨fuel, rfl⟩ : ∃ n, fuel = n + 1 := ⟨fuel - 1, by omega⟩
    obtain ⟨p', h1, h2⟩ := delimited_triple (by simp [tripleD]) (hf (by decide)) (hf (by decide)) hp
    rw [strip_tripleD] at h1
    exact ⟨p', value2_delimited (.inr rfl) hf hp h1, h2⟩

theorem reads_field {q l : Str} {ls : List Str} (hs : splitNl q = l :: ls) (hl : ∀ x ∈ l, Pat.notNlCr x = true) (hok : LinesOk ls) :
    Reads ("\n;".toList ++ q ++ "\n;".toList) (.str (decodeProtocols q)) := by
  obtain ⟨hcr, x, hx, hall⟩ := field_scan fieldTable20 hs hl hok
  refine ⟨by simp, by simp, fun rest hr => ?_⟩
  obtain ⟨rest1, h1, h2⟩ := hall rest
  refine ⟨.startSc, x, rest1, by decide, hx, fun R hR hf => h1 R (lexes_startSc hR (hf (by decide))), fun R p fuel hlen hf hp => ?_⟩
  obtain ⟨fuel, rfl⟩ : ∃ n, fuel = n + 1 := ⟨fuel - 1, by omega⟩
  obtain ⟨p', h3, h4⟩ := h2 R p fuel (by simp at hlen; omega) (hf (by decide)) hp
  refine ⟨p', ?_, h4⟩
  rw [value2, peek_peeked hp (.inr hf)]
  simp only [reduceCtorEq, or_self, if_false, if_true]
  rw [h3]
  simp only
  rw [strip_field q hcr]

/-! ## Lists -/

theorem ends_flat {l : List (Str × Str)} {rest : Str} (h : Spaced l) (hr : Ends rest) : Ends (flat l ++ rest) := by
  cases l with
  | nil => exact hr
  | cons p l =>
    have : Stops (flat (p :: l)) := by
      have := stops_flat (rest := []) h (by intro c t e; simp at e)
      simpa using this
    have hne : flat (p :: l) ≠ [] := by
      rw [flat_cons]
      rcases (h p (by simp)).2 with h | ⟨t, h⟩
      · simp [h]
      · rw [← h]; simp [semiDelim]
    cases hf : flat (p :: l) with
    | nil => exact absurd hf hne
    | cons c t =>
      intro d t' e
      simp only [List.cons_append, List.cons.injEq] at e
      rw [hf] at this
      rw [← e.1]
      rcases this c t rfl with rfl | rfl <;> simp

theorem ends_gap {g : Str} (hg : IsGap g) {c : Char} (hc : c ∈ [' ', '\n', ']', '}']) (rest : Str) : Ends (g ++ c :: rest) := by
  cases g with
  | nil =>
    intro d t e
    simp only [List.nil_append, List.cons.injEq] at e
    rw [← e.1]; exact hc
  | cons d g =>
    intro d' t e
    simp only [List.cons_append, List.cons.injEq] at e
    rw [← e.1]
    rcases hg d (by simp) with rfl | rfl <;> simp

/-- Words that are read as values, wherever they stand. -/
def ReadsEach : List PyVal → List Str → Prop
  | [], [] => True
  | v :: vs, w :: ws => Reads w v ∧ ReadsEach vs ws
  | _, _ => False

theorem squareLoop_read {tail rest : Str} (ht : IsGap tail) : ∀ (l : List (Str × Str)) (vs acc : List PyVal) (p : PState) (fuel : Nat),
    (∀ q ∈ l, IsGap q.1) → Spaced l.tail → ReadsEach vs (l.map (·.2)) → Ready p (flat l ++ (tail ++ ']' :: rest)) →
    (flat l ++ tail).length + 2 ≤ fuel →
    ∃ p', squareLoop (Pat.lexer tb) fuel acc p = .ok (.slist (acc ++ vs), p') ∧ Ready p' rest
  | [], [], acc, p, fuel + 1, _, _, _, hp, _ => by
    have hl : Lexes tb (.closeSquare :: first2) (tail ++ ([']'] ++ rest)) .closeSquare [']'] rest :=
      lexes_gap ⟨by decide, by decide⟩ (by simp) (lexes_closeSquare ⟨by decide, by decide⟩ (by decide) rest) tail ht
    obtain ⟨p1, h1, h2⟩ := peek_ready hp (by simpa [flat] using hl)
    refine ⟨_, ?_, ready_of_peeked h2 (by simp)⟩
    rw [squareLoop, h1]
    simp only
    rw [if_neg (by decide), afterStar_peeked h2 (by decide)]
    simp only
    rw [take_peeked h2 (by decide)]
    simp
  | (g, w) :: l, v :: vs, acc, p, fuel + 1, hg, hsp, hr, hp, hf => by
    rw [flat_cons] at hp hf
    simp only [List.append_assoc] at hp hf
    have hends : Ends (flat l ++ (tail ++ ']' :: rest)) := ends_flat hsp (ends_gap ht (by simp) rest)
    have hlen : w ≠ [] := hr.1.ne
    have hw : 0 < w.length := List.length_pos_iff.2 hlen
    obtain ⟨t, x, rest1, h1, h2, h3, h4⟩ := ahead_reads hr.1 (hg (g, w) (by simp)) hends
    obtain ⟨p1, h5, h6⟩ := peek_ready hp (h3 (.closeSquare :: first2) ⟨by decide, by decide⟩ (List.subset_cons_self _ _))
    obtain ⟨p2, h7, h8⟩ := h4 _ p1 fuel (by simp at hf ⊢; omega) (List.subset_cons_self _ _) h6
    obtain ⟨p3, h9, h10⟩ := squareLoop_read ht l vs (acc ++ [v]) p2 fuel (fun q hq => hg q (by simp [hq]))
      (by cases l with
        | nil => simp [Spaced]
        | cons q l => exact hsp.tail) hr.2 h8 (by simp at hf ⊢; omega)
    refine ⟨p3, ?_, h10⟩
    rw [squareLoop, h5]
    simp only
    rw [if_pos h1, h7]
    simp only
    rw [h9]
    simp
  | [], _ :: _, _, _, _, _, _, h, _, _ => h.elim
  | _ :: _, [], _, _, _, _, _, h, _, _ => h.elim
  | [], [], _, _, 0, _, _, _, _, h => by simp at h
  | _ :: _, _ :: _, _, _, 0, _, _, _, _, h => by simp at h

/-- A list. -/
theorem reads_list {l : List (Str × Str)} {vs : List PyVal} {tail : Str} (hg : ∀ q ∈ l, IsGap q.1) (hsp : Spaced l.tail) (ht : IsGap tail)
    (hr : ReadsEach vs (l.map (·.2))) : Reads ('[' :: (flat l ++ (tail ++ [']']))) (.slist vs) := by
  refine ⟨by simp, by simp, fun rest _ => ⟨.openSquare, ['['], flat l ++ (tail ++ ']' :: rest), by decide, by simp, fun R hR hf => ?_, fun R p fuel hl hf hp => ?_⟩⟩
  · have := lexes_openSquare hR (hf (by decide)) (flat l ++ (tail ++ ']' :: rest))
    have e : '[' :: (flat l ++ (tail ++ [']'])) ++ rest = ['['] ++ (flat l ++ (tail ++ ']' :: rest)) := by simp
    rw [e]
    exact this
  · obtain ⟨fuel, rfl⟩ : ∃ n, fuel = n + 1 := ⟨fuel - 1, by omega⟩
    obtain ⟨p', h1, h2⟩ := squareLoop_read ht l vs [] _ fuel hg hsp hr (ready_of_peeked hp (by simp)) (by simp at hl ⊢; omega)
    refine ⟨p', ?_, h2⟩
    rw [value2, peek_peeked hp (.inr hf)]
    simp only
    rw [if_neg (by decide), if_neg (by decide), if_neg (by decide), peek_peeked hp (.inr (by
      intro t ht
      simp only [List.mem_cons, List.not_mem_nil, or_false] at ht
      rcases ht with rfl | rfl
      · exact hf (by decide)
      · exact hf (by decide)))]
    simp only [if_true]
    rw [take_peeked hp (hf (by decide))]
    simp only
    rw [h1]
    rfl

/-! ## Tables -/

/-- The text of an entry of a table: the gap before the key, the key, the gap before the value, the value. -/
structure Slot where
  before : Str
  key : Str
  between : Str
  word : Str

/-- The text. -/
def Slot.text (e : Slot) : Str := e.before ++ ('\'' :: e.key ++ ['\'']) ++ [':'] ++ e.between ++ e.word

/-- The text of a table between the brackets. -/
def slots (l : List Slot) : Str := l.flatMap Slot.text

/-- The entry can be read. -/
structure SlotOk (e : Slot) (v : PyVal) : Prop where
  before : IsGap e.before
  key : ∀ c ∈ e.key, inSingle c = true
  between : IsGap e.between
  word : Reads e.word v

/-- The entries of a table that are read as the given values. -/
def SlotsOk : List Slot → List (Str × PyVal) → Prop
  | [], [] => True
  | e :: l, (k, v) :: vs => e.key = k ∧ SlotOk e v ∧ SlotsOk l vs
  | _, _ => False

theorem slots_cons (e : Slot) (l : List Slot) : slots (e :: l) = e.before ++ ('\'' :: e.key ++ ['\''] ++ ([':'] ++ (e.between ++ (e.word ++ slots l)))) := by
  simp [slots, Slot.text]

theorem ends_slots {l : List Slot} {vs : List (Str × PyVal)} (h : SlotsOk l vs) (hsp : ∀ e ∈ l, e.before ≠ []) {rest : Str} (hr : Ends rest) : Ends (slots l ++ rest) := by
  cases l with
  | nil => exact hr
  | cons e l =>
    cases vs with
    | nil => exact h.elim
    | cons v vs =>
      have h1 := h.2.1.before
      have h2 := hsp e (by simp)
      rw [slots_cons]
      cases hb : e.before with
      | nil => exact absurd hb h2
      | cons c g =>
        intro d t e'
        simp only [List.cons_append, List.cons.injEq] at e'
        rw [← e'.1]
        rcases h1 c (by rw [hb]; simp) with rfl | rfl <;> simp

theorem curlyLoop_read {tail rest : Str} (ht : IsGap tail) : ∀ (l : List Slot) (vs acc : List (Str × PyVal)) (p : PState) (fuel : Nat),
    SlotsOk l vs → (∀ e ∈ l.tail, e.before ≠ []) → (dkeys (acc ++ vs)).Nodup → Ready p (slots l ++ (tail ++ '}' :: rest)) →
    (slots l ++ tail).length + 2 ≤ fuel →
    ∃ p', curlyLoop (Pat.lexer tb) fuel acc p = .ok (.sdict (acc ++ vs), p') ∧ Ready p' rest
  | [], [], acc, p, fuel + 1, _, _, _, hp, _ => by
    have hl : Lexes tb [.closeCurly, .single, .triple] (tail ++ (['}'] ++ rest)) .closeCurly ['}'] rest :=
      lexes_gap ⟨by decide, by decide⟩ (by simp) (lexes_closeCurly ⟨by decide, by decide⟩ (by decide) rest) tail ht
    obtain ⟨p1, h1, h2⟩ := peek_ready hp (by simpa [slots] using hl)
    refine ⟨_, ?_, ready_of_peeked h2 (by simp)⟩
    rw [curlyLoop, h1]
    simp only
    rw [if_neg (by decide), afterStar_peeked h2 (by decide)]
    simp only
    rw [take_peeked h2 (by decide)]
    simp
  | e :: l, (k, v) :: vs, acc, p, fuel + 1, hok, hsp, hk, hp, hf => by
    obtain ⟨rfl, hs, hok'⟩ := hok
    rw [slots_cons] at hp hf
    simp only [List.append_assoc] at hp hf
    have hends : Ends (slots l ++ (tail ++ '}' :: rest)) := ends_slots hok' hsp (ends_gap ht (by simp) rest)
    have hlen : e.word ≠ [] := hs.word.ne
    have hw : 0 < e.word.length := List.length_pos_iff.2 hlen
    have hlex := lexes_single (R := [.closeCurly, .single, .triple]) ⟨by decide, by decide⟩ (by decide) hs.key
      (rest := [':'] ++ (e.between ++ (e.word ++ (slots l ++ (tail ++ '}' :: rest))))) (by simp)
    obtain ⟨p1, h1, h2⟩ := peek_ready hp (by
      have := lexes_gap (R := [.closeCurly, .single, .triple]) ⟨by decide, by decide⟩ (by simp) hlex e.before hs.before
      simpa using this)
    obtain ⟨p2, h3, h4⟩ := delimited_single (by simp) (by decide) (by decide) h2
    rw [show '\'' :: (e.key ++ ['\'']) = '\'' :: e.key ++ ['\''] from rfl, strip_single] at h3
    obtain ⟨p3, h5, h6⟩ := take_ready h4 (lexes_colon _) (by simp)
    obtain ⟨p4, h7, h8⟩ := reads_gap hs.word hs.between hends h6 (fuel := fuel) (by simp at hf; omega)
    have hnew : setPair acc e.key v = acc ++ [(e.key, v)] := by
      refine dset_of_not_mem _ _ _ ?_
      intro hm
      simp only [dkeys, List.map_append, List.map_cons] at hk hm
      exact (List.nodup_append.1 hk).2.2 _ hm e.key (by simp) rfl
    obtain ⟨p5, h9, h10⟩ := curlyLoop_read ht l vs (acc ++ [(e.key, v)]) p4 fuel hok'
      (by cases l with
        | nil => simp
        | cons q l => intro x hx; exact hsp x (by simp at hx; simp [hx])) (by simpa using hk) h8 (by simp at hf ⊢; omega)
    refine ⟨p5, ?_, h10⟩
    rw [curlyLoop, h1]
    simp only
    rw [if_pos (by simp), h3]
    simp only
    rw [h5]
    simp only
    rw [h7]
    simp only
    rw [hnew, h9]
    simp
  | [], _ :: _, _, _, _, h, _, _, _, _ => h.elim
  | _ :: _, [], _, _, _, h, _, _, _, _ => h.elim
  | [], [], _, _, 0, _, _, _, _, h => by simp at h
  | _ :: _, _ :: _, _, _, 0, _, _, _, _, h => by simp at h

/-- A table. -/
theorem reads_table {l : List Slot} {vs : List (Str × PyVal)} {tail : Str} (hok : SlotsOk l vs) (hsp : ∀ e ∈ l.tail, e.before ≠ []) (ht : IsGap tail)
    (hk : (dkeys vs).Nodup) : Reads ('{' :: (slots l ++ (tail ++ ['}']))) (.sdict vs) := by
  refine ⟨by simp, by simp, fun rest _ => ⟨.openCurly, ['{'], slots l ++ (tail ++ '}' :: rest), by decide, by simp, fun R hR hf => ?_, fun R p fuel hl hf hp => ?_⟩⟩
  · have := lexes_openCurly hR (hf (by decide)) (slots l ++ (tail ++ '}' :: rest))
    have e : '{' :: (slots l ++ (tail ++ ['}'])) ++ rest = ['{'] ++ (slots l ++ (tail ++ '}' :: rest)) := by simp
    rw [e]
    exact this
  · obtain ⟨fuel, rfl⟩ : ∃ n, fuel = n + 1 := ⟨fuel - 1, by omega⟩
    obtain ⟨p', h1, h2⟩ := curlyLoop_read ht l vs [] _ fuel hok hsp (by simpa using hk) (ready_of_peeked hp (by simp)) (by simp at hl ⊢; omega)
    refine ⟨p', ?_, h2⟩
    rw [value2, peek_peeked hp (.inr hf)]
    simp only
    rw [if_neg (by decide), if_neg (by decide), if_neg (by decide), peek_peeked hp (.inr (by
      intro t ht
      simp only [List.mem_cons, List.not_mem_nil, or_false] at ht
      rcases ht with rfl | rfl
      · exact hf (by decide)
      · exact hf (by decide)))]
    simp only [reduceCtorEq, if_false]
    rw [take_peeked hp (hf (by decide))]
    simp only
    rw [h1]
    rfl

end Verif.Lex.V2
