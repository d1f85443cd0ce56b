import Verif.Lemmas.LexValue
import Verif.Lemmas.Text
import Verif.Lemmas.ReadStar
/-! # Reading a value of CIF 1.1 -/
set_option linter.unusedSectionVars false
namespace Verif.Lex
open Rx Scanner Reader
variable [CaseFold]

/-- FIRST of `data_value` in 1.1. -/
def firstValue : List Tk := [.value, .startSc]

theorem outside_first : Outside firstValue := ⟨by decide, by decide⟩

theorem gram11_lx : gram11.lx = Pat.lexer Pat.table11 := rfl
theorem gram11_first : gram11.first = firstValue := rfl
theorem gram11_value (fuel : Nat) (p : PState) : gram11.value fuel p = value1 (Pat.lexer Pat.table11) fuel p := rfl

/-- The reader of 1.1. -/
def dialect11 : Dialect where
  g := gram11
  tb := Pat.table11
  lx := rfl
  Outside := Outside
  nameChar := Pat.nameChar1
  nameFix := by
    intro c h
    constructor <;> (rintro rfl; exact absurd h (by decide))
  first := outside_first
  follow := ⟨by decide, by decide⟩
  both := ⟨by decide, by decide⟩
  names := ⟨by decide, by decide⟩
  start := ⟨by decide, by decide⟩
  apart := by decide
  gap := lexes_gap
  comment := lexes_comment
  name := lexes_name
  loop := lexes_loop
  heading := lexes_heading
  saveHead := lexes_saveHead
  saveEnd := lexes_saveEnd
  fin := lexes_fin
  again := by
    intro fuel p p1 t h1 h2
    have h1 : peek (Pat.lexer Pat.table11) firstValue p = .ok (t, p1) := h1
    have h2 : peek (Pat.lexer Pat.table11) firstValue p1 = .ok (t, p1) := h2
    rw [gram11_value, gram11_value, value1, value1, show [Tk.value, .startSc] = firstValue from rfl, h1, h2]

/-- Wherever the word stands before white space or at the end, the reader of 1.1 reads it as the value. -/
abbrev ReadsAs (w : Str) (v : PyVal) : Prop := ReadsIn dialect11 w v

theorem reads_of {w : Str} {v : PyVal} (start : w.head? ≠ some ';') (read : ∀ rest, Stops rest → ∃ t x rest1, t ∈ firstValue ∧ x ≠ [] ∧
    (∀ R, Outside R → firstValue ⊆ R → Lexes Pat.table11 R (w ++ rest) t x rest1) ∧
    ∀ R p fuel, w.length < fuel → firstValue ⊆ R → Peeked p R t x rest1 →
      ∃ p', gram11.value fuel p = .ok (v, p') ∧ Ready p' rest) : ReadsAs w v := ⟨start, read⟩

theorem value1_value {R : List Tk} {p : PState} {fuel : Nat} {x rest : Str} (hx : x ≠ []) (hR : firstValue ⊆ R) (hp : Peeked p R .value x rest) :
    ∃ p', gram11.value fuel p = .ok (.str (stripString x), p') ∧ Ready p' rest := by
  refine ⟨_, ?_, ready_of_peeked hp hx⟩
  rw [gram11_value, value1, show [Tk.value, .startSc] = firstValue from rfl, peek_peeked hp (.inr hR)]
  simp only [if_true]
  rw [take_peeked hp (hR (by decide))]

theorem strip_bare {w : Str} (hw : Bare w) : stripString w = w := by
  obtain ⟨c, t, rfl, hc, -⟩ := hw.first
  have h1 : c ≠ '\'' := fun e => by rw [e] at hc; exact absurd hc (by decide)
  have h2 : c ≠ '"' := fun e => by rw [e] at hc; exact absurd hc (by decide)
  simp [stripString, h1, h2]

theorem strip_single (w : Str) : stripString ('\'' :: w ++ ['\'']) = w := by
  simp [stripString, List.getLast?_cons]

theorem strip_double (w : Str) : stripString ('"' :: w ++ ['"']) = w := by
  simp [stripString, List.getLast?_cons]

theorem reads_bare {w : Str} (hw : Bare w) : ReadsAs w (.str w) := by
  obtain ⟨c, t, e, hc, hsemi⟩ := hw.first
  refine reads_of (by rw [e]; simpa using hsemi) (fun rest hr => ⟨.value, w, rest, by decide, by rw [e]; simp, fun R hR hf => ?_, fun R p fuel hl hf hp => ?_⟩)
  · exact lexes_bare hR (hf (by decide)) hw hr
  · have := value1_value (fuel := fuel) (by rw [e]; simp) hf hp
    rw [strip_bare hw] at this
    exact this

theorem reads_single {w : Str} (hw : ∀ c ∈ w, inSingle c = true) : ReadsAs ('\'' :: w ++ ['\'']) (.str w) := by
  refine reads_of (by simp) (fun rest hr => ⟨.value, '\'' :: w ++ ['\''], rest, by decide, by simp, fun R hR hf => ?_, fun R p fuel hl hf hp => ?_⟩)
  · exact lexes_single hR (hf (by decide)) hw hr
  · have := value1_value (fuel := fuel) (by simp) hf hp
    rw [strip_single] at this
    exact this

theorem reads_double {w : Str} (hw : ∀ c ∈ w, inDouble c = true) : ReadsAs ('"' :: w ++ ['"']) (.str w) := by
  refine reads_of (by simp) (fun rest hr => ⟨.value, '"' :: w ++ ['"'], rest, by decide, by simp, fun R hR hf => ?_, fun R p fuel hl hf hp => ?_⟩)
  · exact lexes_double hR (hf (by decide)) hw hr
  · have := value1_value (fuel := fuel) (by simp) hf hp
    rw [strip_double] at this
    exact this

/-! ## Text fields -/

/-- Lines with their line ends. -/
def ended (ls : List Str) : Str := ls.flatMap fun l => l ++ ['\n']

/-- The lines after the first one of a text field can be read: none has a carriage return or line feed in it or starts with a semicolon,
and a line that starts with a number sign is the last one or followed by an empty line. -/
def LinesOk : List Str → Prop
  | [] => True
  | l :: ls => (∀ x ∈ l, Pat.notNlCr x = true) ∧ l.head? ≠ some ';' ∧ (l.head? = some '#' → ls = [] ∨ ls.head? = some []) ∧ LinesOk ls

/-- Empty lines at the start. -/
theorem split_empty : ∀ (ls : List Str), LinesOk ls → ∃ m ls', ls = List.replicate m [] ++ ls' ∧ LinesOk ls' ∧ ls'.head? ≠ some [] ∧
    (ls.head? = some [] → 0 < m) ∧ ls'.length ≤ ls.length
  | [], h => ⟨0, [], rfl, h, by simp, by simp, by simp⟩
  | [] :: ls, h => by
    obtain ⟨m, ls', h1, h2, h3, -, h5⟩ := split_empty ls h.2.2.2
    exact ⟨m + 1, ls', by rw [h1, List.replicate_succ, List.cons_append], h2, h3, by omega, by simp; omega⟩
  | (c :: l) :: ls, h => ⟨0, (c :: l) :: ls, rfl, h, by simp, by simp, by simp⟩

theorem ended_empty (m : Nat) (ls : List Str) : ended (List.replicate m [] ++ ls) = List.replicate m '\n' ++ ended ls := by
  induction m with
  | zero => simp
  | succ m ih =>
    rw [List.replicate_succ, List.cons_append, ended, List.flatMap_cons]
    rw [ended] at ih
    rw [ih, List.replicate_succ]
    rfl

theorem lineStart_ended {ls : List Str} (h : LinesOk ls) (he : ls.head? ≠ some []) (rest : Str) : LineStart (ended ls ++ ';' :: rest) := by
  intro c t e
  cases ls with
  | nil =>
    simp only [ended, List.flatMap_nil, List.nil_append, List.cons.injEq] at e
    rw [← e.1]; decide
  | cons l ls =>
    cases l with
    | nil => simp at he
    | cons d l =>
      simp only [ended, List.flatMap_cons, List.cons_append, List.cons.injEq] at e
      rw [← e.1]
      have := h.1 d (by simp)
      simpa [Pat.notNlCr] using this

/-- The scanner finds the lines of text fields. -/
structure FieldTable (tb : Pat.Table) : Prop where
  line : ∀ {c : Char} {l : Str} (m : Nat) {rest : Str}, c ≠ ';' → (∀ x ∈ c :: l, Pat.notNlCr x = true) → LineStart rest →
    (c = '#' → 0 < m ∨ rest.head? = some ';') →
    Lexes tb inField ((c :: l ++ List.replicate (m + 1) '\n') ++ rest) .scLine (c :: l ++ List.replicate (m + 1) '\n') rest
  close : ∀ rest, Lexes tb inField ([';'] ++ rest) .endSc [';'] rest

theorem fieldTable11 : FieldTable Pat.table11 := ⟨lexes_scLine, lexes_endSc⟩

theorem scLines_read {tb : Pat.Table} (hF : FieldTable tb) {rest : Str} : ∀ (n : Nat) (ls : List Str) (acc : Str) (p : PState) (fuel : Nat), ls.length ≤ n → LinesOk ls → ls.head? ≠ some [] →
    Ready p (ended ls ++ ';' :: rest) → ls.length < fuel →
    ∃ p', scLines (Pat.lexer tb) fuel acc p = .ok (acc ++ ended ls ++ [';'], p') ∧ Ready p' rest := by
  intro n
  induction n with
  | zero =>
    intro ls acc p fuel hn hl he hp hf
    have : ls = [] := List.length_eq_zero_iff.1 (by omega)
    subst this
    cases fuel with
    | zero => omega
    | succ fuel =>
      obtain ⟨p1, h1, hp1⟩ := peek_ready hp (by simpa [ended] using hF.close rest)
      refine ⟨_, ?_, ready_of_peeked hp1 (by simp)⟩
      rw [scLines, show [Tk.endSc, .scLine] = inField from rfl, h1]
      simp only [reduceCtorEq, if_false]
      rw [afterStar_peeked hp1 (by decide)]
      simp only
      rw [take_peeked hp1 (by decide)]
      simp [ended]
  | succ n ih =>
    intro ls acc p fuel hn hl he hp hf
    cases fuel with
    | zero => omega
    | succ fuel =>
      cases ls with
      | nil => exact ih [] acc p (fuel + 1) (by simp) hl he hp hf
      | cons l ls =>
        cases l with
        | nil => simp at he
        | cons c l =>
          obtain ⟨m, ls', h1, h2, h3, h4, h5⟩ := split_empty ls hl.2.2.2
          have hrest := lineStart_ended h2 h3 rest
          have e : ended ((c :: l) :: ls) ++ ';' :: rest = (c :: l ++ List.replicate (m + 1) '\n') ++ (ended ls' ++ ';' :: rest) := by
            rw [ended, List.flatMap_cons, ← ended, h1, ended_empty, List.replicate_succ]
            simp
          rw [e] at hp
          have hlex := hF.line m (c := c) (l := l) (by simpa using hl.2.1) hl.1 hrest (by
            intro hc
            subst hc
            rcases hl.2.2.1 rfl with h | h
            · subst h
              have : m = 0 ∧ ls' = [] := by
                have := congrArg List.length h1
                simp at this
                exact ⟨by omega, List.length_eq_zero_iff.1 (by omega)⟩
              right
              rw [this.2]
              simp [ended]
            · left; exact h4 h)
          obtain ⟨p1, hp1, hp1'⟩ := peek_ready hp hlex
          have hr2 := ready_of_peeked hp1' (by simp)
          obtain ⟨p', h6, h7⟩ := ih ls' (acc ++ (c :: l ++ List.replicate (m + 1) '\n')) _ fuel (by simp at hn; omega) h2 h3 hr2
            (by simp at hf; omega)
          refine ⟨p', ?_, h7⟩
          rw [scLines, show [Tk.endSc, .scLine] = inField from rfl, hp1]
          simp only [if_true]
          rw [take_peeked hp1' (by decide)]
          simp only
          rw [h6]
          have e2 : ended ((c :: l) :: ls) = c :: l ++ List.replicate (m + 1) '\n' ++ ended ls' := by
            rw [ended, List.flatMap_cons, ← ended, h1, ended_empty, List.replicate_succ]
            simp
          rw [e2]
          simp

theorem many_white (n : Nat) (x : Str) : many (lens (cls isWhite)) n (';' :: x) = [0] := by
  cases n with
  | zero => rfl
  | succ n => simp [many, lens, isWhite]

theorem semis_field (x : Str) : semis.matchLen ('\n' :: ';' :: x) = some 2 := by
  have h1 : lens (star (cls isWhite)) ('\n' :: ';' :: x) = [1, 0] := by
    rw [lens, List.length_cons, many]
    have : lens (cls isWhite) ('\n' :: ';' :: x) = [1] := by simp [lens, isWhite]
    rw [this]
    simp [many_white]
  have h2 : lens (seq (cls fun c => c == '\n' || c == '\r' || c == '\x0c') (seq (star (ch '\n')) (ch ';'))) (';' :: x) = [] := by
    rw [← matchLen_none]
    exact matchLen_seq_none (matchLen_cls_neg (by decide))
  have h3 : matchLen (seq (cls fun c => c == '\n' || c == '\r' || c == '\x0c') (seq (star (ch '\n')) (ch ';'))) ('\n' :: ';' :: x) = some 2 := by
    apply matchLen_seq (i := 1) (j := 1) (matchLen_cls_pos (by decide))
    apply matchLen_seq (i := 0) (j := 1)
    · have := matchLen_star_cls (p := (· == '\n')) [] (';' :: x) (by simp) (by
        intro c t e; simp only [List.cons.injEq] at e; rw [← e.1]; decide)
      exact this
    · exact matchLen_ch _ _
  show matchLen (seq (star (cls isWhite)) (seq (cls fun c => c == '\n' || c == '\r' || c == '\x0c') (seq (star (ch '\n')) (ch ';')))) _ = _
  rw [matchLen, lens, h1]
  simp only [List.flatMap_cons, List.flatMap_nil, List.drop_succ_cons, List.drop_zero, h2, List.map_nil, List.nil_append, List.append_nil]
  rw [matchLen] at h3
  rw [List.head?_map, h3]
  rfl

theorem strip_field (q : Str) (hq : '\r' ∉ q) : stripExtras ("\n;".toList ++ q ++ "\n;".toList) = decodeProtocols q := by
  have e : "\n;".toList ++ q ++ "\n;".toList = '\n' :: ';' :: (q ++ ['\n', ';']) := by simp
  rw [e, stripExtras, semis_field]
  simp only
  have h1 : slice ('\n' :: ';' :: (q ++ ['\n', ';'])) 2 (('\n' :: ';' :: (q ++ ['\n', ';'])).length - 2) = q := by
    simp [slice]
  rw [h1, if_neg]
  intro h
  exact hq (List.mem_of_getLast? h)

theorem ended_split (q : Str) : ended (splitNl q) = q ++ ['\n'] := by
  have gen : ∀ ls : List Str, ls ≠ [] → ended ls = joinNl ls ++ ['\n'] := by
    intro ls
    induction ls with
    | nil => simp
    | cons l ls ih =>
      intro _
      cases ls with
      | nil => simp [ended, joinNl]
      | cons m ls =>
        rw [ended, List.flatMap_cons, ← ended, ih (by simp), joinNl]
        simp
  rw [gen _ (splitNl_ne_nil q), joinNl_splitNl]

theorem length_split (q : Str) : (splitNl q).length ≤ q.length + 1 := by
  have h : ∀ ls : List Str, ls.length ≤ (ended ls).length := by
    intro ls
    induction ls with
    | nil => simp
    | cons l ls ih =>
      rw [ended, List.flatMap_cons, ← ended]
      simp; omega
  have := h (splitNl q)
  rw [ended_split] at this
  simpa using this

/-- A text field whose lines can be read. -/
theorem field_scan {tb : Pat.Table} (hF : FieldTable tb) {q l : Str} {ls : List Str} (hs : splitNl q = l :: ls) (hl : ∀ x ∈ l, Pat.notNlCr x = true)
    (hok : LinesOk ls) : '\r' ∉ q ∧ ∃ x, x ≠ [] ∧ ∀ rest, ∃ rest1,
      (∀ R, (∀ {l : Str} (m : Nat) {rest : Str}, (∀ x ∈ l, Pat.notNlCr x = true) → LineStart rest →
        Lexes tb R ("\n;".toList ++ l ++ List.replicate (m + 1) '\n' ++ rest) .startSc ("\n;".toList ++ l ++ List.replicate (m + 1) '\n') rest) →
        Lexes tb R ("\n;".toList ++ q ++ "\n;".toList ++ rest) .startSc x rest1) ∧
      ∀ R p fuel, q.length < fuel → Tk.startSc ∈ R → Peeked p R .startSc x rest1 →
        ∃ p', scLinesOfText (Pat.lexer tb) fuel p = .ok ("\n;".toList ++ q ++ "\n;".toList, p') ∧ Ready p' rest := by
  have hcr : '\r' ∉ q := by
    intro h
    have hm : '\r' ∈ ended (splitNl q) := by rw [ended_split]; simp [h]
    rw [hs] at hm
    have key : ∀ ls : List Str, LinesOk ls → '\r' ∉ ended ls := by
      intro ls
      induction ls with
      | nil => simp [ended]
      | cons l ls ih =>
        intro h hm
        simp only [ended, List.flatMap_cons, List.mem_append, List.mem_singleton] at hm
        rcases hm with (hm | hm) | hm
        · exact absurd (h.1 _ hm) (by decide)
        · exact absurd hm (by decide)
        · exact ih h.2.2.2 hm
    simp only [ended, List.flatMap_cons, List.mem_append, List.mem_singleton] at hm
    rcases hm with (hm | hm) | hm
    · exact absurd (hl _ hm) (by decide)
    · exact absurd hm (by decide)
    · exact key ls hok hm
  obtain ⟨m, ls', h1, h2, h3, h4, h5⟩ := split_empty ls hok
  have eq : q ++ ['\n'] = l ++ List.replicate (m + 1) '\n' ++ ended ls' := by
    rw [← ended_split, hs, ended, List.flatMap_cons, ← ended, h1, ended_empty, List.replicate_succ]
    simp
  refine ⟨hcr, "\n;".toList ++ l ++ List.replicate (m + 1) '\n', by simp, fun rest => ⟨ended ls' ++ ';' :: rest, fun R hR => ?_, fun R p fuel hlen hf hp => ?_⟩⟩
  · have := hR (l := l) m hl (lineStart_ended h2 h3 rest)
    have e : "\n;".toList ++ q ++ "\n;".toList ++ rest = "\n;".toList ++ l ++ List.replicate (m + 1) '\n' ++ (ended ls' ++ ';' :: rest) := by
      have : "\n;".toList ++ q ++ "\n;".toList ++ rest = "\n;".toList ++ (q ++ ['\n']) ++ ';' :: rest := by simp
      rw [this, eq]
      simp
    rw [e]
    exact this
  · have hr2 := ready_of_peeked hp (by simp)
    obtain ⟨p', h6, h7⟩ := scLines_read hF ls'.length ls' ("\n;".toList ++ l ++ List.replicate (m + 1) '\n') _ fuel (Nat.le_refl _) h2 h3 hr2 (by
      have := length_split q
      rw [hs] at this
      simp at this hlen
      omega)
    refine ⟨p', ?_, h7⟩
    rw [scLinesOfText, take_peeked hp hf]
    simp only
    rw [h6]
    have e : "\n;".toList ++ l ++ List.replicate (m + 1) '\n' ++ ended ls' ++ [';'] = "\n;".toList ++ q ++ "\n;".toList := by
      have : "\n;".toList ++ q ++ "\n;".toList = "\n;".toList ++ (q ++ ['\n']) ++ [';'] := by simp
      rw [this, eq]
      simp
    rw [e]

theorem reads_field {q l : Str} {ls : List Str} (hs : splitNl q = l :: ls) (hl : ∀ x ∈ l, Pat.notNlCr x = true) (hok : LinesOk ls) :
    ReadsAs ("\n;".toList ++ q ++ "\n;".toList) (.str (decodeProtocols q)) := by
  obtain ⟨hcr, x, hx, hall⟩ := field_scan fieldTable11 hs hl hok
  refine reads_of (by simp) (fun rest hr => ?_)
  obtain ⟨rest1, h1, h2⟩ := hall rest
  refine ⟨.startSc, x, rest1, by decide, hx, fun R hR hf => h1 R (lexes_startSc hR (hf (by decide))), fun R p fuel hlen hf hp => ?_⟩
  obtain ⟨p', h3, h4⟩ := h2 R p fuel (by simp at hlen; omega) (hf (by decide)) hp
  refine ⟨p', ?_, h4⟩
  rw [gram11_value, value1, show [Tk.value, .startSc] = firstValue from rfl, peek_peeked hp (.inr hf)]
  simp only [reduceCtorEq, if_false]
  rw [h3]
  simp only
  rw [strip_field q hcr]

end Verif.Lex
