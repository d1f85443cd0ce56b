import Verif.Lemmas.DrelLexPut
import Verif.Props.DrelParser
/-! # C108, C109: reading the text of dREL -/
namespace Verif
namespace Drel
open LR DrelPy Lex

/-! ## C108: tokens -/

/-- **C108.** Tokens written with a blank after each are read as these tokens, each with its kind and its text: words and signs (the longer signs are not split),
names, tags, integers, real and imaginary numbers, short strings with any characters but their quote and ends of lines, parentheses and ends of lines outside of them.
Missing: long strings are joined (`C108_long_fails`), a quote ends a string even if it is escaped (`C108_escape_fails`), and `else` is joined with what begins with `if`
(`C108_else_fails`), which `Writable` excludes; numbers with a base are covered by `C108_lossless`. -/
theorem C108_read_partial (toks : List (Tok Val)) (h : Writable 0 toks) : lex (write toks) = some toks := tokens_written toks 0 _ h (Nat.lt_succ_self _)

/-- **C108.** The bound on the rounds of the lexer does not matter: every round takes at least one character, so every text is read to its end or to an error. -/
theorem C108_rounds (n d : Nat) (s : Str) (h : s.length < n) : tokens n d s = tokens (s.length + 1) d s := tokens_fuel _ _ _ _ h (Nat.lt_succ_self _)

/-- **C108.** Nothing of a text is lost but blanks, comments, escaped ends of lines and ends of lines in parentheses; all else is in the tokens, in order and unchanged, but
for numbers with a base, which are given in decimal digits. -/
theorem C108_lossless (s : Str) (toks : List (Tok Val)) (h : lex s = some toks) : Reading 0 toks s := tokens_reading _ _ _ _ h

theorem lex_first {s r : Str} {t : Tok Val} {d : Nat} (h : round 0 s = .tok t d r) {toks : List (Tok Val)} (hl : lex s = some toks) : toks.head? = some t := by
  simp only [lex, tokens, h, Option.map_eq_some_iff] at hl
  obtain ⟨us, -, rfl⟩ := hl
  rfl

/-- **C108.** A quote ends a short string although it is escaped: of `'…\'…` the first token is `'…\'`, whatever follows. -/
theorem C108_escape_fails (q : Char) (hq : q = '\'' ∨ q = '"') (m r : Str) (hm : ∀ x ∈ m, x ≠ q ∧ x ≠ '\n') (toks : List (Tok Val))
    (h : lex (q :: (m ++ '\\' :: q :: r)) = some toks) : toks.head? = some (K.shortString, .str (q :: (m ++ ['\\', q]))) := by
  have hm' : ∀ x ∈ m ++ ['\\'], x ≠ q ∧ x ≠ '\n' := by
    intro x hx
    rw [List.mem_append, List.mem_singleton] at hx
    rcases hx with hx | rfl
    · exact hm x hx
    · rcases hq with rfl | rfl <;> decide
  have hh := short_head hq hm' r
  have e : q :: (m ++ '\\' :: q :: r) = q :: (m ++ ['\\'] ++ q :: r) := by simp
  rw [← e] at hh
  have hlq : Rx.lens (longOf q) (q :: (m ++ '\\' :: q :: r)) = [] := by
    refine seq_none ?_
    have hbs : ¬ '\\' = q := by rcases hq with rfl | rfl <;> decide
    show Rx.lens (Rx.seqs [Rx.ch q, Rx.ch q, Rx.ch q]) _ = []
    cases m with
    | nil => simp [Rx.seqs, Rx.lens, Rx.ch, hbs]
    | cons c m => simp [Rx.seqs, Rx.lens, Rx.ch, (hm c (by simp)).1]
  have hlong : Rx.lens longString (q :: (m ++ '\\' :: q :: r)) = [] := by
    rcases hq with rfl | rfl
    · exact alt_none hlq (starts_none _ (by decide))
    · exact alt_none (starts_none _ (by decide)) hlq
  have hshort : (Rx.lens shortString (q :: (m ++ '\\' :: q :: r))).head? = some (1 + ((m ++ ['\\']).length + 1)) := by
    rcases hq with rfl | rfl
    · exact alt_left hh
    · have h0 : Rx.lens (shortOf '\'') ('"' :: (m ++ '\\' :: '"' :: r)) = [] := starts_none _ (by decide)
      show (Rx.lens (Rx.alt (shortOf '\'') (shortOf '"')) _).head? = _
      rw [alt_right h0]
      exact hh
  have hp : pick (q :: (m ++ '\\' :: q :: r)) initial = some (.give K.shortString, 1 + ((m ++ ['\\']).length + 1)) := by
    have := pick_starts (c := q) (t := m ++ '\\' :: q :: r) (initial.take 9) (rest := initial.drop 9) (by rcases hq with rfl | rfl <;> decide)
    rw [List.take_append_drop] at this
    rw [this]
    show pick _ ((longString, .give K.longString) :: (shortString, .give K.shortString) :: initial.drop 11) = _
    rw [pick_skip hlong, pick_take hshort]
  have hne : ∀ x : Char, x ≠ '\'' → x ≠ '"' → q ≠ x := by
    intro x h1 h2 e
    subst e
    exact hq.elim h1 h2
  have hr := round_of (d := 0) (hne _ (by decide) (by decide)) (hne _ (by decide) (by decide))
    (ignored_false (hne _ (by decide) (by decide)) (hne _ (by decide) (by decide)) (hne _ (by decide) (by decide))) hp
  have h1 : (q :: (m ++ '\\' :: q :: r)).take (1 + ((m ++ ['\\']).length + 1)) = q :: (m ++ ['\\', q]) := by
    have e1 : q :: (m ++ '\\' :: q :: r) = (q :: (m ++ ['\\', q])) ++ r := by simp
    have e2 : 1 + ((m ++ ['\\']).length + 1) = (q :: (m ++ ['\\', q])).length := by simp; omega
    rw [e1, e2, List.take_left]
  have := lex_first hr h
  rw [this, h1]

/-- **C108.** `else`, white space and a word that begins with `if` are joined, even over the end of a line: of `else iffy = 1` the first token is `else if`. -/
theorem C108_else_fails (w r : Str) (hn : w ≠ []) (hw : ∀ c ∈ w, isSpace c = true) (toks : List (Tok Val)) (h : lex ("else".toList ++ (w ++ ("if".toList ++ r))) = some toks) :
    toks.head? = some (K.elseif, .str ("else".toList ++ (w ++ "if".toList))) := by
  have hs := alpha_starts (c := 'e') (by decide)
  simp only [List.all_cons, List.all_nil, Bool.and_true, Bool.and_eq_true, Bool.not_eq_true'] at hs
  obtain ⟨s1, s2, s3, s4, s5, s6, s7, s8⟩ := hs
  have sp : (Rx.lens (Rx.plus (Rx.cls isSpace)) (w ++ ("if".toList ++ r))).head? = some w.length := plusCls_head hn hw (by simp; decide)
  have tw : ∀ (a b : Char) (t : Str), (Rx.lens (two a b) (b :: t)).head? = some 1 := fun a b t => by simp [two, Rx.lens]
  have hif : (Rx.lens (Rx.seqs [two 'I' 'i', two 'F' 'f']) ((w ++ ("if".toList ++ r)).drop w.length)).head? = some 2 := by
    rw [List.drop_left]
    exact seq_head (tw _ _ _) (tw _ _ _)
  have he : (Rx.lens elseif ('e' :: 'l' :: 's' :: 'e' :: (w ++ ("if".toList ++ r)))).head? = some (1 + (1 + (1 + (1 + (w.length + 2))))) :=
    seq_head (tw _ _ _) (seq_head (tw _ _ _) (seq_head (tw _ _ _) (seq_head (tw _ _ _) (seq_head sp hif))))
  have hp : pick ('e' :: 'l' :: 's' :: 'e' :: (w ++ ("if".toList ++ r))) initial = some (.give K.elseif, 1 + (1 + (1 + (1 + (w.length + 2))))) := by
    have hpre : Rx.lens strPrefix ('e' :: 'l' :: 's' :: 'e' :: (w ++ ("if".toList ++ r))) = [] := starts_none _ (by decide)
    have hl : Rx.lens longString ('e' :: 'l' :: 's' :: 'e' :: (w ++ ("if".toList ++ r))) = [] := starts_none _ (by decide)
    have hsh : Rx.lens shortString ('e' :: 'l' :: 's' :: 'e' :: (w ++ ("if".toList ++ r))) = [] := starts_none _ (by decide)
    unfold initial
    rw [pick_skip (starts_none _ s1), pick_skip (starts_none _ s2), pick_skip (starts_none _ s3), pick_skip (starts_none _ s4), pick_skip (starts_none _ s5),
      pick_skip (starts_none _ s6), pick_skip (starts_none _ s7), pick_skip (starts_none _ s8), pick_skip hpre, pick_skip hl, pick_skip hsh, pick_take he]
  have hr := round_of (d := 0) (by decide) (by decide) (ignored_false (by decide) (by decide) (by decide)) hp
  have h1 : ('e' :: 'l' :: 's' :: 'e' :: (w ++ ("if".toList ++ r))).take (1 + (1 + (1 + (1 + (w.length + 2))))) = "else".toList ++ (w ++ "if".toList) := by
    have e1 : 'e' :: 'l' :: 's' :: 'e' :: (w ++ ("if".toList ++ r)) = ("else".toList ++ (w ++ "if".toList)) ++ r := by
      rw [List.append_assoc, List.append_assoc]
      rfl
    have e2 : 1 + (1 + (1 + (1 + (w.length + 2)))) = ("else".toList ++ (w ++ "if".toList)).length := by
      rw [List.length_append, List.length_append]
      show _ = 4 + (w.length + 2)
      omega
    rw [e1, e2, List.take_left]
  have := lex_first hr h
  rw [this, h1]

/-- All the lengths that a repetition of single characters matches, the longest first. -/
theorem many_all {x : Rx} : ∀ (s : Str) (n : Nat), s.length ≤ n → (∀ c ∈ s, ∀ u, Rx.lens x (c :: u) = [1]) → Rx.lens x [] = [] →
    Rx.many (Rx.lens x) n s = (List.range (s.length + 1)).reverse
  | [], 0, _, _, _ => rfl
  | [], n + 1, _, _, h0 => by simp [Rx.many, h0]
  | c :: s, 0, h, _, _ => by simp at h
  | c :: s, n + 1, h, hs, h0 => by
    have ih := many_all s n (by simpa using h) (fun c' hc => hs c' (List.mem_cons_of_mem _ hc)) h0
    have h1 := hs c (by simp) s
    rw [List.length_cons, List.range_succ_eq_map, List.reverse_cons, ← List.map_reverse, ← ih]
    simp [Rx.many, h1, Nat.add_comm 1]

/-- The first match among lengths in descending order. -/
theorem first_down {f : Nat → List Nat} {k m : Nat} (hk : (f k).head? = some m) : ∀ n, k ≤ n → (∀ j, k < j → j ≤ n → f j = []) →
    ((List.range (n + 1)).reverse.flatMap f).head? = some m
  | 0, h, _ => by
    have : k = 0 := Nat.le_zero.mp h
    subst this
    simpa using hk
  | n + 1, h, hj => by
    rw [List.range_succ, List.reverse_append, List.reverse_singleton, List.singleton_append, List.flatMap_cons]
    by_cases he : k = n + 1
    · subst he
      cases hf : f (n + 1) with
      | nil => rw [hf] at hk; cases hk
      | cons a l => rw [hf] at hk; simpa using hk
    · rw [hj (n + 1) (by omega) (Nat.le_refl _), List.nil_append]
      exact first_down hk n (by omega) (fun j h1 h2 => hj j h1 (by omega))

theorem three_mem {q : Char} {s : Str} {k : Nat} (h : k ∈ Rx.lens (Rx.lit [q, q, q]) s) : ∃ v, s = q :: q :: q :: v := by
  obtain ⟨i, j, hi, hj, rfl⟩ := mem_seq h
  obtain ⟨t, rfl, rfl⟩ := mem_ch hi
  obtain ⟨i', j', hi', hj', rfl⟩ := mem_seq hj
  rw [List.drop_succ_cons, List.drop_zero] at hi' hj'
  obtain ⟨t, rfl, rfl⟩ := mem_ch hi'
  rw [List.drop_succ_cons, List.drop_zero] at hj'
  obtain ⟨t, rfl, -⟩ := mem_ch hj'
  exact ⟨t, rfl⟩

theorem long_head {q : Char} {u z : Str} (hu : '\\' ∉ u) (hq : q ≠ '\\') (hz : '\\' ∉ z) (hqz : q ∉ z) :
    (Rx.lens (longOf q) (q :: q :: q :: (u ++ q :: q :: q :: z))).head? = some (3 + (u.length + 3)) := by
  have h3 : ∀ t : Str, (Rx.lens (Rx.lit [q, q, q]) (q :: q :: q :: t)).head? = some 3 := fun t => by simp [Rx.lit, Rx.lens, Rx.ch]
  refine seq_head (h3 _) ?_
  show (Rx.lens (Rx.seq (Rx.star (Rx.alt (Rx.cls (· != '\\')) escaped)) (Rx.lit [q, q, q])) (u ++ q :: q :: q :: z)).head? = _
  have hall := many_all (x := Rx.alt (Rx.cls (· != '\\')) escaped) (u ++ q :: q :: q :: z) _ (Nat.le_refl _) (by
    intro c hc t
    have hc' : c ≠ '\\' := by
      rintro rfl
      simp only [List.mem_append, List.mem_cons] at hc
      rcases hc with hc | hc | hc | hc | hc
      · exact hu hc
      · exact hq hc.symm
      · exact hq hc.symm
      · exact hq hc.symm
      · exact hz hc
    simp [Rx.lens, escaped, Rx.ch, hc']) rfl
  simp only [Rx.lens] at hall ⊢
  rw [hall]
  refine first_down (k := u.length) ?_ _ (by simp) ?_
  · rw [List.drop_left]
    simp [Rx.lit, Rx.lens, Rx.ch]
  · intro j h1 h2
    have : Rx.lens (Rx.lit [q, q, q]) ((u ++ q :: q :: q :: z).drop j) = [] := by
      cases hl : Rx.lens (Rx.lit [q, q, q]) ((u ++ q :: q :: q :: z).drop j) with
      | nil => rfl
      | cons k ks =>
        exfalso
        obtain ⟨v, hv⟩ := three_mem (k := k) (by rw [hl]; simp)
        obtain ⟨i, rfl⟩ := Nat.exists_eq_add_of_lt h1
        rw [show u.length + i + 1 = u.length + (i + 1) by omega, List.drop_length_add_append, List.drop_succ_cons] at hv
        match i, hv with
        | 0, hv =>
          injection hv with _ hv
          injection hv with _ hv
          exact hqz (by rw [hv]; simp)
        | 1, hv =>
          injection hv with _ hv
          exact hqz (by rw [hv]; simp)
        | i + 2, hv =>
          have : q ∈ z.drop i := by
            have hv : z.drop i = q :: q :: q :: v := hv
            rw [hv]
            simp
          exact hqz (List.mem_of_mem_drop this)
    rw [this]
    rfl

/-- **C108.** Two long strings in a text are joined with all that is between them: `'''a''' … '''b'''` is one token. -/
theorem C108_long_fails (q : Char) (hq : q = '\'' ∨ q = '"') (a m b : Str) (ha : '\\' ∉ a) (hm : '\\' ∉ m) (hb : '\\' ∉ b) :
    let s := [q, q, q] ++ a ++ [q, q, q] ++ m ++ [q, q, q] ++ b ++ [q, q, q]
    lex (s ++ ['\n']) = some [(K.longString, .str s), (K.newline, .str ['\n'])] := by
  intro s
  have hq' : q ≠ '\\' := by rcases hq with rfl | rfl <;> decide
  let u := a ++ [q, q, q] ++ m ++ [q, q, q] ++ b
  have hu : '\\' ∉ u := by
    simp only [u, List.mem_append, List.mem_cons, List.not_mem_nil, or_false]
    rintro ((((h | h) | h) | h) | h)
    · exact ha h
    · rcases h with h | h | h <;> exact hq' h.symm
    · exact hm h
    · rcases h with h | h | h <;> exact hq' h.symm
    · exact hb h
  have e : s ++ ['\n'] = q :: (q :: q :: (u ++ q :: q :: q :: ['\n'])) := by simp [s, u]
  have hqn : q ≠ '\n' := by rcases hq with rfl | rfl <;> decide
  have hh := long_head (q := q) (z := ['\n']) hu hq' (by simp) (by simpa using hqn)
  have hlong : (Rx.lens longString (q :: q :: q :: (u ++ q :: q :: q :: ['\n']))).head? = some (3 + (u.length + 3)) := by
    rcases hq with rfl | rfl
    · exact alt_left hh
    · have h0 : Rx.lens (longOf '\'') ('"' :: '"' :: '"' :: (u ++ '"' :: '"' :: '"' :: ['\n'])) = [] := starts_none _ (by decide)
      show (Rx.lens (Rx.alt (longOf '\'') (longOf '"')) _).head? = _
      rw [alt_right h0]
      exact hh
  have hp : pick (q :: (q :: q :: (u ++ q :: q :: q :: ['\n']))) initial = some (.give K.longString, 3 + (u.length + 3)) := by
    have := pick_starts (c := q) (t := q :: q :: (u ++ q :: q :: q :: ['\n'])) (initial.take 9) (rest := initial.drop 9) (by rcases hq with rfl | rfl <;> decide)
    rw [List.take_append_drop] at this
    rw [this]
    show pick _ ((longString, .give K.longString) :: initial.drop 10) = _
    rw [pick_take hlong]
  have hne : ∀ x : Char, x ≠ '\'' → x ≠ '"' → q ≠ x := by
    intro x h1 h2 e
    subst e
    exact hq.elim h1 h2
  have hr := round_of (d := 0) (hne _ (by decide) (by decide)) (hne _ (by decide) (by decide))
    (ignored_false (hne _ (by decide) (by decide)) (hne _ (by decide) (by decide)) (hne _ (by decide) (by decide))) hp
  have hl : 3 + (u.length + 3) = s.length := by simp [s, u]; omega
  rw [← e, hl] at hr
  have h1 : act 0 (s ++ ['\n']) s.length (.give K.longString) = .tok (K.longString, .str s) 0 ['\n'] := by
    simp only [act, List.take_left, List.drop_left]
  rw [h1] at hr
  have hpos : ∃ n, (s ++ ['\n']).length = n + 2 := ⟨s.length - 1, by simp [s]; omega⟩
  obtain ⟨n, hn⟩ := hpos
  unfold lex
  rw [hn, tokens, hr]
  simp only [tokens]
  rw [round_newline (t := []) (by simp)]
  rfl

/-! ## C109: from text to tree -/

/-- **C109.** A text has at most one tree. -/
theorem C109_unique (s : Str) (v v' : Val) (h : Reads s v) (h' : Reads s v') : v = v' := by
  obtain ⟨t, ht, hp⟩ := h
  obtain ⟨t', ht', hp'⟩ := h'
  rw [ht] at ht'
  cases ht'
  exact C105_unique _ _ _ hp hp'

/-- **C109.** An expression that is written as text is read as itself: names, tags, numbers and strings with their text, operators with their operands as the parentheses
and the precedences say. -/
theorem C109_expression (kind : Str → Nat) (hkind : ∀ s, kind s ∈ literalKinds) (e : Expr) (h : Fits e) (hs : Spelled kind e) :
    Reads (write (put kind e ++ [tk K.newline "\n"])) (.st (.seq [.exprs [e]])) :=
  ⟨_, C108_read_partial _ (plain_put hkind e hs 0 _ (full_newline [] trivial (by simp))), C106_expression_partial kind hkind e h _⟩

/-- **C109.** A program that is written as text is read as its statements. -/
theorem C109_program (kind : Str → Nat) (hkind : ∀ s, kind s ∈ literalKinds) (l : Line) (ls : Lines) (h : (Lines.cons l ls).Fits) (hs : (Lines.cons l ls).Spelled kind) :
    Reads (write ((Lines.cons l ls).put kind)) (.st (.seq (Lines.cons l ls).stmts)) := by
  refine ⟨_, C108_read_partial _ ?_, C107_program_partial kind hkind l ls h⟩
  have := full_lines hkind _ hs h [] trivial (by simp)
  simpa using this

/-- **C109.** Programs with the same text have the same statements. -/
theorem C109_injective (kind : Str → Nat) (hkind : ∀ s, kind s ∈ literalKinds) (l l' : Line) (ls ls' : Lines) (h : (Lines.cons l ls).Fits) (h' : (Lines.cons l' ls').Fits)
    (hs : (Lines.cons l ls).Spelled kind) (hs' : (Lines.cons l' ls').Spelled kind)
    (heq : write ((Lines.cons l ls).put kind) = write ((Lines.cons l' ls').put kind)) : (Lines.cons l ls).stmts = (Lines.cons l' ls').stmts := by
  have h1 := C109_program kind hkind l ls h hs
  have h2 := C109_program kind hkind l' ls' h' hs'
  rw [heq] at h1
  have := C109_unique _ _ _ h1 h2
  simpa using this

/-! ## Examples -/

instance (c : Char) : Decidable (Letter c) := inferInstanceAs (Decidable (_ ∨ _))
instance (c : Char) : Decidable (Digit c) := inferInstanceAs (Decidable (_ ∧ _))
instance : (s : Str) → Decidable (IsName s)
  | [] => .isFalse id
  | c :: r => inferInstanceAs (Decidable (Letter c ∧ (∀ x ∈ r, Letter x ∨ Digit x ∨ x = '_' ∨ x = '$') ∧ (∀ w ∈ reservedWords, w.toList ≠ c :: r) ∧ isElse (c :: r) = false))
instance (s : Str) : Decidable (IsInt s) := inferInstanceAs (Decidable (_ ∧ _))

theorem sampleExpr_spelled : Spelled sampleKind sampleExpr := by
  have hn : ∀ s : Str, IsName s → IsName s := fun _ h => h
  have hi : ∀ s : Str, sampleKind s = K.integer → IsInt s → Written (sampleKind s) s :=
    fun s h1 h2 => .inr (.inr (.inr (.inr (.inr (.inr (.inr (.inl ⟨h1, h2⟩)))))))
  have hq : ∀ s : Str, sampleKind s = K.shortString → IsShort s → Written (sampleKind s) s :=
    fun s h1 h2 => .inr (.inr (.inr (.inr (.inr (.inr (.inr (.inr (.inr (.inr ⟨h1, h2⟩)))))))))
  exact ⟨⟨⟨hn "a".toList (by decide +kernel), hn "b".toList (by decide +kernel)⟩,
    ⟨hi "2".toList (by decide) (by decide), hn "c".toList (by decide +kernel)⟩,
    ⟨hn "d".toList (by decide +kernel), hq "'e'".toList (by decide) ⟨'\'', ['e'], .inl rfl, by simp, rfl⟩⟩,
    ⟨hn "f".toList (by decide +kernel), hi "1".toList (by decide) (by decide), hi "2".toList (by decide) (by decide), trivial⟩, trivial⟩,
    hn "g".toList (by decide +kernel), ⟨(by decide), (by decide : ∀ x ∈ ['h'], Letter x ∨ Digit x ∨ x = '_')⟩, trivial, trivial⟩

/-- The text of the example. -/
example : write (put sampleKind sampleExpr) = "not a . b + - 2 ** - c * ( d or 'e' , f [ 1 : 2 ] ) in g ( _h , [ ] ) ".toList := by decide +kernel

example : Reads "not a . b + - 2 ** - c * ( d or 'e' , f [ 1 : 2 ] ) in g ( _h , [ ] ) \n".toList (.st (.seq [.exprs [sampleExpr]])) := by
  have := C109_expression sampleKind sampleKind_ok sampleExpr sampleExpr_fits sampleExpr_spelled
  rwa [show write (put sampleKind sampleExpr ++ [tk K.newline "\n"]) = "not a . b + - 2 ** - c * ( d or 'e' , f [ 1 : 2 ] ) in g ( _h , [ ] ) \n".toList by decide +kernel] at this

theorem sampleProgram_spelled : sampleProgram.Spelled sampleKind := by
  have hn : ∀ s : Str, IsName s → IsName s := fun _ h => h
  have hi : ∀ s : Str, sampleKind s = K.integer → IsInt s → Written (sampleKind s) s :=
    fun s h1 h2 => .inr (.inr (.inr (.inr (.inr (.inr (.inr (.inl ⟨h1, h2⟩)))))))
  simp only [sampleProgram, Lines.Spelled, Line.Spelled, Body.Spelled, Elses.Spelled, SpelledSmall, SpelledAll, Spelled, List.not_mem_nil, false_imp_iff, implies_true,
    and_true, List.mem_singleton, forall_eq]
  exact ⟨⟨hn "x".toList (by decide +kernel), ⟨"=", by decide, rfl⟩, hi "0".toList (by decide) (by decide)⟩,
    hn "a".toList (by decide +kernel), hn "atom".toList (by decide +kernel), hn "i".toList (by decide +kernel), hn "n".toList (by decide +kernel),
    ⟨⟨hn "i".toList (by decide +kernel), hi "3".toList (by decide) (by decide)⟩,
      ⟨hn "x".toList (by decide +kernel), ⟨"+=", by decide, rfl⟩, hn "a".toList (by decide +kernel), hn "z".toList (by decide +kernel)⟩,
      hn "y".toList (by decide +kernel), trivial, sampleExpr_spelled⟩,
    hn "f".toList (by decide +kernel)⟩

example : Reads (write (sampleProgram.put sampleKind)) (.st (.seq sampleProgram.stmts)) :=
  C109_program sampleKind sampleKind_ok _ _ sampleProgram_fits sampleProgram_spelled

/-- The kinds and texts of tokens. -/
def shown (s : String) : Option (List (Nat × Str)) := (lex s.toList).map (·.map fun t => (t.1, text t))

/-- Comments, escaped ends of lines and ends of lines in parentheses are left out, and numbers with a base are in decimal digits. -/
example : shown "f(a,\n 0x1F) \\\n # b\n" = some [(K.id, "f".toList), (K.openParen, "(".toList), (K.id, "a".toList), (K.comma, ",".toList), (K.hexint, "31".toList),
    (K.closeParen, ")".toList), (K.newline, "\n".toList)] := by decide +kernel

/-- Two long strings. -/
example : lex "'''a''' + '''b'''\n".toList = some [(K.longString, .str "'''a''' + '''b'''".toList), (K.newline, .str ['\n'])] :=
  C108_long_fails '\'' (.inl rfl) ['a'] " + ".toList ['b'] (by decide) (by decide) (by decide)

/-- An escaped quote. -/
example : shown "'a\\'b\n" = some [(K.shortString, "'a\\'".toList), (K.id, "b".toList), (K.newline, "\n".toList)] := by decide +kernel

/-- `else` and a name. -/
example : shown "else iffy\n" = some [(K.elseif, "else if".toList), (K.id, "fy".toList), (K.newline, "\n".toList)] := by decide +kernel

end Drel
end Verif
