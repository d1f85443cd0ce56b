import Verif.Lemmas.DrelLex
/-! # Reading single tokens -/
namespace Verif
namespace Drel
namespace Lex
open LR Rx

/-- The rules of both states, with those for parentheses of the state `paren` first. -/
theorem pick_rules {d : Nat} {c : Char} {t : Str} (h1 : c ≠ '(') (h2 : c ≠ ')') : pick (c :: t) (rules d) = pick (c :: t) initial := by
  cases d with
  | zero => rfl
  | succ d =>
    have e1 : lens (ch '(') (c :: t) = [] := starts_none _ (by simpa [starts, ch] using h1)
    have e2 : lens (ch ')') (c :: t) = [] := starts_none _ (by simpa [starts, ch] using h2)
    unfold rules
    rw [pick_skip e1, pick_skip e2]

theorem round_of {d : Nat} {c : Char} {t : Str} {a : Todo} {k : Nat} (h1 : c ≠ '(') (h2 : c ≠ ')') (hi : ignored d c = false)
    (h : pick (c :: t) initial = some (a, k)) : round d (c :: t) = act d (c :: t) k a := by
  simp only [round, hi, Bool.false_eq_true, if_false, pick_rules h1 h2, h]

theorem round_single {d : Nat} {c : Char} {t : Str} (h1 : c ≠ '(') (h2 : c ≠ ')') (hi : ignored d c = false)
    (h : pick (c :: t) initial = none) : round d (c :: t) = single d c t := by
  simp only [round, hi, Bool.false_eq_true, if_false, pick_rules h1 h2, h]

theorem ignored_false {d : Nat} {c : Char} (h1 : c ≠ ' ') (h2 : c ≠ '\t') (h3 : c ≠ '\n') : ignored d c = false := by
  simp [ignored, h1, h2, h3]

theorem round_blank (d : Nat) (r : Str) : round d (' ' :: r) = .skip d r := rfl

/-! ## Characters -/

theorem alpha_iff {c : Char} : alpha c = true ↔ Letter c := by simp [alpha, Letter]

theorem digit_iff {c : Char} : digit c = true ↔ Digit c := by simp [digit, Digit]

theorem alpha_digit {c : Char} (h : alpha c = true) : digit c = false := by
  simp only [alpha, Bool.or_eq_true, Bool.and_eq_true, decide_eq_true_eq, Char.le_def, UInt32.le_iff_toNat_le] at h
  simp only [digit, Bool.and_eq_false_iff, decide_eq_false_iff_not, Char.le_def, UInt32.le_iff_toNat_le]
  simp only [Char.reduceVal, UInt32.reduceToNat] at h ⊢
  omega

theorem alpha_ne {c d : Char} (h : alpha c = true) (hd : alpha d = false) : c ≠ d := fun e => by rw [e, hd] at h; cases h

theorem digit_ne {c d : Char} (h : digit c = true) (hd : digit d = false) : c ≠ d := fun e => by rw [e, hd] at h; cases h

theorem id_ne {c d : Char} (h : idChar c = true) (hd : idChar d = false) : c ≠ d := fun e => by rw [e, hd] at h; cases h

theorem idChar_iff {c : Char} : idChar c = true ↔ (Letter c ∨ Digit c ∨ c = '_' ∨ c = '$') := by
  simp [idChar, alpha_iff, digit_iff, or_assoc]

theorem idChar_space {c : Char} (h : idChar c = true) : isSpace c = false := by
  rw [idChar_iff] at h
  have h' : (97 ≤ c.val.toNat ∧ c.val.toNat ≤ 122) ∨ (65 ≤ c.val.toNat ∧ c.val.toNat ≤ 90) ∨ (48 ≤ c.val.toNat ∧ c.val.toNat ≤ 57) ∨ c.val.toNat = 95 ∨ c.val.toNat = 36 := by
    simp only [Letter, Digit, Char.le_def, UInt32.le_iff_toNat_le] at h
    simp only [Char.reduceVal, UInt32.reduceToNat] at h
    rcases h with (h | h) | h | rfl | rfl
    · exact .inl h
    · exact .inr (.inl h)
    · exact .inr (.inr (.inl h))
    · exact .inr (.inr (.inr (.inl rfl)))
    · exact .inr (.inr (.inr (.inr rfl)))
  unfold isSpace
  simp only [Char.toNat, Bool.or_eq_false_iff, Bool.and_eq_false_iff, decide_eq_false_iff_not, beq_eq_false_iff_ne]
  omega

/-! ## Separators -/

theorem sep_not {p : Char → Bool} (h : separators.all (fun c => !p c) = true) {x : Char} (hx : x ∈ separators) : p x = false := by
  simpa using List.all_eq_true.mp h x hx

theorem sep_ne {x c : Char} (hx : x ∈ separators) (hc : c ∉ separators) : x ≠ c := fun e => hc (e ▸ hx)

/-! ## Words -/

theorem strPrefix_none {c d : Char} {t : Str} (hd : d ≠ '"' ∧ d ≠ '\'') (ht : d ∈ separators ∨ ∀ e ∈ t.head?, e ≠ '"' ∧ e ≠ '\'') :
    lens strPrefix (c :: d :: t) = [] := by
  have q1 : lens quoteNext (d :: t) = [] := by simp [quoteNext, two, lens, hd.1, hd.2]
  have a1 : ∀ x : Char, lens (seq (ch x) quoteNext) (c :: d :: t) = [] := by
    intro x
    simp only [lens, ch]
    split <;> simp [q1]
  have a2 : ∀ x y : Char, y ∉ separators → lens (seqs [ch x, ch y, quoteNext]) (c :: d :: t) = [] := by
    intro x y hy
    rcases ht with ht | ht
    · have hdy : d ≠ y := fun e => hy (e ▸ ht)
      simp only [seqs, lens, ch]
      split <;> simp [hdy]
    · have q2 : lens quoteNext t = [] := by
        cases t with
        | nil => rfl
        | cons e t =>
          have := ht e (by simp)
          simp [quoteNext, two, lens, this.1, this.2]
      simp only [seqs, lens, ch]
      split
      · simp only [List.flatMap_cons, List.flatMap_nil, List.drop_succ_cons, List.drop_zero, List.append_nil]
        split <;> simp [q2]
      · rfl
  exact alt_none (a1 _) (alt_none (a1 _) (alt_none (a1 _) (alt_none (a1 _) (alt_none (a2 _ _ (by decide)) (alt_none (a2 _ _ (by decide))
    (alt_none (a2 _ _ (by decide)) (a2 _ _ (by decide))))))))

/-- One of two characters, or no match. -/
theorem two_none {a b c : Char} {t : Str} (h1 : c ≠ a) (h2 : c ≠ b) : lens (two a b) (c :: t) = [] := by simp [two, lens, h1, h2]

/-- Passing over one character. -/
theorem seq_two_none {a b c : Char} {t : Str} {r : Rx} (h : (c = a ∨ c = b) → lens r t = []) : lens (seq (two a b) r) (c :: t) = [] := by
  by_cases hc : c = a ∨ c = b
  · have h1 : lens (two a b) (c :: t) = [1] := by rcases hc with rfl | rfl <;> simp [two, lens]
    simp [lens, h1, h hc]
  · have h1 : lens (two a b) (c :: t) = [] := two_none (fun e => hc (.inl e)) (fun e => hc (.inr e))
    simp [lens, h1]

theorem elseif_none {x : Char} (hx : x ∈ separators) {s : Str} (hs : ∀ c ∈ s, idChar c = true) (he : isElse s = false) (r : Str) : lens elseif (s ++ x :: r) = [] := by
  have sp : ∀ {c : Char} {t : Str} {r : Rx}, idChar c = true → lens (seq (plus (cls isSpace)) r) (c :: t) = [] := by
    intro c t r hc
    exact seq_none (seq_none (by simp [lens, idChar_space hc]))
  match s, hs, he with
  | [], _, _ => exact starts_none _ (sep_not (p := starts elseif) (by decide) hx)
  | [a], hs, _ => exact seq_two_none fun _ => starts_none _ (sep_not (by decide) hx)
  | [a, b], hs, _ => exact seq_two_none fun _ => seq_two_none fun _ => starts_none _ (sep_not (by decide) hx)
  | [a, b, c], hs, _ => exact seq_two_none fun _ => seq_two_none fun _ => seq_two_none fun _ => starts_none _ (sep_not (by decide) hx)
  | [a, b, c, d], hs, he =>
    refine seq_two_none fun h1 => seq_two_none fun h2 => seq_two_none fun h3 => seq_two_none fun h4 => ?_
    rcases h1 with rfl | rfl <;> rcases h2 with rfl | rfl <;> rcases h3 with rfl | rfl <;> rcases h4 with rfl | rfl <;> cases he
  | a :: b :: c :: d :: e :: t, hs, _ =>
    exact seq_two_none fun _ => seq_two_none fun _ => seq_two_none fun _ => seq_two_none fun _ => sp (hs e (by simp))

theorem starts_lit {a c : Char} {w : Str} (h : c ≠ a) : starts (lit (a :: w)) c = false := by
  have : starts (ch a) c = false := by simpa [starts, ch] using h
  cases w with
  | nil => exact this
  | cons b w => exact this

theorem alpha_starts {c : Char} (h : alpha c = true) : [augop, ch '(', imaginary, real, binint, octint, hexint, digits].all (fun r => !starts r c) = true := by
  have hd := alpha_digit h
  have n : ∀ d : Char, alpha d = false → (c == d) = false := fun d hd => by simpa using alpha_ne h hd
  have ha : starts augop c = false := by
    have e : starts augop c = (starts (lit "++=".toList) c || (starts (lit "+=".toList) c || (starts (lit "-=".toList) c || (starts (lit "--=".toList) c ||
      (starts (lit "*=".toList) c || starts (lit "/=".toList) c))))) := rfl
    rw [e]
    have l1 : starts (lit "++=".toList) c = false := starts_lit (alpha_ne h (by decide))
    have l2 : starts (lit "+=".toList) c = false := starts_lit (alpha_ne h (by decide))
    have l3 : starts (lit "-=".toList) c = false := starts_lit (alpha_ne h (by decide))
    have l4 : starts (lit "--=".toList) c = false := starts_lit (alpha_ne h (by decide))
    have l5 : starts (lit "*=".toList) c = false := starts_lit (alpha_ne h (by decide))
    have l6 : starts (lit "/=".toList) c = false := starts_lit (alpha_ne h (by decide))
    rw [l1, l2, l3, l4, l5, l6]; rfl
  simp only [List.all_cons, List.all_nil, Bool.and_true, ha, starts, imaginary, real, binint, octint, hexint, digits, plus, seqs, ch,
    hd, n '(' (by decide), n '.' (by decide), n '0' (by decide)]
  decide

/-- Words: names and reserved words. -/
theorem pick_word {x : Char} (hx : x ∈ separators) {c : Char} {w : Str} (hc : alpha c = true) (hw : ∀ x ∈ w, idChar x = true) (he : isElse (c :: w) = false) (r : Str) :
    pick (c :: (w ++ x :: r)) initial = some (.word, w.length + 1) := by
  have hci : idChar c = true := by simp [idChar, hc]
  have hs := alpha_starts hc
  simp only [List.all_cons, List.all_nil, Bool.and_true, Bool.and_eq_true, Bool.not_eq_true'] at hs
  obtain ⟨s1, s2, s3, s4, s5, s6, s7, s8⟩ := hs
  have n : ∀ d : Char, alpha d = false → (c == d) = false := fun d hd => by simpa using alpha_ne hc hd
  have nq : ∀ x : Char, idChar x = true → x ≠ '"' ∧ x ≠ '\'' := fun x hx => ⟨id_ne hx (by decide), id_ne hx (by decide)⟩
  have hp : lens strPrefix (c :: (w ++ x :: r)) = [] := by
    match w, hw with
    | [], _ => exact strPrefix_none ⟨sep_ne hx (by decide), sep_ne hx (by decide)⟩ (.inl hx)
    | [d], hw => exact strPrefix_none (nq d (hw d (by simp))) (.inr (by
      intro e he
      have he : some x = some e := he
      injection he with he
      subst he
      exact ⟨sep_ne hx (by decide), sep_ne hx (by decide)⟩))
    | d :: e :: w, hw => exact strPrefix_none (nq d (hw d (by simp))) (.inr (by simpa using nq e (hw e (by simp))))
  have hl : lens longString (c :: (w ++ x :: r)) = [] :=
    starts_none _ (by simp only [starts, longString, longOf, seqs, lit, ch, n '\'' (by decide), n '"' (by decide)]; decide)
  have hsh : lens shortString (c :: (w ++ x :: r)) = [] :=
    starts_none _ (by simp only [starts, shortString, shortOf, seqs, ch, n '\'' (by decide), n '"' (by decide)]; decide)
  have hei : lens elseif (c :: (w ++ x :: r)) = [] := elseif_none hx (s := c :: w) (by simpa [hci] using hw) he r
  have hid : (lens ident (c :: (w ++ x :: r))).head? = some (1 + w.length) :=
    seq_head (cls_head hc) (starCls_head (s := w) (t := x :: r) hw (by simpa using sep_not (p := idChar) (by decide) hx))
  unfold initial
  rw [pick_skip (starts_none _ s1), pick_skip (starts_none _ s2), pick_skip (starts_none _ s3), pick_skip (starts_none _ s4), pick_skip (starts_none _ s5),
    pick_skip (starts_none _ s6), pick_skip (starts_none _ s7), pick_skip (starts_none _ s8), pick_skip hp, pick_skip hl, pick_skip hsh, pick_skip hei,
    pick_take hid, Nat.add_comm]

theorem round_word {x : Char} (hx : x ∈ separators) {c : Char} {w : Str} (hc : alpha c = true) (hw : ∀ x ∈ w, idChar x = true) (he : isElse (c :: w) = false) (d : Nat) (r : Str) :
    round d (c :: w ++ x :: r) = .tok ((dget reserved (c :: w)).getD K.id, .str (c :: w)) d (x :: r) := by
  have h := round_of (d := d) (alpha_ne hc (by decide)) (alpha_ne hc (by decide))
    (ignored_false (alpha_ne hc (by decide)) (alpha_ne hc (by decide)) (alpha_ne hc (by decide))) (pick_word hx hc hw he r)
  rw [List.cons_append, h]
  have h1 : (c :: (w ++ x :: r)).take (w.length + 1) = c :: w := by simp
  have h2 : (c :: (w ++ x :: r)).drop (w.length + 1) = x :: r := by simp
  simp only [act, h1, h2]

theorem round_elseif {x : Char} (d : Nat) (r : Str) : round d ("else if".toList ++ x :: r) = .tok (K.elseif, .str "else if".toList) d (x :: r) := by
  have hs := alpha_starts (c := 'e') (by decide)
  simp only [List.all_cons, List.all_nil, Bool.and_true, Bool.and_eq_true, Bool.not_eq_true'] at hs
  obtain ⟨s1, s2, s3, s4, s5, s6, s7, s8⟩ := hs
  have sp : (lens (plus (cls isSpace)) (' ' :: 'i' :: 'f' :: x :: r)).head? = some 1 :=
    plusCls_head (s := [' ']) (t := 'i' :: 'f' :: x :: r) (by simp) (by decide) (by simp; decide)
  have tw : ∀ (a b : Char) (t : Str), (lens (two a b) (a :: t)).head? = some 1 ∧ (lens (two a b) (b :: t)).head? = some 1 := fun a b t => by simp [two, lens]
  have he : (lens elseif ('e' :: 'l' :: 's' :: 'e' :: ' ' :: 'i' :: 'f' :: x :: r)).head? = some 7 :=
    seq_head (tw _ _ _).2 (seq_head (tw _ _ _).2 (seq_head (tw _ _ _).2 (seq_head (tw _ _ _).2 (seq_head sp (seq_head (tw _ _ _).2 (tw _ _ _).2)))))
  have hp : pick ('e' :: 'l' :: 's' :: 'e' :: ' ' :: 'i' :: 'f' :: x :: r) initial = some (.give K.elseif, 7) := by
    have hpre : lens strPrefix ('e' :: 'l' :: 's' :: 'e' :: ' ' :: 'i' :: 'f' :: x :: r) = [] := starts_none _ (by decide)
    have hl : lens longString ('e' :: 'l' :: 's' :: 'e' :: ' ' :: 'i' :: 'f' :: x :: r) = [] := starts_none _ (by decide)
    have hsh : lens shortString ('e' :: 'l' :: 's' :: 'e' :: ' ' :: 'i' :: 'f' :: x :: r) = [] := starts_none _ (by decide)
    unfold initial
    rw [pick_skip (starts_none _ s1), pick_skip (starts_none _ s2), pick_skip (starts_none _ s3), pick_skip (starts_none _ s4), pick_skip (starts_none _ s5),
      pick_skip (starts_none _ s6), pick_skip (starts_none _ s7), pick_skip (starts_none _ s8), pick_skip hpre, pick_skip hl, pick_skip hsh, pick_take he]
  exact round_of (d := d) (by decide) (by decide) (ignored_false (by decide) (by decide) (by decide)) hp

theorem op_assign {x : Char} (hx : x ∈ separators) (d : Nat) (r : Str) : round d ('=' :: x :: r) = .tok (K.assign, .str ['=']) d (x :: r) := by
  simp only [separators, List.mem_cons, List.not_mem_nil, or_false] at hx
  rcases hx with rfl | rfl | rfl | rfl | rfl | rfl | rfl | rfl | rfl | rfl | rfl | rfl | rfl | rfl | rfl | rfl <;> cases d <;> rfl

theorem op_lt {x : Char} (hx : x ∈ separators) (d : Nat) (r : Str) : round d ('<' :: x :: r) = .tok (K.lt, .str ['<']) d (x :: r) := by
  simp only [separators, List.mem_cons, List.not_mem_nil, or_false] at hx
  rcases hx with rfl | rfl | rfl | rfl | rfl | rfl | rfl | rfl | rfl | rfl | rfl | rfl | rfl | rfl | rfl | rfl <;> cases d <;> rfl

theorem op_gt {x : Char} (hx : x ∈ separators) (d : Nat) (r : Str) : round d ('>' :: x :: r) = .tok (K.gt, .str ['>']) d (x :: r) := by
  simp only [separators, List.mem_cons, List.not_mem_nil, or_false] at hx
  rcases hx with rfl | rfl | rfl | rfl | rfl | rfl | rfl | rfl | rfl | rfl | rfl | rfl | rfl | rfl | rfl | rfl <;> cases d <;> rfl

theorem op_plus {x : Char} (hx : x ∈ separators) (d : Nat) (r : Str) : round d ('+' :: x :: r) = .tok (K.plus, .str ['+']) d (x :: r) := by
  simp only [separators, List.mem_cons, List.not_mem_nil, or_false] at hx
  rcases hx with rfl | rfl | rfl | rfl | rfl | rfl | rfl | rfl | rfl | rfl | rfl | rfl | rfl | rfl | rfl | rfl <;> cases d <;> rfl

theorem op_minus {x : Char} (hx : x ∈ separators) (d : Nat) (r : Str) : round d ('-' :: x :: r) = .tok (K.minus, .str ['-']) d (x :: r) := by
  simp only [separators, List.mem_cons, List.not_mem_nil, or_false] at hx
  rcases hx with rfl | rfl | rfl | rfl | rfl | rfl | rfl | rfl | rfl | rfl | rfl | rfl | rfl | rfl | rfl | rfl <;> cases d <;> rfl

theorem op_times {x : Char} (hx : x ∈ separators) (d : Nat) (r : Str) : round d ('*' :: x :: r) = .tok (K.star, .str ['*']) d (x :: r) := by
  simp only [separators, List.mem_cons, List.not_mem_nil, or_false] at hx
  rcases hx with rfl | rfl | rfl | rfl | rfl | rfl | rfl | rfl | rfl | rfl | rfl | rfl | rfl | rfl | rfl | rfl <;> cases d <;> rfl

theorem op_slash {x : Char} (hx : x ∈ separators) (d : Nat) (r : Str) : round d ('/' :: x :: r) = .tok (K.slash, .str ['/']) d (x :: r) := by
  simp only [separators, List.mem_cons, List.not_mem_nil, or_false] at hx
  rcases hx with rfl | rfl | rfl | rfl | rfl | rfl | rfl | rfl | rfl | rfl | rfl | rfl | rfl | rfl | rfl | rfl <;> cases d <;> rfl

theorem op_amp {x : Char} (hx : x ∈ separators) (d : Nat) (r : Str) : round d ('&' :: x :: r) = .tok (K.amp, .str ['&']) d (x :: r) := by
  simp only [separators, List.mem_cons, List.not_mem_nil, or_false] at hx
  rcases hx with rfl | rfl | rfl | rfl | rfl | rfl | rfl | rfl | rfl | rfl | rfl | rfl | rfl | rfl | rfl | rfl <;> cases d <;> rfl

theorem op_bar {x : Char} (hx : x ∈ separators) (d : Nat) (r : Str) : round d ('|' :: x :: r) = .tok (K.bar, .str ['|']) d (x :: r) := by
  simp only [separators, List.mem_cons, List.not_mem_nil, or_false] at hx
  rcases hx with rfl | rfl | rfl | rfl | rfl | rfl | rfl | rfl | rfl | rfl | rfl | rfl | rfl | rfl | rfl | rfl <;> cases d <;> rfl

theorem op_dot {x : Char} (hx : x ∈ separators) (d : Nat) (r : Str) : round d ('.' :: x :: r) = .tok (K.dot, .str ['.']) d (x :: r) := by
  simp only [separators, List.mem_cons, List.not_mem_nil, or_false] at hx
  rcases hx with rfl | rfl | rfl | rfl | rfl | rfl | rfl | rfl | rfl | rfl | rfl | rfl | rfl | rfl | rfl | rfl <;> cases d <;> rfl

/-- Words and signs. -/
theorem round_sign {x : Char} (hx : x ∈ separators) {k : Nat} {w : String} (h : (k, w) ∈ signs) (d : Nat) (r : Str) : round d (w.toList ++ x :: r) = .tok (k, .str w.toList) d (x :: r) := by
  have word : ∀ (k : Nat) (c : Char) (w : Str), alpha c = true → w.all idChar = true → isElse (c :: w) = false → (dget reserved (c :: w)).getD K.id = k →
      round d (c :: w ++ x :: r) = .tok (k, .str (c :: w)) d (x :: r) := by
    intro k c w h1 h2 h3 h4
    have := round_word hx h1 (List.all_eq_true.mp h2) h3 d r
    rwa [h4] at this
  have hs : round d ("else if".toList ++ x :: r) = .tok (K.elseif, .str "else if".toList) d (x :: r) := round_elseif d r
  simp only [signs, List.mem_cons, Prod.mk.injEq, List.not_mem_nil, or_false] at h
  rcases h with ⟨rfl, rfl⟩ | ⟨rfl, rfl⟩ | ⟨rfl, rfl⟩ | ⟨rfl, rfl⟩ | ⟨rfl, rfl⟩ | ⟨rfl, rfl⟩ | ⟨rfl, rfl⟩ | ⟨rfl, rfl⟩ | ⟨rfl, rfl⟩ | ⟨rfl, rfl⟩ | ⟨rfl, rfl⟩ |
    ⟨rfl, rfl⟩ | ⟨rfl, rfl⟩ | ⟨rfl, rfl⟩ | ⟨rfl, rfl⟩ | ⟨rfl, rfl⟩ | ⟨rfl, rfl⟩ | ⟨rfl, rfl⟩ | ⟨rfl, rfl⟩ | ⟨rfl, rfl⟩ | ⟨rfl, rfl⟩ | ⟨rfl, rfl⟩ | ⟨rfl, rfl⟩ |
    ⟨rfl, rfl⟩ | ⟨rfl, rfl⟩ | ⟨rfl, rfl⟩ | ⟨rfl, rfl⟩ | ⟨rfl, rfl⟩ | ⟨rfl, rfl⟩ | ⟨rfl, rfl⟩ | ⟨rfl, rfl⟩ | ⟨rfl, rfl⟩ | ⟨rfl, rfl⟩ | ⟨rfl, rfl⟩ | ⟨rfl, rfl⟩ |
    ⟨rfl, rfl⟩ | ⟨rfl, rfl⟩ | ⟨rfl, rfl⟩ | ⟨rfl, rfl⟩ | ⟨rfl, rfl⟩ | ⟨rfl, rfl⟩ | ⟨rfl, rfl⟩ | ⟨rfl, rfl⟩ | ⟨rfl, rfl⟩ | ⟨rfl, rfl⟩ | ⟨rfl, rfl⟩ | ⟨rfl, rfl⟩ |
    ⟨rfl, rfl⟩
  all_goals first
    | exact word _ _ _ (by decide) (by decide) (by decide) (by decide)
    | exact hs
    | (cases d <;> rfl; done)
    | exact op_assign hx d r
    | exact op_lt hx d r
    | exact op_gt hx d r
    | exact op_plus hx d r
    | exact op_minus hx d r
    | exact op_times hx d r
    | exact op_slash hx d r
    | exact op_amp hx d r
    | exact op_bar hx d r
    | exact op_dot hx d r

/-! ## Parentheses and ends of lines -/

theorem round_open (d : Nat) (r : Str) : round d ('(' :: r) = .tok (K.openParen, .str ['(']) (d + 1) r := by cases d <;> rfl

theorem round_close (d : Nat) (r : Str) : round (d + 1) (')' :: r) = .tok (K.closeParen, .str [')']) d r := rfl

theorem round_newline {t : Str} (h : ∀ c ∈ t.head?, c ≠ '\n' ∧ c ≠ ' ' ∧ c ≠ '\t') : round 0 ('\n' :: t) = .tok (K.newline, .str ['\n']) 0 t := by
  have hn : (lens newline ('\n' :: t)).head? = some 1 := by
    have := seq_head (s := '\n' :: t) (a := ch '\n') (k := 1) (cls_head (by decide)) (starCls_head (p := fun c => c == '\n' || c == ' ' || c == '\t') (s := []) (t := t) (by simp) (by
      intro c hc
      have := h c hc
      simp [this.1, this.2.1, this.2.2]))
    exact this
  have hp : pick ('\n' :: t) initial = some (.give K.newline, 1) := by
    have := pick_starts (c := '\n') (t := t) (initial.take 15) (rest := initial.drop 15) (by decide)
    rw [List.take_append_drop] at this
    rw [this]
    exact pick_take hn
  have := round_of (d := 0) (by decide) (by decide) (by decide) hp
  rw [this]
  rfl

/-! ## `else` -/

/-- After white space there is no `if`. -/
def NoIfText (s : Str) : Prop := ∀ k, (∀ c ∈ s.take k, isSpace c = true) → lens (seq (two 'I' 'i') (two 'F' 'f')) (s.drop k) = []

theorem elseif_else {x : Char} {r : Str} (h : isSpace x = true → NoIfText r) : lens elseif ("else".toList ++ x :: r) = [] := by
  refine seq_two_none fun _ => seq_two_none fun _ => seq_two_none fun _ => seq_two_none fun _ => ?_
  show lens (seq (plus (cls isSpace)) (seqs [two 'I' 'i', two 'F' 'f'])) (x :: r) = []
  simp only [lens, List.flatMap_eq_nil_iff]
  intro k hk
  have hw := within_mem (A := fun c => isSpace c = true) (plus (cls isSpace)) ⟨fun _ h => h, fun _ h => h⟩ (x :: r) k hk
  have hpos : 0 < k := by
    rcases Nat.eq_zero_or_pos k with rfl | h
    · have := needs_mem (q := fun _ => True) (plus (cls isSpace)) (.inl fun _ _ => trivial) _ _ hk
      simp at this
    · exact h
  obtain ⟨k, rfl⟩ := Nat.exists_eq_add_of_lt hpos
  rw [Nat.zero_add] at hw ⊢
  rw [Nat.zero_add] at hk
  have := h (hw x (by simp)) k (by
    intro c hc
    exact hw c (by simp only [List.take_succ_cons]; exact List.mem_cons_of_mem _ hc))
  simpa [seqs, lens] using this

theorem round_else {x : Char} (hx : x ∈ separators) {r : Str} (h : isSpace x = true → NoIfText r) (d : Nat) : round d ("else".toList ++ x :: r) = .tok (K.else_, .str "else".toList) d (x :: r) := by
  have hs := alpha_starts (c := 'e') (by decide)
  simp only [List.all_cons, List.all_nil, Bool.and_true, Bool.and_eq_true, Bool.not_eq_true'] at hs
  obtain ⟨s1, s2, s3, s4, s5, s6, s7, s8⟩ := hs
  have he := elseif_else (x := x) h
  have hid : (lens ident ('e' :: ("lse".toList ++ x :: r))).head? = some (1 + 3) :=
    seq_head (cls_head (by decide)) (starCls_head (s := "lse".toList) (t := x :: r) (by decide) (by simpa using sep_not (p := idChar) (by decide) hx))
  have hp : pick ('e' :: ("lse".toList ++ x :: r)) initial = some (.word, 4) := by
    have hpre : lens strPrefix ('e' :: ("lse".toList ++ x :: r)) = [] := starts_none _ (by decide)
    have hl : lens longString ('e' :: ("lse".toList ++ x :: r)) = [] := starts_none _ (by decide)
    have hsh : lens shortString ('e' :: ("lse".toList ++ x :: r)) = [] := starts_none _ (by decide)
    unfold initial
    rw [pick_skip (starts_none _ s1), pick_skip (starts_none _ s2), pick_skip (starts_none _ s3), pick_skip (starts_none _ s4), pick_skip (starts_none _ s5),
      pick_skip (starts_none _ s6), pick_skip (starts_none _ s7), pick_skip (starts_none _ s8), pick_skip hpre, pick_skip hl, pick_skip hsh,
      pick_skip (show lens elseif ('e' :: ("lse".toList ++ x :: r)) = [] from he), pick_take hid]
  exact round_of (d := d) (by decide) (by decide) (ignored_false (by decide) (by decide) (by decide)) hp

/-! ## Names of items -/

theorem tagChar_iff {c : Char} : tagChar c = true ↔ (Letter c ∨ Digit c ∨ c = '_') := by simp [tagChar, alpha_iff, digit_iff, or_assoc]

theorem round_tag {x : Char} (hx : x ∈ separators) {w : Str} (hn : w ≠ []) (hw : ∀ x ∈ w, tagChar x = true) (d : Nat) (r : Str) :
    round d ('_' :: (w ++ x :: r)) = .tok (K.itemTag, .str ('_' :: w)) d (x :: r) := by
  have hm : (lens itemTag ('_' :: (w ++ x :: r))).head? = some (1 + w.length) :=
    seq_head (cls_head (by decide)) (plusCls_head (s := w) (t := x :: r) hn hw (by simpa using sep_not (p := tagChar) (by decide) hx))
  have hp : pick ('_' :: (w ++ x :: r)) initial = some (.give K.itemTag, 1 + w.length) := by
    have := pick_starts (c := '_') (t := w ++ x :: r) (initial.take 13) (rest := initial.drop 13) (by decide)
    rw [List.take_append_drop] at this
    rw [this]
    exact pick_take hm
  rw [round_of (d := d) (by decide) (by decide) (ignored_false (by decide) (by decide) (by decide)) hp]
  have h1 : ('_' :: (w ++ x :: r)).take (1 + w.length) = '_' :: w := by rw [Nat.add_comm]; simp
  have h2 : ('_' :: (w ++ x :: r)).drop (1 + w.length) = x :: r := by rw [Nat.add_comm]; simp
  simp only [act, h1, h2]

end Lex
end Drel
end Verif
