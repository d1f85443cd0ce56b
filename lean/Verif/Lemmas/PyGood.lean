import Verif.Lemmas.PyParse
/-! # Texts that are read as given expressions, wherever they stand -/
namespace Verif
namespace PyText

/-- No attribute, call or subscript follows. -/
def noTrailer : List Tok → Prop
  | .op o :: _ => o ≠ ".".toList ∧ o ≠ "(".toList ∧ o ≠ "[".toList
  | _ => True

/-- The operator that follows, if any, does not take away the right end of an expression of precedence `lvl`. -/
def Looser (lvl : Nat) (rest : List Tok) : Prop :=
  noTrailer rest ∧ ∀ o q r, infix_ rest = some (o, q, r) → q ≤ lvl ∧ (lvl = 4 → q < 4) ∧ (lvl = 10 → q < 9)

/-- A token at the beginning of an atom. -/
def atomTok : Tok → Prop
  | .word w => w ≠ "not".toList
  | .op o => o ≠ "-".toList ∧ o ≠ "+".toList ∧ o ≠ "}".toList ∧ o ≠ ")".toList ∧ o ≠ "]".toList ∧ o ≠ ":".toList ∧ o ≠ ",".toList
  | _ => True

/-- A token at the beginning of an expression. -/
def exprTok : Tok → Prop
  | .op o => o ≠ "}".toList ∧ o ≠ ")".toList ∧ o ≠ "]".toList ∧ o ≠ ":".toList ∧ o ≠ ",".toList
  | _ => True

/-- The tokens are a primary, read as `e`, to which more can be appended. -/
def PrimGood (toks : List Tok) (e : Py) : Prop :=
  (∃ t ts, toks = t :: ts ∧ atomTok t) ∧
  ∀ rest r, Ev (fun m => trailers m e rest) r → Ev (fun m => primary m (toks ++ rest)) r

/-- The tokens are an expression of precedence `lvl`, read as `e`. -/
def ExprGood (lvl : Nat) (toks : List Tok) (e : Py) : Prop :=
  (∃ t ts, toks = t :: ts ∧ exprTok t) ∧
  ∀ min rest r, min ≤ lvl → Looser lvl rest → Ev (fun m => operators m min e rest) r → Ev (fun m => parse m min (toks ++ rest)) r

theorem atom_expr {t : Tok} (h : atomTok t) : exprTok t := by
  cases t with
  | op o => exact ⟨h.2.2.1, h.2.2.2.1, h.2.2.2.2.1, h.2.2.2.2.2.1, h.2.2.2.2.2.2⟩
  | _ => trivial

theorem trailers_stop {e : Py} {rest : List Tok} (h : noTrailer rest) : Ev (fun m => trailers m e rest) (e, rest) := by
  refine Ev.succ (Ev.intro fun m => ?_)
  unfold trailers
  cases rest with
  | nil => rfl
  | cons t rest =>
    cases t with
    | op o =>
      try dsimp only
      rw [if_neg h.1, if_neg h.2.1, if_neg h.2.2]
    | _ => rfl

theorem operators_stop {min : Nat} {e : Py} {rest : List Tok} (h : ∀ o q r, infix_ rest = some (o, q, r) → q < min) :
    Ev (fun m => operators m min e rest) (e, rest) := by
  refine Ev.succ (Ev.intro fun m => ?_)
  unfold operators
  cases hi : infix_ rest with
  | none => rfl
  | some p =>
    obtain ⟨o, q, r⟩ := p
    have := h o q r hi
    try dsimp only
    rw [if_neg (by omega)]

theorem PrimGood.expr {toks : List Tok} {e : Py} (h : PrimGood toks e) : ExprGood 11 toks e := by
  obtain ⟨⟨t, ts, rfl, ht⟩, h⟩ := h
  refine ⟨⟨t, ts, rfl, atom_expr ht⟩, fun min rest r _ hl he => ?_⟩
  have h1 := (h rest _ (trailers_stop hl.1)).bind (g := fun p m => operators m min p.1 p.2) he
  refine Ev.succ (h1.congr fun m => ?_)
  unfold parse
  cases t with
  | word w =>
    simp only [List.cons_append]
    rw [if_neg ht]
  | op o =>
    simp only [List.cons_append]
    rw [if_neg (fun h => h.elim ht.1 ht.2.1)]
  | _ => rfl

/-- An expression between two delimiters. -/
theorem ExprGood.parse1 {lvl : Nat} {toks : List Tok} {e : Py} (h : ExprGood lvl toks e) (h1 : 1 ≤ lvl) {rest : List Tok}
    (hn : noTrailer rest) (hi : infix_ rest = none) : Ev (fun m => parse m 1 (toks ++ rest)) (e, rest) :=
  h.2 1 rest _ h1 ⟨hn, fun o q r h => by rw [hi] at h; cases h⟩ (operators_stop fun o q r h => by rw [hi] at h; cases h)

/-- A binary operator other than `**`. -/
theorem ExprGood.bin {p la lb : Nat} {ta tb to : List Tok} {o : Str} {a b : Py}
    (ha : ExprGood la ta a) (hb : ExprGood lb tb b) (hla : p ≤ la) (hlb : p < lb)
    (hp : p ≠ 10) (hp4 : la = 4 → p < 4) (hpa : la ≠ 10 ∨ p < 9) (hpb : lb ≠ 4 ∨ p < 4) (hq : lb ≠ 10 ∨ p < 9)
    (hto : ∀ r, infix_ (to ++ r) = some (o, p, r)) (hnt : ∀ r, noTrailer (to ++ r)) :
    ExprGood p (ta ++ to ++ tb) (.bin o a b) := by
  obtain ⟨⟨t, ts, rfl, ht⟩, ha⟩ := ha
  refine ⟨⟨t, ts ++ to ++ tb, by simp, ht⟩, fun min rest r hmin hl he => ?_⟩
  rw [List.append_assoc, List.append_assoc]
  refine ha min _ r (by omega) ⟨hnt _, fun o' q r' h => ?_⟩ ?_
  · rw [hto] at h
    cases h
    exact ⟨hla, hp4, fun h10 => by omega⟩
  · have hr : rightPrec p = p + 1 := by unfold rightPrec; rw [if_neg hp]
    have h1 : Ev (fun m => parse m (rightPrec p) (tb ++ rest)) (b, rest) := by
      rw [hr]
      refine hb.2 _ rest _ (by omega) ⟨hl.1, fun o' q r' h => ?_⟩ (operators_stop fun o' q r' h => ?_)
      · have := hl.2 _ _ _ h
        refine ⟨by omega, fun h => by omega, fun h => by omega⟩
      · have := hl.2 _ _ _ h; omega
    have hc : chained p rest = false := by
      unfold chained
      cases hi : infix_ rest with
      | none => simp
      | some x =>
        obtain ⟨o', q, r'⟩ := x
        have := hl.2 _ _ _ hi
        by_cases h4 : p = 4
        · have := this.2.1 h4
          have : (q == 4) = false := by simp; omega
          simp [this]
        · simp [h4]
    have h2 := h1.bind (g := fun q m => if chained p q.2 then none else operators m min (.bin o a q.1) q.2) (b := r)
      (he.congr fun m => by dsimp only; rw [hc]; rfl)
    refine Ev.succ (h2.congr fun m => ?_)
    rw [operators, hto]
    try dsimp only
    rw [if_pos hmin]

/-- The power operator. -/
theorem ExprGood.pow {lb : Nat} {ta tb : List Tok} {a b : Py}
    (ha : ExprGood 11 ta a) (hb : ExprGood lb tb b) (hlb : 10 ≤ lb) :
    ExprGood 10 (ta ++ [.op "**".toList] ++ tb) (.bin "**".toList a b) := by
  obtain ⟨⟨t, ts, rfl, ht⟩, ha⟩ := ha
  refine ⟨⟨t, ts ++ [.op "**".toList] ++ tb, by simp, ht⟩, fun min rest r hmin hl he => ?_⟩
  rw [List.append_assoc, List.append_assoc]
  have hto : infix_ ([.op "**".toList] ++ (tb ++ rest)) = some ("**".toList, 10, tb ++ rest) := rfl
  refine ha min _ r (by omega) ⟨⟨by decide, by decide, by decide⟩, fun o' q r' h => ?_⟩ ?_
  · rw [hto] at h
    cases h
    exact ⟨by omega, by omega, by omega⟩
  · have h1 : Ev (fun m => parse m (rightPrec 10) (tb ++ rest)) (b, rest) := by
      show Ev (fun m => parse m 9 (tb ++ rest)) (b, rest)
      refine hb.2 _ rest _ (by omega) ⟨hl.1, fun o' q r' h => ?_⟩ (operators_stop fun o' q r' h => ?_)
      · have := hl.2 _ _ _ h
        refine ⟨by omega, fun h => by omega, fun h => by omega⟩
      · have := hl.2 _ _ _ h; omega
    have h2 := h1.bind (g := fun q m => if chained 10 q.2 then none else operators m min (.bin "**".toList a q.1) q.2) (b := r)
      (he.congr fun m => by
        try dsimp only
        rw [if_neg (by unfold chained; simp)])
    refine Ev.succ (h2.congr fun m => ?_)
    rw [operators, hto]
    try dsimp only
    rw [if_pos hmin]

/-- `not` before an expression. -/
theorem ExprGood.not {la : Nat} {ta : List Tok} {a : Py} (ha : ExprGood la ta a) (hla : 3 ≤ la) :
    ExprGood 3 (.word "not".toList :: ta) (.un "not".toList a) := by
  refine ⟨⟨_, _, rfl, trivial⟩, fun min rest r hmin hl he => ?_⟩
  have h1 : Ev (fun m => parse m 3 (ta ++ rest)) (a, rest) := by
    have hq : ∀ o q r', infix_ rest = some (o, q, r') → q < 3 := by
      intro o q r' h
      have := (hl.2 _ _ _ h).1
      have h3 : q ≠ 3 := by
        intro e
        subst e
        unfold infix_ at h
        split at h
        · repeat' split at h
          all_goals first | cases h | (simp at h)
        · repeat' split at h
          all_goals first | cases h | (simp at h)
        · cases h
      omega
    refine ha.2 3 rest _ hla ⟨hl.1, fun o' q r' h => ?_⟩ (operators_stop hq)
    have := hq _ _ _ h
    refine ⟨by omega, fun h => by omega, fun h => by omega⟩
  have h2 := h1.bind (g := fun p m => operators m min (.un "not".toList p.1) p.2) he
  refine Ev.succ (h2.congr fun m => ?_)
  rw [List.cons_append, parse]
  try dsimp only
  rw [if_pos rfl, if_pos hmin]

/-- A sign before a number. -/
theorem ExprGood.sign {la : Nat} {o : Str} {ta : List Tok} {a : Py} (ho : o = "-".toList ∨ o = "+".toList) (ha : ExprGood la ta a)
    (hla : 9 ≤ la) : ExprGood 9 (.op o :: ta) (.un o a) := by
  refine ⟨⟨_, _, rfl, ?_⟩, fun min rest r hmin hl he => ?_⟩
  · rcases ho with rfl | rfl <;> exact ⟨by decide, by decide, by decide, by decide, by decide⟩
  · have hq : ∀ o q r', infix_ rest = some (o, q, r') → q < 9 := by
      intro o q r' h
      have := (hl.2 _ _ _ h).1
      have h3 : q ≠ 9 := by
        intro e
        subst e
        unfold infix_ at h
        split at h
        · repeat' split at h
          all_goals first | cases h | (simp at h)
        · repeat' split at h
          all_goals first | cases h | (simp at h)
        · cases h
      omega
    have h1 : Ev (fun m => parse m 9 (ta ++ rest)) (a, rest) := by
      refine ha.2 9 rest _ hla ⟨hl.1, fun o' q r' h => ?_⟩ (operators_stop hq)
      have := hq _ _ _ h
      exact ⟨by omega, fun h => by omega, fun h => by omega⟩
    have h2 := h1.bind (g := fun p m => operators m min (.un o p.1) p.2) he
    refine Ev.succ (h2.congr fun m => ?_)
    rw [List.cons_append, parse]
    try dsimp only
    rw [if_pos ho, if_pos hmin]

/-! ## Atoms -/

theorem PrimGood.name {w : Str} (h : w ∉ keywords) : PrimGood [.word w] (.name w) := by
  refine ⟨⟨_, _, rfl, ?_⟩, fun rest r he => ?_⟩
  · rintro rfl; exact h (by decide)
  · refine Ev.succ (he.congr fun m => ?_)
    rw [List.cons_append, primary]
    try dsimp only
    rw [if_neg h, List.nil_append]

theorem PrimGood.num (s : Str) : PrimGood [.num s] (.num s) :=
  ⟨⟨_, _, rfl, trivial⟩, fun _ _ he => Ev.succ (he.congr fun _ => rfl)⟩

theorem PrimGood.str (s : Str) : PrimGood [.str s] (.str s) :=
  ⟨⟨_, _, rfl, trivial⟩, fun _ _ he => Ev.succ (he.congr fun _ => rfl)⟩

/-! ## Lists of expressions -/

/-- Expressions, each at least of precedence 1. -/
inductive ListGood : List (List Tok) → List Py → Prop where
  | nil : ListGood [] []
  | cons {lvl t e ts es} : ExprGood lvl t e → 1 ≤ lvl → ListGood ts es → ListGood (t :: ts) (e :: es)

/-- Tokens with commas between. -/
def commaToks : List (List Tok) → List Tok
  | [] => []
  | [t] => t
  | t :: u :: r => t ++ .op ",".toList :: commaToks (u :: r)

/-- Brackets around a list. -/
def closer (c : Str) : Prop := c = ")".toList ∨ c = "]".toList

theorem closer_stop {c : Str} (h : closer c) (rest : List Tok) : noTrailer (.op c :: rest) ∧ infix_ (.op c :: rest) = none := by
  rcases h with rfl | rfl <;> exact ⟨⟨by decide, by decide, by decide⟩, rfl⟩

theorem sequence1_good {c : Str} (hc : closer c) {ts : List (List Tok)} {es : List Py} (h : ListGood ts es) (hne : ts ≠ [])
    (rest : List Tok) : Ev (fun m => sequence1 m c (commaToks ts ++ .op c :: rest)) (es, rest) := by
  induction h with
  | nil => exact absurd rfl hne
  | @cons lvl t e ts es he h1 hts ih =>
    cases ts with
    | nil =>
      cases hts
      have h2 := (he.parse1 h1 (closer_stop hc rest).1 (closer_stop hc rest).2).bind
        (g := fun p (m : Nat) => match p.2 with
          | .op o :: r =>
            if o = c then some ([p.1], r)
            else if o = ",".toList then (sequence1 m c r).map fun q => (p.1 :: q.1, q.2)
            else none
          | _ => none) (b := ([e], rest)) (Ev.intro fun m => by dsimp only; rw [if_pos rfl])
      refine Ev.succ (h2.congr fun m => ?_)
      rw [commaToks, sequence1]
      rfl
    | cons u ts =>
      have ih := ih (by simp)
      have hcomma : noTrailer (.op ",".toList :: (commaToks (u :: ts) ++ .op c :: rest)) :=
        ⟨by decide, by decide, by decide⟩
      have hne : ",".toList ≠ c := by rcases hc with rfl | rfl <;> decide
      have h2 := (he.parse1 h1 hcomma rfl).bind
        (g := fun p (m : Nat) => match p.2 with
          | .op o :: r =>
            if o = c then some ([p.1], r)
            else if o = ",".toList then (sequence1 m c r).map fun q => (p.1 :: q.1, q.2)
            else none
          | _ => none) (b := (e :: es, rest))
          ((ih.map (g := fun q => (e :: q.1, q.2))).congr fun m => by dsimp only; rw [if_neg hne, if_pos rfl])
      refine Ev.succ (h2.congr fun m => ?_)
      rw [commaToks, sequence1, List.append_assoc, List.cons_append]
      rfl

theorem sequence_good {c : Str} (hc : closer c) {ts : List (List Tok)} {es : List Py} (h : ListGood ts es) (rest : List Tok) :
    Ev (fun m => sequence m c (commaToks ts ++ .op c :: rest)) (es, rest) := by
  cases h with
  | nil =>
    refine Ev.succ (Ev.intro fun m => ?_)
    rw [commaToks, List.nil_append, sequence, if_pos (show (Tok.op c :: rest).head? = some (.op c) from rfl)]
    rfl
  | @cons lvl t e ts es he h1 hts =>
    refine Ev.succ ((sequence1_good hc (.cons he h1 hts) (by simp) rest).congr fun m => ?_)
    rw [sequence, if_neg]
    obtain ⟨⟨x, xs, rfl, hx⟩, -⟩ := he
    have : (commaToks ((x :: xs) :: ts) ++ .op c :: rest).head? = some x := by
      cases ts <;> rfl
    rw [this]
    intro e
    cases e
    rcases hc with rfl | rfl
    · exact hx.2.1 rfl
    · exact hx.2.2.1 rfl

/-- One expression in brackets, or several. -/
def tupled : List Py → Py
  | [e] => e
  | es => .tuple es

/-- A call. -/
theorem PrimGood.call {tf : List Tok} {f : Py} {ts : List (List Tok)} {es : List Py} (hf : PrimGood tf f) (h : ListGood ts es) :
    PrimGood (tf ++ .op "(".toList :: (commaToks ts ++ [.op ")".toList])) (.call f es) := by
  obtain ⟨⟨t, ts', rfl, ht⟩, hf⟩ := hf
  refine ⟨⟨t, _, rfl, ht⟩, fun rest r he => ?_⟩
  rw [List.append_assoc]
  refine hf _ _ ?_
  have h2 := (sequence_good (.inl rfl) h rest).bind (g := fun p m => trailers m (.call f p.1) p.2) he
  refine Ev.succ (h2.congr fun m => ?_)
  rw [List.cons_append, List.append_assoc]
  conv => lhs; unfold trailers
  dsimp only
  rw [if_neg (by decide), if_pos rfl]
  rfl

/-- An attribute. -/
theorem PrimGood.attr {tf : List Tok} {f : Py} {w : Str} (hf : PrimGood tf f) (hw : w ∉ keywords) :
    PrimGood (tf ++ [.op ".".toList, .word w]) (.attr f w) := by
  obtain ⟨⟨t, ts', rfl, ht⟩, hf⟩ := hf
  refine ⟨⟨t, _, rfl, ht⟩, fun rest r he => ?_⟩
  rw [List.append_assoc]
  refine hf _ _ (Ev.succ (he.congr fun m => ?_))
  rw [List.cons_append, List.cons_append, trailers]
  try dsimp only
  rw [if_pos rfl, if_neg hw, List.nil_append]

/-- A bracketed expression. -/
theorem PrimGood.paren {ts : List (List Tok)} {es : List Py} (h : ListGood ts es) :
    PrimGood (.op "(".toList :: (commaToks ts ++ [.op ")".toList])) (tupled es) := by
  refine ⟨⟨_, _, rfl, ⟨by decide, by decide, by decide, by decide, by decide, by decide, by decide⟩⟩, fun rest r he => ?_⟩
  have h2 := (sequence_good (.inl rfl) h rest).bind (g := fun p m => match p.1 with
          | [e] => trailers m e p.2
          | es => trailers m (.tuple es) p.2) (b := r) (he.congr fun m => by
            match es with
            | [] => rfl
            | [_] => rfl
            | _ :: _ :: _ => rfl)
  refine Ev.succ (h2.congr fun m => ?_)
  rw [List.cons_append, List.append_assoc, primary]
  try dsimp only
  rw [if_pos rfl]
  rfl

/-- A name followed by a word that is no operator is read by itself. -/
theorem parse_word {a f : Str} {r : List Tok} (ha : a ∉ keywords) (hf : infix_ (.word f :: r) = none) {n : Nat} {p : Py × List Tok}
    (h : parse n 1 (.word a :: .word f :: r) = some p) : p = (.name a, .word f :: r) := by
  have hev : Ev (fun m => parse m 1 ([.word a] ++ .word f :: r)) (.name a, .word f :: r) :=
    (PrimGood.name ha).expr.parse1 (by omega) trivial hf
  obtain ⟨k, hk⟩ := hev
  have h1 := hk (k + n) (by omega)
  have h2 := parse_mono h (show n ≤ k + n by omega)
  exact Option.some.inj (h2.symm.trans h1)

/-- Something read as a list does not begin like a comprehension. -/
theorem compHead_none {n : Nat} {c : Str} {toks : List Tok} {p : List Py × List Tok} (h : sequence n c toks = some p) :
    compHead toks = none := by
  cases hc : compHead toks with
  | none => rfl
  | some q =>
    exfalso
    unfold compHead at hc
    split at hc
    · rename_i a f x i r
      split at hc
      · rename_i hh
        obtain ⟨rfl, rfl, ha, -⟩ := hh
        cases n with
        | zero => unfold sequence at h; cases h
        | succ n =>
          unfold sequence at h
          rw [if_neg (by simp)] at h
          cases n with
          | zero => unfold sequence1 at h; cases h
          | succ n =>
            unfold sequence1 at h
            rw [Option.bind_eq_some_iff] at h
            obtain ⟨y, hy, h⟩ := h
            rw [parse_word ha rfl hy] at h
            cases h
      · cases hc
    · cases hc

/-- A string followed by a delimiter is read by itself. -/
theorem parse_string {s o : Str} {r : List Tok} (hn : noTrailer (.op o :: r)) (hi : infix_ (.op o :: r) = none) {n : Nat} {p : Py × List Tok}
    (h : parse n 1 (.str s :: .op o :: r) = some p) : p = (.str s, .op o :: r) := by
  obtain ⟨k, hk⟩ := (PrimGood.str s).expr.parse1 (by omega) hn hi
  have h1 := hk (k + n) (by omega)
  have h2 := parse_mono h (show n ≤ k + n by omega)
  exact Option.some.inj (h2.symm.trans h1)

/-- Something read as a dictionary is not a set. -/
theorem setStrings_none {n : Nat} {toks : List Tok} {p : (List Py × List Py) × List Tok} (h : mapping n toks = some p) :
    setStrings toks = none := by
  cases hc : setStrings toks with
  | none => rfl
  | some q =>
    exfalso
    unfold setStrings at hc
    split at hc
    · rename_i s o r
      have ho : o = "}".toList ∨ o = ",".toList := by
        split at hc
        · exact .inl ‹_›
        · split at hc
          · exact .inr ‹_›
          · cases hc
      cases n with
      | zero => unfold mapping at h; cases h
      | succ n =>
        unfold mapping at h
        rw [if_neg (by simp)] at h
        cases n with
        | zero => unfold mapping1 at h; cases h
        | succ n =>
          unfold mapping1 at h
          rw [Option.bind_eq_some_iff] at h
          obtain ⟨y, hy, h⟩ := h
          rcases ho with rfl | rfl
          · rw [parse_string ⟨by decide, by decide, by decide⟩ rfl hy] at h
            dsimp only at h
            rw [if_neg (by decide)] at h
            cases h
          · rw [parse_string ⟨by decide, by decide, by decide⟩ rfl hy] at h
            dsimp only at h
            rw [if_neg (by decide)] at h
            cases h
    · cases hc

/-- A set of strings. -/
theorem PrimGood.set {ss : List Str} (hne : ss ≠ []) :
    PrimGood (.op "{".toList :: (commaToks (ss.map fun s => [.str s]) ++ [.op "}".toList])) (.set (ss.map .str)) := by
  refine ⟨⟨_, _, rfl, ⟨by decide, by decide, by decide, by decide, by decide, by decide, by decide⟩⟩, fun rest r he => ?_⟩
  have h1 : ∀ ss : List Str, ss ≠ [] → setStrings (commaToks (ss.map fun s => [.str s]) ++ .op "}".toList :: rest) = some (ss, rest) := by
    intro ss
    induction ss with
    | nil => intro h; exact absurd rfl h
    | cons s ss ih =>
      intro _
      cases ss with
      | nil =>
        show setStrings (.str s :: .op "}".toList :: rest) = _
        rw [setStrings, if_pos rfl]
      | cons t ss =>
        show setStrings (.str s :: .op ",".toList :: (commaToks ((t :: ss).map fun s => [.str s]) ++ .op "}".toList :: rest)) = _
        rw [setStrings, if_neg (by decide), if_pos rfl, ih (by simp)]
        rfl
  refine Ev.succ (he.congr fun m => ?_)
  rw [List.cons_append, List.append_assoc, primary]
  try dsimp only
  rw [if_neg (by decide), if_neg (by decide), if_pos rfl]
  show (match setStrings (commaToks (ss.map fun s => [.str s]) ++ .op "}".toList :: rest) with
    | some (ss, r') => trailers m (.set (ss.map .str)) r'
    | none => _) = _
  rw [h1 ss hne]

/-- A comprehension. -/
theorem PrimGood.comp {a x : Str} {l1 l2 : Nat} {t1 t2 : List Tok} {e c : Py} (ha : a ∉ keywords) (hx : freeName x = true)
    (he : ExprGood l1 t1 e) (h1 : 1 ≤ l1) (hc : ExprGood l2 t2 c) (h2 : 1 ≤ l2) :
    PrimGood (.op "[".toList :: .word a :: .word "for".toList :: .word x :: .word "in".toList ::
      (t1 ++ .word "if".toList :: (t2 ++ [.op "]".toList]))) (.comp a x e c) := by
  refine ⟨⟨_, _, rfl, ⟨by decide, by decide, by decide, by decide, by decide, by decide, by decide⟩⟩, fun rest r hr => ?_⟩
  have k2 := (hc.parse1 h2 (rest := .op "]".toList :: rest) ⟨by decide, by decide, by decide⟩ rfl).bind
    (g := fun q (_ : Nat) => match q.2 with
      | .op o :: r => if o = "]".toList then some (Py.comp a x e q.1, r) else none
      | _ => none) (b := (.comp a x e c, rest)) (Ev.intro fun m => by dsimp only; rw [if_pos rfl])
  have k1 := (he.parse1 h1 (rest := .word "if".toList :: (t2 ++ .op "]".toList :: rest)) trivial rfl).bind
    (g := fun p (m : Nat) => match p.2 with
      | .word w :: r =>
        if w = "if".toList then
          (parse m 1 r).bind fun q =>
            match q.2 with
            | .op o :: r => if o = "]".toList then some (Py.comp a x p.1 q.1, r) else none
            | _ => none
        else none
      | _ => none) (b := (.comp a x e c, rest)) (k2.congr fun m => by dsimp only; rw [if_pos rfl])
  have k : Ev (fun m => comprehension m a x (t1 ++ .word "if".toList :: (t2 ++ .op "]".toList :: rest))) (.comp a x e c, rest) :=
    Ev.succ (k1.congr fun m => by rw [comprehension]; rfl)
  have h3 := k.bind (g := fun p m => trailers m p.1 p.2) hr
  refine Ev.succ (h3.congr fun m => ?_)
  rw [List.cons_append, primary]
  try dsimp only
  rw [if_neg (by decide), if_pos rfl]
  simp only [List.cons_append, List.append_assoc, List.nil_append]
  rw [compHead, if_pos ⟨rfl, rfl, ha, hx⟩]

/-- A list. -/
theorem PrimGood.list {ts : List (List Tok)} {es : List Py} (h : ListGood ts es) :
    PrimGood (.op "[".toList :: (commaToks ts ++ [.op "]".toList])) (.list es) := by
  refine ⟨⟨_, _, rfl, ⟨by decide, by decide, by decide, by decide, by decide, by decide, by decide⟩⟩, fun rest r he => ?_⟩
  have h1 := sequence_good (.inr rfl) h rest
  have h2 := h1.bind (g := fun p m => trailers m (.list p.1) p.2) he
  refine Ev.succ (h2.congr fun m => ?_)
  rw [List.cons_append, List.append_assoc, primary]
  try dsimp only
  rw [if_neg (by decide), if_pos rfl]
  obtain ⟨k, hk⟩ := h1
  have h3 : compHead (commaToks ts ++ ([.op "]".toList] ++ rest)) = none := compHead_none (hk k (by omega))
  rw [h3]
  rfl

/-! ## Dictionaries -/

/-- Entries of a dictionary. -/
inductive PairsGood : List (List Tok) → List Py → List Py → Prop where
  | nil : PairsGood [] [] []
  | cons {lk lv tk tv k v ts ks vs} : ExprGood lk tk k → 1 ≤ lk → ExprGood lv tv v → 1 ≤ lv → PairsGood ts ks vs →
      PairsGood ((tk ++ .op ":".toList :: tv) :: ts) (k :: ks) (v :: vs)

theorem mapping1_good {ts : List (List Tok)} {ks vs : List Py} (h : PairsGood ts ks vs) (hne : ts ≠ []) (rest : List Tok) :
    Ev (fun m => mapping1 m (commaToks ts ++ .op "}".toList :: rest)) ((ks, vs), rest) := by
  induction h with
  | nil => exact absurd rfl hne
  | @cons lk lv tk tv k v ts ks vs hk h1 hv h2 hts ih =>
    -- the tokens after the value
    have key : ∀ (tail : List Tok) (x : (List Py × List Py) × List Tok), noTrailer tail → infix_ tail = none →
        Ev (fun m => match tail with
            | .op o :: r =>
              if o = "}".toList then some (([k], [v]), r)
              else if o = ",".toList then (mapping1 m r).map fun q => ((k :: q.1.1, v :: q.1.2), q.2)
              else none
            | _ => none) x →
        Ev (fun m => mapping1 m (tk ++ .op ":".toList :: (tv ++ tail))) x := by
      intro tail x hn hi hx
      have h3 := (hv.parse1 h2 hn hi).bind (g := fun v (m : Nat) => match v.2 with
            | .op o :: r =>
              if o = "}".toList then some (([k], [v.1]), r)
              else if o = ",".toList then (mapping1 m r).map fun q => ((k :: q.1.1, v.1 :: q.1.2), q.2)
              else none
            | _ => none) hx
      have hcolon : noTrailer (.op ":".toList :: (tv ++ tail)) := ⟨by decide, by decide, by decide⟩
      have h4 := (hk.parse1 h1 hcolon rfl).bind (g := fun k (m : Nat) => match k.2 with
        | .op o :: r =>
          if o = ":".toList then
            (parse m 1 r).bind fun v =>
              match v.2 with
              | .op o :: r =>
                if o = "}".toList then some (([k.1], [v.1]), r)
                else if o = ",".toList then (mapping1 m r).map fun q => ((k.1 :: q.1.1, v.1 :: q.1.2), q.2)
                else none
              | _ => none
          else none
        | _ => none) (b := x) (h3.congr fun m => by dsimp only; rw [if_pos rfl])
      refine Ev.succ (h4.congr fun m => ?_)
      rw [mapping1]
      rfl
    cases ts with
    | nil =>
      cases hts
      rw [commaToks, List.append_assoc, List.cons_append]
      exact key _ _ ⟨by decide, by decide, by decide⟩ rfl (Ev.intro fun m => by dsimp only; rw [if_pos rfl])
    | cons u ts =>
      have ih := ih (by simp)
      rw [commaToks, List.append_assoc, List.append_assoc, List.cons_append, List.cons_append]
      exact key _ _ ⟨by decide, by decide, by decide⟩ rfl
        ((ih.map (g := fun q => ((k :: q.1.1, v :: q.1.2), q.2))).congr fun m => by
          dsimp only; rw [if_neg (by decide), if_pos rfl])

/-- A dictionary. -/
theorem PrimGood.dict {ts : List (List Tok)} {ks vs : List Py} (h : PairsGood ts ks vs) :
    PrimGood (.op "{".toList :: (commaToks ts ++ [.op "}".toList])) (.dict ks vs) := by
  refine ⟨⟨_, _, rfl, ⟨by decide, by decide, by decide, by decide, by decide, by decide, by decide⟩⟩, fun rest r he => ?_⟩
  have h1 : Ev (fun m => mapping m (commaToks ts ++ .op "}".toList :: rest)) ((ks, vs), rest) := by
    cases h with
    | nil =>
      refine Ev.succ (Ev.intro fun m => ?_)
      rw [commaToks, List.nil_append, mapping, if_pos (show (Tok.op "}".toList :: rest).head? = some (.op "}".toList) from rfl)]
      rfl
    | @cons lk lv tk tv k v ts ks vs hk h1 hv h2 hts =>
      refine Ev.succ ((mapping1_good (.cons hk h1 hv h2 hts) (by simp) rest).congr fun m => ?_)
      rw [mapping, if_neg]
      obtain ⟨⟨x, xs, rfl, hx⟩, -⟩ := hk
      have : (commaToks (((x :: xs) ++ .op ":".toList :: tv) :: ts) ++ .op "}".toList :: rest).head? = some x := by
        cases ts <;> rfl
      rw [this]
      intro e
      cases e
      exact hx.1 rfl
  have h2 := h1.bind (g := fun p m => trailers m (.dict p.1.1 p.1.2) p.2) he
  refine Ev.succ (h2.congr fun m => ?_)
  rw [List.cons_append, List.append_assoc, primary]
  try dsimp only
  rw [if_neg (by decide), if_neg (by decide), if_pos rfl]
  obtain ⟨k, hk⟩ := h1
  have h3 : setStrings (commaToks ts ++ ([.op "}".toList] ++ rest)) = none := setStrings_none (hk k (by omega))
  rw [h3]
  rfl

/-! ## Subscripts -/

/-- The tokens of a subscript, read as `i`. -/
def SubGood (toks : List Tok) (i : Py) : Prop :=
  ∀ o rest, o = ",".toList ∨ o = "]".toList →
    Ev (fun m => subscript m (toks ++ .op o :: rest)) (i, .op o :: rest)

theorem delim_stop {o : Str} (h : o = ",".toList ∨ o = "]".toList ∨ o = ":".toList) (rest : List Tok) :
    noTrailer (.op o :: rest) ∧ infix_ (.op o :: rest) = none := by
  rcases h with rfl | rfl | rfl <;> exact ⟨⟨by decide, by decide, by decide⟩, rfl⟩

theorem part_good {lvl : Nat} {toks : List Tok} {e : Py} (h : ExprGood lvl toks e) (h1 : 1 ≤ lvl) {o : Str}
    (ho : o = ",".toList ∨ o = "]".toList ∨ o = ":".toList) (rest : List Tok) :
    Ev (fun m => part m (toks ++ .op o :: rest)) (e, .op o :: rest) := by
  have hp := h.parse1 h1 (delim_stop ho rest).1 (delim_stop ho rest).2
  obtain ⟨⟨x, xs, rfl, hx⟩, -⟩ := h
  refine Ev.succ (hp.congr fun m => ?_)
  rw [List.cons_append, part]
  cases x with
  | op o' =>
    simp only [List.head?_cons]
    rw [if_neg]
    rintro (h | h | h)
    · exact hx.2.2.2.1 h
    · exact hx.2.2.2.2 h
    · exact hx.2.2.1 h
  | _ => rfl

theorem part_none {o : Str} (ho : o = ",".toList ∨ o = "]".toList ∨ o = ":".toList) (rest : List Tok) :
    Ev (fun m => part m (.op o :: rest)) (.none, .op o :: rest) := by
  refine Ev.succ (Ev.intro fun m => ?_)
  rw [part]
  simp only [List.head?_cons]
  rw [if_pos (ho.elim (fun h => .inr (.inl h)) fun h => h.elim (fun h => .inr (.inr h)) .inl)]

theorem SubGood.expr {lvl : Nat} {toks : List Tok} {e : Py} (h : ExprGood lvl toks e) (h1 : 1 ≤ lvl) (hm : missing e = false) :
    SubGood toks e := by
  intro o rest ho
  have ho' : o = ",".toList ∨ o = "]".toList ∨ o = ":".toList := ho.elim .inl fun h => .inr (.inl h)
  have hne : o ≠ ":".toList := by rcases ho with rfl | rfl <;> decide
  have h2 := (part_good h h1 ho' rest).bind (g := fun a (m : Nat) =>
      if a.2.head? = some (.op ":".toList) then
        (part m a.2.tail).bind fun b =>
          if b.2.head? = some (.op ":".toList) then
            (part m b.2.tail).map fun c => (.slice a.1 b.1 c.1, c.2)
          else some (.slice a.1 b.1 .none, b.2)
      else if missing a.1 then none else some a) (b := (e, .op o :: rest)) (Ev.intro fun m => by
        try dsimp only
        rw [if_neg (by intro h; cases h; exact hne rfl), hm]
        rfl)
  refine Ev.succ (h2.congr fun m => ?_)
  rw [subscript]

/-- `s:` -/
theorem SubGood.from {lvl : Nat} {toks : List Tok} {e : Py} (h : ExprGood lvl toks e) (h1 : 1 ≤ lvl) :
    SubGood (toks ++ [.op ":".toList]) (.slice e .none .none) := by
  intro o rest ho
  have ho' : o = ",".toList ∨ o = "]".toList ∨ o = ":".toList := ho.elim .inl fun h => .inr (.inl h)
  have hne : o ≠ ":".toList := by rcases ho with rfl | rfl <;> decide
  have hb := (part_none ho' rest).bind (g := fun b (m : Nat) =>
          if b.2.head? = some (.op ":".toList) then
            (part m b.2.tail).map fun c => (Py.slice e b.1 c.1, c.2)
          else some (.slice e b.1 .none, b.2)) (b := (.slice e .none .none, .op o :: rest)) (Ev.intro fun m => by
            try dsimp only
            rw [if_neg (by intro h; cases h; exact hne rfl)])
  have h2 := (part_good h h1 (o := ":".toList) (.inr (.inr rfl)) (.op o :: rest)).bind (g := fun a (m : Nat) =>
      if a.2.head? = some (.op ":".toList) then
        (part m a.2.tail).bind fun b =>
          if b.2.head? = some (.op ":".toList) then
            (part m b.2.tail).map fun c => (.slice a.1 b.1 c.1, c.2)
          else some (.slice a.1 b.1 .none, b.2)
      else if missing a.1 then none else some a) (hb.congr fun m => by
        try dsimp only
        rw [List.head?_cons, if_pos rfl]
        rfl)
  refine Ev.succ (h2.congr fun m => ?_)
  rw [subscript, List.append_assoc]
  rfl

/-- `s:f` -/
theorem SubGood.fromTo {l1 l2 : Nat} {t1 t2 : List Tok} {s f : Py} (hs : ExprGood l1 t1 s) (h1 : 1 ≤ l1)
    (hf : ExprGood l2 t2 f) (h2 : 1 ≤ l2) : SubGood (t1 ++ .op ":".toList :: t2) (.slice s f .none) := by
  intro o rest ho
  have ho' : o = ",".toList ∨ o = "]".toList ∨ o = ":".toList := ho.elim .inl fun h => .inr (.inl h)
  have hne : o ≠ ":".toList := by rcases ho with rfl | rfl <;> decide
  have hb := (part_good hf h2 ho' rest).bind (g := fun b (m : Nat) =>
          if b.2.head? = some (.op ":".toList) then
            (part m b.2.tail).map fun c => (Py.slice s b.1 c.1, c.2)
          else some (.slice s b.1 .none, b.2)) (b := (.slice s f .none, .op o :: rest)) (Ev.intro fun m => by
            try dsimp only
            rw [if_neg (by intro h; cases h; exact hne rfl)])
  have h2 := (part_good hs h1 (o := ":".toList) (.inr (.inr rfl)) (t2 ++ .op o :: rest)).bind (g := fun a (m : Nat) =>
      if a.2.head? = some (.op ":".toList) then
        (part m a.2.tail).bind fun b =>
          if b.2.head? = some (.op ":".toList) then
            (part m b.2.tail).map fun c => (.slice a.1 b.1 c.1, c.2)
          else some (.slice a.1 b.1 .none, b.2)
      else if missing a.1 then none else some a) (hb.congr fun m => by
        try dsimp only
        rw [List.head?_cons, if_pos rfl]
        rfl)
  refine Ev.succ (h2.congr fun m => ?_)
  rw [subscript, List.append_assoc]
  rfl

/-- `s:f:t` -/
theorem SubGood.stepped {l1 l2 l3 : Nat} {t1 t2 t3 : List Tok} {s f t : Py} (hs : ExprGood l1 t1 s) (h1 : 1 ≤ l1)
    (hf : ExprGood l2 t2 f) (h2 : 1 ≤ l2) (ht : ExprGood l3 t3 t) (h3 : 1 ≤ l3) :
    SubGood (t1 ++ .op ":".toList :: (t2 ++ .op ":".toList :: t3)) (.slice s f t) := by
  intro o rest ho
  have ho' : o = ",".toList ∨ o = "]".toList ∨ o = ":".toList := ho.elim .inl fun h => .inr (.inl h)
  have hc := (part_good ht h3 ho' rest).map (g := fun c => (Py.slice s f c.1, c.2))
  have hb := (part_good hf h2 (o := ":".toList) (.inr (.inr rfl)) (t3 ++ .op o :: rest)).bind (g := fun b (m : Nat) =>
          if b.2.head? = some (.op ":".toList) then
            (part m b.2.tail).map fun c => (Py.slice s b.1 c.1, c.2)
          else some (.slice s b.1 .none, b.2)) (b := (.slice s f t, .op o :: rest)) (hc.congr fun m => by
            try dsimp only
            rw [List.head?_cons, if_pos rfl]
            rfl)
  have h2 := (part_good hs h1 (o := ":".toList) (.inr (.inr rfl)) (t2 ++ .op ":".toList :: (t3 ++ .op o :: rest))).bind
    (g := fun a (m : Nat) =>
      if a.2.head? = some (.op ":".toList) then
        (part m a.2.tail).bind fun b =>
          if b.2.head? = some (.op ":".toList) then
            (part m b.2.tail).map fun c => (.slice a.1 b.1 c.1, c.2)
          else some (.slice a.1 b.1 .none, b.2)
      else if missing a.1 then none else some a) (hb.congr fun m => by
        try dsimp only
        rw [List.head?_cons, if_pos rfl]
        rfl)
  refine Ev.succ (h2.congr fun m => ?_)
  rw [subscript, List.append_assoc, List.cons_append, List.append_assoc, List.cons_append]

/-- Subscripts. -/
inductive SubsGood : List (List Tok) → List Py → Prop where
  | nil : SubsGood [] []
  | cons {t i ts is} : SubGood t i → SubsGood ts is → SubsGood (t :: ts) (i :: is)

theorem subscripts_good {ts : List (List Tok)} {is : List Py} (h : SubsGood ts is) (hne : ts ≠ []) (rest : List Tok) :
    Ev (fun m => subscripts m (commaToks ts ++ .op "]".toList :: rest)) (is, rest) := by
  induction h with
  | nil => exact absurd rfl hne
  | @cons t i ts is hi hts ih =>
    cases ts with
    | nil =>
      cases hts
      have h2 := (hi "]".toList rest (.inr rfl)).bind
        (g := fun p (m : Nat) => match p.2 with
          | .op o :: r =>
            if o = "]".toList then some ([p.1], r)
            else if o = ",".toList then (subscripts m r).map fun q => (p.1 :: q.1, q.2)
            else none
          | _ => none) (b := ([i], rest)) (Ev.intro fun m => by dsimp only; rw [if_pos rfl])
      refine Ev.succ (h2.congr fun m => ?_)
      rw [commaToks, subscripts]
      rfl
    | cons u ts =>
      have ih := ih (by simp)
      have h2 := (hi ",".toList (commaToks (u :: ts) ++ .op "]".toList :: rest) (.inl rfl)).bind
        (g := fun p (m : Nat) => match p.2 with
          | .op o :: r =>
            if o = "]".toList then some ([p.1], r)
            else if o = ",".toList then (subscripts m r).map fun q => (p.1 :: q.1, q.2)
            else none
          | _ => none) (b := (i :: is, rest))
          ((ih.map (g := fun q => (i :: q.1, q.2))).congr fun m => by dsimp only; rw [if_neg (by decide), if_pos rfl])
      refine Ev.succ (h2.congr fun m => ?_)
      rw [commaToks, subscripts, List.append_assoc, List.cons_append]
      rfl

/-- A subscripted primary. -/
theorem PrimGood.index {tf : List Tok} {f : Py} {ts : List (List Tok)} {is : List Py} (hf : PrimGood tf f) (h : SubsGood ts is)
    (hne : ts ≠ []) :
    PrimGood (tf ++ .op "[".toList :: (commaToks ts ++ [.op "]".toList])) (.index f (tupled is)) := by
  obtain ⟨⟨t, ts', rfl, ht⟩, hf⟩ := hf
  refine ⟨⟨t, _, rfl, ht⟩, fun rest r he => ?_⟩
  rw [List.append_assoc]
  refine hf _ _ ?_
  have h2 := (subscripts_good h hne rest).bind (g := fun p m => match p.1 with
          | [i] => trailers m (.index f i) p.2
          | is => trailers m (.index f (.tuple is)) p.2) (b := r) (he.congr fun m => by
            match is with
            | [] => rfl
            | [_] => rfl
            | _ :: _ :: _ => rfl)
  refine Ev.succ (h2.congr fun m => ?_)
  rw [List.cons_append, List.append_assoc]
  conv => lhs; unfold trailers
  dsimp only
  rw [if_neg (by decide), if_neg (by decide), if_pos rfl]
  rfl

end PyText
end Verif
