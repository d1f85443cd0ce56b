import Verif.Lemmas.PyBlock
import Verif.Lemmas.DrelText
import Verif.Model.DrelStmt
/-! # Lines put together, and their texts -/
namespace Verif
namespace PyText
open DrelPy

/-! ## Reading of lines -/

theorem block_nil (k : Nat) : Ev (fun m => block m k []) ([], []) := Ev.succ (Ev.intro fun m => by rw [block])

theorem block_below {k i : Nat} (h : i < k) (t : List Tok) (r : List Line) : Ev (fun m => block m k ((i, t) :: r)) ([], (i, t) :: r) :=
  Ev.succ (Ev.intro fun m => by rw [block, if_pos h])

/-- The lines begin with less than `j` blanks. -/
def Below (j : Nat) (R : List Line) : Prop := ∀ l, R.head? = some l → l.1 < j

theorem block_stop {k : Nat} {R : List Line} (h : Below k R) : Ev (fun m => block m k R) ([], R) := by
  cases R with
  | nil => exact block_nil k
  | cons l r => exact block_below (h l rfl) _ _

theorem block_head {k : Nat} {R : List Line} {p : List PyS × List Line} (h : Ev (fun m => block m k R) p) : Below (k + 1) R := by
  obtain ⟨n, hn⟩ := h
  have h := hn (n + 1) (by omega)
  intro l hl
  cases R with
  | nil => cases hl
  | cons l' r =>
    cases hl
    obtain ⟨i, t⟩ := l
    dsimp only at h ⊢
    unfold block at h
    by_cases h1 : i < k
    · omega
    · rw [if_neg h1] at h
      by_cases h2 : k < i
      · rw [if_pos h2] at h; cases h
      · omega

/-- No part of an `if` statement is on the first line. -/
def NoElse (k : Nat) (R : List Line) : Prop := ∀ l, R.head? = some l → l.1 = k → goesOn l.2 = false

theorem orelse_stop {k : Nat} {R : List Line} (h : NoElse k R) : Ev (fun m => orelse m k R) ([], R) := by
  refine Ev.succ (Ev.intro fun m => ?_)
  cases R with
  | nil => rw [orelse]
  | cons l r =>
    obtain ⟨i, t⟩ := l
    rw [orelse, if_neg]
    rintro ⟨rfl, h2⟩
    rw [h (i, t) rfl rfl] at h2
    cases h2

/-- Lines moved to the right. -/
def shift (k : Nat) (ls : List Line) : List Line := ls.map fun l => (k + l.1, l.2)

theorem shift_shift (k j : Nat) (ls : List Line) : shift k (shift j ls) = shift (k + j) ls := by
  unfold shift
  rw [List.map_map]
  refine List.map_congr_left fun l _ => ?_
  simp only [Function.comp_apply, Nat.add_assoc]

theorem shift_append (k : Nat) (a b : List Line) : shift k (a ++ b) = shift k a ++ shift k b := List.map_append

theorem shift_cons (k : Nat) (l : Line) (b : List Line) : shift k (l :: b) = (k + l.1, l.2) :: shift k b := rfl

/-- Lines that are statements. -/
structure Group (ls : List Line) (ss : List PyS) : Prop where
  first : ∃ t r, ls = (0, t) :: r ∧ goesOn t = false
  reads : ∀ k R ss' R', NoElse k R → Ev (fun m => block m k R) (ss', R') → Ev (fun m => block m k (shift k ls ++ R)) (ss ++ ss', R')

theorem Group.noElse {ls : List Line} {ss : List PyS} (h : Group ls ss) (k : Nat) (R : List Line) : NoElse k (shift k ls ++ R) := by
  obtain ⟨t, r, rfl, ht⟩ := h.first
  intro l hl _
  cases hl
  exact ht

theorem Group.append {a b : List Line} {s t : List PyS} (ha : Group a s) (hb : Group b t) : Group (a ++ b) (s ++ t) := by
  obtain ⟨x, r, rfl, hx⟩ := ha.first
  refine ⟨⟨x, r ++ b, rfl, hx⟩, fun k R ss' R' hn he => ?_⟩
  rw [shift_append, List.append_assoc, List.append_assoc]
  exact ha.reads k _ _ _ (hb.noElse k R) (hb.reads k R ss' R' hn he)

/-- A statement that is one line. -/
theorem Group.simple {t : List Tok} {s : PyS} (ho : opens t = false) (hg : goesOn t = false) (hs : Ev (fun m => simple m t) s) :
    Group [(0, t)] [s] := by
  refine ⟨⟨t, [], rfl, hg⟩, fun k R ss' R' _ he => ?_⟩
  have h := hs.bind (g := fun a m => (block m k R).map fun p => (a :: p.1, p.2)) (he.map (g := fun p => (s :: p.1, p.2)))
  refine Ev.succ (h.congr fun m => ?_)
  show block (m + 1) k ((k + 0, t) :: R) = _
  rw [block, Nat.add_zero, if_neg (by omega), if_neg (by omega), if_neg (by rw [ho]; simp)]

theorem Group.body {ls : List Line} {ss : List PyS} (h : Group ls ss) {k : Nat} {R : List Line} (hR : Below (k + 1) R) :
    Ev (fun m => body m k (shift k (shift 4 ls) ++ R)) (ss, R) := by
  rw [shift_shift]
  have hn : NoElse (k + 4) R := by
    intro l hl e
    have := hR l hl
    omega
  have hb : Below (k + 4) R := by
    intro l hl
    have := hR l hl
    omega
  have h1 := h.reads (k + 4) R [] R hn (block_stop hb)
  rw [List.append_nil] at h1
  obtain ⟨t, r, rfl, ht⟩ := h.first
  refine Ev.succ (h1.congr fun m => ?_)
  show PyText.body (m + 1) k ((k + 4 + 0, t) :: (shift (k + 4) r ++ R)) = block m (k + 4) ((k + 4 + 0, t) :: (shift (k + 4) r ++ R))
  rw [PyText.body, if_pos (by omega)]

/-- The first line of a compound statement, and its body. -/
theorem Group.for {t : List Tok} {xs : List Str} {es : List Py} {ls : List Line} {ss : List PyS} (ho : opens t = true) (hg : goesOn t = false)
    (hh : Ev (fun m => header m t) (.for_ xs es)) (h : Group ls ss) : Group ((0, t) :: shift 4 ls) [.for_ xs es ss] := by
  refine ⟨⟨t, _, rfl, hg⟩, fun k R ss' R' _ he => ?_⟩
  have h1 := (h.body (block_head he)).bind (g := fun b m => (block m k b.2).map fun s => (.for_ xs es b.1 :: s.1, s.2))
    (he.map (g := fun p => (.for_ xs es ss :: p.1, p.2)))
  obtain ⟨n, hn⟩ := h1
  obtain ⟨n', hn'⟩ := hh
  refine Ev.succ ⟨n + n', fun m hm => ?_⟩
  show block (m + 1) k ((k + 0, t) :: (shift k (shift 4 ls) ++ R)) = _
  have h2 : header m t = some (.for_ xs es) := hn' m (by omega)
  rw [block, Nat.add_zero, if_neg (by omega), if_neg (by omega), if_pos ho, h2]
  exact hn m (by omega)

theorem Group.while {t : List Tok} {c : Py} {ls : List Line} {ss : List PyS} (ho : opens t = true) (hg : goesOn t = false)
    (hh : Ev (fun m => header m t) (.while_ c)) (h : Group ls ss) : Group ((0, t) :: shift 4 ls) [.while_ c ss] := by
  refine ⟨⟨t, _, rfl, hg⟩, fun k R ss' R' _ he => ?_⟩
  have h1 := (h.body (block_head he)).bind (g := fun b m => (block m k b.2).map fun s => (.while_ c b.1 :: s.1, s.2))
    (he.map (g := fun p => (.while_ c ss :: p.1, p.2)))
  obtain ⟨n, hn⟩ := h1
  obtain ⟨n', hn'⟩ := hh
  refine Ev.succ ⟨n + n', fun m hm => ?_⟩
  show block (m + 1) k ((k + 0, t) :: (shift k (shift 4 ls) ++ R)) = _
  have h2 : header m t = some (.while_ c) := hn' m (by omega)
  rw [block, Nat.add_zero, if_neg (by omega), if_neg (by omega), if_pos ho, h2]
  exact hn m (by omega)

theorem Group.def {t : List Tok} {f : Str} {xs : List Str} {ls : List Line} {ss : List PyS} (ho : opens t = true) (hg : goesOn t = false)
    (hh : Ev (fun m => header m t) (.def_ f xs)) (h : Group ls ss) : Group ((0, t) :: shift 4 ls) [.def_ f xs ss] := by
  refine ⟨⟨t, _, rfl, hg⟩, fun k R ss' R' _ he => ?_⟩
  have h1 := (h.body (block_head he)).bind (g := fun b m => (block m k b.2).map fun s => (.def_ f xs b.1 :: s.1, s.2))
    (he.map (g := fun p => (.def_ f xs ss :: p.1, p.2)))
  obtain ⟨n, hn⟩ := h1
  obtain ⟨n', hn'⟩ := hh
  refine Ev.succ ⟨n + n', fun m hm => ?_⟩
  show block (m + 1) k ((k + 0, t) :: (shift k (shift 4 ls) ++ R)) = _
  have h2 : header m t = some (.def_ f xs) := hn' m (by omega)
  rw [block, Nat.add_zero, if_neg (by omega), if_neg (by omega), if_pos ho, h2]
  exact hn m (by omega)

/-- Lines that are the parts `elif` and `else` of an `if`. -/
structure Parts (ls : List Line) (es : List PyS) : Prop where
  first : ls = [] ∨ ∃ t r, ls = (0, t) :: r
  reads : ∀ k R, NoElse k R → Below (k + 1) R → Ev (fun m => orelse m k (shift k ls ++ R)) (es, R)

theorem Parts.below {ls : List Line} {es : List PyS} (h : Parts ls es) {k : Nat} {R : List Line} (hR : Below (k + 1) R) :
    Below (k + 1) (shift k ls ++ R) := by
  rcases h.first with rfl | ⟨t, r, rfl⟩
  · exact hR
  · intro l hl
    cases hl
    show k + 0 < k + 1
    omega

theorem Parts.nil : Parts [] [] := ⟨.inl rfl, fun _ _ hn _ => orelse_stop hn⟩

theorem Parts.elif {t : List Tok} {c : Py} {ls ps : List Line} {ss es : List PyS} (hg : goesOn t = true)
    (hh : Ev (fun m => header m t) (.elif_ c)) (h : Group ls ss) (hp : Parts ps es) :
    Parts ((0, t) :: (shift 4 ls ++ ps)) [.ite c ss es] := by
  refine ⟨.inr ⟨t, _, rfl⟩, fun k R hn hb => ?_⟩
  have h1 := (h.body (hp.below hb)).bind (g := fun b m => (orelse m k b.2).map fun e => ([PyS.ite c b.1 e.1], e.2))
    ((hp.reads k R hn hb).map (g := fun e => ([PyS.ite c ss e.1], e.2)))
  obtain ⟨n, hn⟩ := h1
  obtain ⟨n', hn'⟩ := hh
  refine Ev.succ ⟨n + n', fun m hm => ?_⟩
  show orelse (m + 1) k ((k + 0, t) :: (shift k (shift 4 ls ++ ps) ++ R)) = _
  have h2 : header m t = some (.elif_ c) := hn' m (by omega)
  rw [orelse, if_pos ⟨by omega, hg⟩, h2, shift_append, List.append_assoc]
  exact hn m (by omega)

theorem Parts.else {t : List Tok} {ls : List Line} {ss : List PyS} (hg : goesOn t = true)
    (hh : Ev (fun m => header m t) .else_) (h : Group ls ss) : Parts ((0, t) :: shift 4 ls) ss := by
  refine ⟨.inr ⟨t, _, rfl⟩, fun k R _ hb => ?_⟩
  obtain ⟨n, hn⟩ := h.body hb
  obtain ⟨n', hn'⟩ := hh
  refine Ev.succ ⟨n + n', fun m hm => ?_⟩
  show orelse (m + 1) k ((k + 0, t) :: (shift k (shift 4 ls) ++ R)) = _
  have h2 : header m t = some .else_ := hn' m (by omega)
  rw [orelse, if_pos ⟨by omega, hg⟩, h2]
  exact hn m (by omega)

theorem Group.if {t : List Tok} {c : Py} {ls ps : List Line} {ss es : List PyS} (ho : opens t = true) (hg : goesOn t = false)
    (hh : Ev (fun m => header m t) (.if_ c)) (h : Group ls ss) (hp : Parts ps es) :
    Group ((0, t) :: (shift 4 ls ++ ps)) [.ite c ss es] := by
  refine ⟨⟨t, _, rfl, hg⟩, fun k R ss' R' hn he => ?_⟩
  have hb := block_head he
  have h1 := (h.body (hp.below hb)).bind
    (g := fun b m => (orelse m k b.2).bind fun e => (block m k e.2).map fun s => (PyS.ite c b.1 e.1 :: s.1, s.2))
    ((hp.reads k R hn hb).bind (g := fun e m => (block m k e.2).map fun s => (PyS.ite c ss e.1 :: s.1, s.2))
      (he.map (g := fun p => (PyS.ite c ss es :: p.1, p.2))))
  obtain ⟨n, hn⟩ := h1
  obtain ⟨n', hn'⟩ := hh
  refine Ev.succ ⟨n + n', fun m hm => ?_⟩
  show block (m + 1) k ((k + 0, t) :: (shift k (shift 4 ls ++ ps) ++ R)) = _
  have h2 : header m t = some (.if_ c) := hn' m (by omega)
  rw [block, Nat.add_zero, if_neg (by omega), if_neg (by omega), if_pos ho, h2, shift_append, List.append_assoc]
  exact hn m (by omega)

/-! ## Texts of lines -/

/-- The lines of a text. -/
def Lay (s : Str) (ls : List Line) : Prop := ∃ n, linesOf n (pieces s) = some ls

theorem pieces_ne (s : Str) : pieces s ≠ [] := by
  cases s with
  | nil => simp [pieces]
  | cons c r =>
    unfold pieces
    split
    · simp
    · split <;> simp

theorem pieces_nl (a b : Str) : pieces (a ++ '\n' :: b) = pieces a ++ pieces b := by
  induction a with
  | nil =>
    rw [List.nil_append]
    conv => lhs; rw [pieces, if_pos rfl]
    rfl
  | cons c r ih =>
    rw [List.cons_append, pieces, ih]
    conv => rhs; rw [pieces]
    split
    · rfl
    · cases hp : pieces r with
      | nil => exact absurd hp (pieces_ne r)
      | cons p ps => rfl

theorem pieces_line {s : Str} (h : '\n' ∉ s) : pieces s = [s] := by
  induction s with
  | nil => rfl
  | cons c r ih =>
    rw [List.mem_cons, not_or] at h
    rw [pieces, if_neg (Ne.symm h.1), ih h.2]

theorem linesOf_append {n : Nat} {a b : List Str} {l l' : List Line} (ha : linesOf n a = some l) (hb : linesOf n b = some l') :
    linesOf n (a ++ b) = some (l ++ l') := by
  induction a generalizing l with
  | nil => cases ha; exact hb
  | cons s r ih =>
    unfold linesOf at ha
    cases h1 : lineOf n s with
    | none => rw [h1] at ha; cases ha
    | some x =>
      cases h2 : linesOf n r with
      | none => rw [h1, h2] at ha; cases ha
      | some y =>
        rw [h1, h2] at ha
        cases ha
        rw [List.cons_append, linesOf, h1, ih h2, List.append_assoc]

theorem Lay.nil : Lay [] [] := ⟨0, rfl⟩

theorem Lay.nl {a b : Str} {l l' : List Line} (ha : Lay a l) (hb : Lay b l') : Lay (a ++ '\n' :: b) (l ++ l') := by
  obtain ⟨n, hn⟩ := ha
  obtain ⟨m, hm⟩ := hb
  refine ⟨n + m, ?_⟩
  rw [pieces_nl]
  exact linesOf_append (linesOf_mono (by omega) hn) (linesOf_mono (by omega) hm)

/-- A text of one line that begins with a character other than a blank. -/
theorem Lay.line {s : Str} {t : List Tok} (hn : '\n' ∉ s) {c : Char} {r : Str} (hs : s = c :: r) (hc : c ≠ ' ') (hl : Lexes s t) :
    Lay s [(0, t)] := by
  obtain ⟨n, hn'⟩ := hl
  refine ⟨n, ?_⟩
  rw [pieces_line hn, linesOf, lineOf, if_neg, hn']
  · subst hs
    have : (c :: r).takeWhile (fun x => decide (x = ' ')) = [] := by
      rw [List.takeWhile_cons, if_neg (by simpa using hc)]
    simp only [Option.map_some, this]
    rfl
  · subst hs
    simp [hc]

theorem tokens_blanks (k n : Nat) (s : Str) : tokens (n + k) (List.replicate k ' ' ++ s) = tokens n s := by
  induction k with
  | zero => rfl
  | succ k ih =>
    rw [List.replicate_succ, List.cons_append, ← Nat.add_assoc, tokens, if_pos rfl, ih]

theorem pieces_indent (s : Str) : pieces ("    ".toList ++ addIndent s) = (pieces s).map ("    ".toList ++ ·) := by
  have key : ∀ s, ∃ p ps, pieces s = p :: ps ∧ pieces (addIndent s) = p :: ps.map ("    ".toList ++ ·) := by
    intro s
    induction s with
    | nil => exact ⟨[], [], rfl, rfl⟩
    | cons c r ih =>
      obtain ⟨p, ps, h1, h2⟩ := ih
      by_cases hc : c = '\n'
      · refine ⟨[], p :: ps, by rw [pieces, if_pos hc, h1], ?_⟩
        rw [addIndent, if_pos hc]
        rw [show ('\n' :: ("    ".toList ++ addIndent r) : Str) = '\n' :: ' ' :: ' ' :: ' ' :: ' ' :: addIndent r from rfl]
        simp only [pieces, h2]
        rfl
      · refine ⟨c :: p, ps, by rw [pieces, if_neg hc, h1], ?_⟩
        rw [addIndent, if_neg hc, pieces, if_neg hc, h2]
  obtain ⟨p, ps, h1, h2⟩ := key s
  rw [h1, show ("    ".toList ++ addIndent s : Str) = ' ' :: ' ' :: ' ' :: ' ' :: addIndent s from rfl]
  simp only [pieces, h2]
  rfl

theorem lineOf_indent {n : Nat} {s : Str} {l : List Line} (h : lineOf n s = some l) :
    lineOf (n + 4) ("    ".toList ++ s) = some (shift 4 l) := by
  unfold lineOf at h ⊢
  have e : ("    ".toList ++ s : Str) = List.replicate 4 ' ' ++ s := rfl
  by_cases hs : (s.all fun x => decide (x = ' ')) = true
  · rw [if_pos hs] at h
    cases h
    rw [if_pos]
    · rfl
    · rw [e, List.all_append, hs]; rfl
  · rw [if_neg hs] at h
    rw [if_neg, e, tokens_blanks]
    · cases ht : tokens n s with
      | none => rw [ht] at h; cases h
      | some t =>
        rw [ht] at h
        cases h
        rw [List.takeWhile_append_of_pos (by decide)]
        simp only [Option.map_some, List.length_append, List.length_replicate]
        rfl
    · rw [e, List.all_append]
      intro h
      exact hs (Bool.and_eq_true _ _ ▸ h).2

theorem Lay.indent {s : Str} {l : List Line} (h : Lay s l) : Lay ("    ".toList ++ addIndent s) (shift 4 l) := by
  obtain ⟨n, hn⟩ := h
  refine ⟨n + 4, ?_⟩
  rw [pieces_indent]
  generalize pieces s = ps at hn
  induction ps generalizing l with
  | nil => cases hn; rfl
  | cons p ps ih =>
    unfold linesOf at hn
    cases h1 : lineOf n p with
    | none => rw [h1] at hn; cases hn
    | some x =>
      cases h2 : linesOf n ps with
      | none => rw [h1, h2] at hn; cases hn
      | some y =>
        rw [h1, h2] at hn
        cases hn
        rw [List.map_cons, linesOf, lineOf_indent h1, ih h2]
        rw [shift_append]

/-- The text is statements. -/
def GroupText (s : Str) (ss : List PyS) : Prop := ∃ ls, Lay s ls ∧ Group ls ss

theorem GroupText.reads {s : Str} {ss : List PyS} (h : GroupText s ss) : ReadsBlock s ss := by
  obtain ⟨ls, ⟨n, hn⟩, hg⟩ := h
  have h1 := hg.reads 0 [] [] [] (fun l hl => by cases hl) (block_nil 0)
  obtain ⟨m, hm⟩ := h1
  have h2 : block (n + m) 0 (shift 0 ls ++ []) = some (ss ++ [], []) := hm (n + m) (by omega)
  have h3 : shift 0 ls = ls := by
    unfold shift
    conv => rhs; rw [← List.map_id ls]
    refine List.map_congr_left fun l _ => ?_
    simp
  rw [h3, List.append_nil, List.append_nil] at h2
  exact ⟨n + m, ls, linesOf_mono (by omega) hn, h2⟩

/-- A statement and a line end. -/
theorem GroupText.nl {s : Str} {ss : List PyS} (h : GroupText s ss) : GroupText (s ++ "\n".toList) ss := by
  obtain ⟨ls, hl, hg⟩ := h
  refine ⟨ls, ?_, hg⟩
  have := hl.nl Lay.nil
  rwa [List.append_nil] at this

theorem GroupText.cons {s t : Str} {a b : List PyS} (h : GroupText s a) (h' : GroupText t b) : GroupText (s ++ "\n".toList ++ t) (a ++ b) := by
  obtain ⟨ls, hl, hg⟩ := h
  obtain ⟨ls', hl', hg'⟩ := h'
  refine ⟨ls ++ ls', ?_, hg.append hg'⟩
  rw [List.append_assoc]
  exact hl.nl hl'

/-- A line and an indented text. -/
theorem Lay.compound {h s : Str} {t : List Tok} {ls : List Line} (hh : Lay h [(0, t)]) (hs : Lay s ls) :
    Lay (h ++ addIndent ('\n' :: s)) ((0, t) :: shift 4 ls) := by
  have : addIndent ('\n' :: s) = '\n' :: ("    ".toList ++ addIndent s) := by rw [addIndent, if_pos rfl]
  rw [this]
  exact hh.nl hs.indent

end PyText
end Verif
