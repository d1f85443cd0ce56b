import Verif.Lemmas.Template
import Verif.Model.TemplateLoop
import Verif.Spec.TemplateLoop
/-! # Columns of loops in templates -/
namespace Verif
namespace Template

/-! ## Lines -/

/-- The last of the positions that is less than a bound, as long as they are. -/
def below (p : Nat) : Nat → List Nat → Nat
  | last, [] => last
  | last, e :: es => if e < p then below p e es else last

theorem advance_below (p : Nat) : ∀ (es : List Nat) (last next : Nat), (advance p last next es).1 = below p last (next :: es)
  | [], last, next => by
    simp only [advance, below]
    split <;> rfl
  | e :: es, last, next => by
    rw [advance, below]
    split
    · exact advance_below p es next e
    · rfl

theorem advance_later {p p' : Nat} (h : p ≤ p') : ∀ (es : List Nat) (last next : Nat),
    below p' (advance p last next es).1 ((advance p last next es).2.1 :: (advance p last next es).2.2) = below p' last (next :: es)
  | [], last, next => by
    simp only [advance]
    split
    · have : next < p' := by omega
      simp [below, this]
    · rfl
  | e :: es, last, next => by
    rw [advance]
    split
    · have h1 : next < p' := by omega
      rw [advance_later h es next e]
      rw [below.eq_2 p' last next, if_pos h1]
    · rfl

theorem place_all : ∀ (ns : List Str) (vs : List (Nat × Option Str)) (last next : Nat) (es : List Nat), ns.length ≤ vs.length → (vs.map (·.1)).Pairwise (· ≤ ·) →
    place ns vs (last, next, es) =
      some (List.zipWith (fun n v => { dataname := n, delimiter := v.2, column := (v.1 : Int) - (below v.1 last (next :: es) : Nat) + 1 }) ns vs)
  | [], _, _, _, _, _, _ => by simp [place]
  | _ :: _, [], _, _, _, h, _ => by simp at h
  | n :: ns, v :: vs, last, next, es, h, hp => by
    rw [place]
    simp only [List.map_cons, List.pairwise_cons] at hp
    have ih := place_all ns vs (advance v.1 last next es).1 (advance v.1 last next es).2.1 (advance v.1 last next es).2.2 (by simpa using h) hp.2
    have hst : advance v.1 last next es = ((advance v.1 last next es).1, (advance v.1 last next es).2.1, (advance v.1 last next es).2.2) := rfl
    rw [← hst] at ih
    rw [ih]
    simp only [Option.map_some, List.zipWith_cons_cons, advance_below, Option.some.injEq, List.cons.injEq, true_and]
    have hall : ∀ (ns : List Str) (ws : List (Nat × Option Str)), (∀ w ∈ ws, v.1 ≤ w.1) →
        List.zipWith (fun n w => ({ dataname := n, delimiter := w.2, column := (w.1 : Int) - (below w.1 (below v.1 last (next :: es)) ((advance v.1 last next es).2.1 :: (advance v.1 last next es).2.2) : Nat) + 1 } : Hint)) ns ws =
        List.zipWith (fun n w => ({ dataname := n, delimiter := w.2, column := (w.1 : Int) - (below w.1 last (next :: es) : Nat) + 1 } : Hint)) ns ws := by
      intro ns
      induction ns with
      | nil => intros; rfl
      | cons m ns ih =>
        intro ws hw
        cases ws with
        | nil => rfl
        | cons w ws =>
          have := advance_later (hw w List.mem_cons_self) es last next
          rw [advance_below] at this
          simp only [List.zipWith_cons_cons, this, ih ws fun x hx => hw x (List.mem_cons_of_mem _ hx)]
    exact hall ns vs fun w hw => hp.1 w.1 (List.mem_map_of_mem hw)

theorem below_le (p : Nat) : ∀ (es : List Nat) (last : Nat), last ≤ p → below p last es ≤ p
  | [], _, h => h
  | e :: es, last, h => by
    rw [below]
    split
    · exact below_le p es e (by omega)
    · exact h

theorem place_positive : ∀ (ns : List Str) (vs : List (Nat × Option Str)) (last next : Nat) (es : List Nat) (hs : List Hint), (∀ v ∈ vs, last ≤ v.1) → (vs.map (·.1)).Pairwise (· ≤ ·) →
    place ns vs (last, next, es) = some hs → ∀ h ∈ hs, 1 ≤ h.column
  | [], _, _, _, _, hs, _, _, h => by
    simp only [place, Option.some.injEq] at h
    subst h
    simp
  | _ :: _, [], _, _, _, _, _, _, h => by simp [place] at h
  | n :: ns, v :: vs, last, next, es, hs, hl, hp, h => by
    rw [place] at h
    simp only [Option.map_eq_some_iff] at h
    obtain ⟨hs', h1, rfl⟩ := h
    simp only [List.map_cons, List.pairwise_cons] at hp
    have hb : (advance v.1 last next es).1 ≤ v.1 := by
      rw [advance_below]
      exact below_le _ _ _ (hl v List.mem_cons_self)
    intro x hx
    rcases List.mem_cons.mp hx with rfl | hx
    · simp only
      omega
    · exact place_positive ns vs (advance v.1 last next es).1 (advance v.1 last next es).2.1 (advance v.1 last next es).2.2 hs'
        (fun w hw => Nat.le_trans hb (hp.1 w.1 (List.mem_map_of_mem hw))) hp.2 h1 x hx

theorem place_short : ∀ (ns : List Str) (vs : List (Nat × Option Str)) (st : Nat × Nat × List Nat), vs.length < ns.length → place ns vs st = none
  | [], _, _, h => by simp at h
  | _ :: _, [], _, _ => by simp [place]
  | n :: ns, v :: vs, (last, next, es), h => by
    rw [place, place_short ns vs _ (by simpa using h)]
    rfl

/-- The number of characters after the last end of a line. -/
def col (t : Str) : Nat := (t.reverse.takeWhile (· != '\n')).length

theorem takeWhile_append_stop {p : Char → Bool} : ∀ (a b : Str), (a ++ b).takeWhile p = if a.all p then a ++ b.takeWhile p else a.takeWhile p
  | [], b => by simp
  | c :: a, b => by
    cases hc : p c with
    | true =>
      simp only [List.cons_append, List.takeWhile_cons, hc, if_true, List.all_cons, Bool.true_and, takeWhile_append_stop a b]
      split <;> rfl
    | false => simp [hc]

theorem col_cons (c : Char) (t : Str) : col (c :: t) = if '\n' ∈ t then col t else if c = '\n' then t.length else t.length + 1 := by
  unfold col
  rw [List.reverse_cons, takeWhile_append_stop]
  by_cases h : '\n' ∈ t
  · have : t.reverse.all (· != '\n') = false := by
      simp only [List.all_eq_false]
      exact ⟨'\n', by simpa using h, by decide⟩
    simp [h, this]
  · have : t.reverse.all (· != '\n') = true := by
      simp only [List.all_eq_true, List.mem_reverse, bne_iff_ne, ne_eq]
      exact fun x hx e => h (e ▸ hx)
    rw [if_pos this, if_neg h]
    by_cases hc : c = '\n'
    · simp [hc]
    · simp [hc]

theorem col_none {t : Str} (h : '\n' ∉ t) : col t = t.length := by
  have := (takeWhile_stop (p := fun x => x != '\n') t.reverse [] (fun x hx => by
    simp only [bne_iff_ne, ne_eq]
    exact fun e => h (e ▸ (by simpa using hx))) (by simp)).1
  rw [List.append_nil] at this
  simp only [col, this, List.length_reverse]

theorem below_ahead (p : Nat) : ∀ (s : Str) (off last : Nat), p ≤ off + 1 → below p last (lineStarts off s) = last
  | [], _, _, _ => rfl
  | c :: r, off, last, h => by
    rw [lineStarts]
    split
    · rw [below, if_neg (by omega)]
    · exact below_ahead p r (off + 1) last (by omega)

theorem below_lines : ∀ (s : Str) (off q last : Nat), q ≤ s.length →
    below (off + q + 1) last (lineStarts off s) = if '\n' ∈ s.take q then off + q - col (s.take q) else last
  | [], _, q, _, h => by
    simp [lineStarts, below]
  | c :: r, off, 0, last, _ => by
    rw [below_ahead _ _ _ _ (by omega)]
    simp
  | c :: r, off, q + 1, last, h => by
    have hq : q ≤ r.length := by simpa using h
    have he : off + (q + 1) + 1 = (off + 1) + q + 1 := by omega
    rw [lineStarts, he]
    have hlen : (r.take q).length = q := by simp [hq]
    simp only [List.take_succ_cons, List.mem_cons]
    by_cases hc : c = '\n'
    · rw [if_pos hc, below, if_pos (by omega), below_lines r (off + 1) q (off + 1) hq, col_cons]
      rw [if_pos (show '\n' = c ∨ '\n' ∈ r.take q from .inl hc.symm)]
      by_cases hm : '\n' ∈ r.take q
      · rw [if_pos hm, if_pos hm]
        congr 1
        omega
      · rw [if_neg hm, if_neg hm, if_pos hc, hlen]
        omega
    · rw [if_neg hc, below_lines r (off + 1) q last hq, col_cons]
      by_cases hm : '\n' ∈ r.take q
      · rw [if_pos hm, if_pos (.inr hm), if_pos hm]
        congr 1
        omega
      · rw [if_neg hm, if_neg]
        rintro (e | e)
        · exact hc e.symm
        · exact hm e

theorem below_text (s : Str) (q : Nat) (h : q ≤ s.length) : below (q + 1) 0 (0 :: lineStarts 0 s) = q - col (s.take q) := by
  rw [below, if_pos (by omega)]
  have := below_lines s 0 q 0 h
  simp only [Nat.zero_add] at this
  rw [this]
  split
  · rfl
  · rename_i hm
    rw [col_none hm]
    simp [h]

theorem col_le (t : Str) : col t ≤ t.length := by
  unfold col
  have := (List.takeWhile_prefix (l := t.reverse) (· != '\n')).length_le
  simpa using this

theorem columnAt_succ {text : Str} {p : Nat} {c : Char} (h : text[p]? = some c) (hc : c ≠ '\n') : columnAt text (p + 1) = columnAt text p + 1 := by
  have : text.take (p + 1) = text.take p ++ [c] := by
    rw [List.take_add_one, h]
    rfl
  simp [columnAt, this, hc]

theorem columnAt_line {text : Str} {p : Nat} (h : text[p]? = some '\n') : columnAt text (p + 1) = 0 := by
  have : text.take (p + 1) = text.take p ++ ['\n'] := by
    rw [List.take_add_one, h]
    rfl
  simp [columnAt, this]

/-! ## Values -/

theorem values_gap : ∀ (g rest : Str) (p : Nat), (∀ c ∈ g, isSpace c = true) → values p 0 (g ++ rest) = values (p + g.length) 0 rest
  | [], _, _, _ => rfl
  | c :: g, rest, p, h => by
    rw [List.cons_append, values, if_pos (h c List.mem_cons_self), values_gap g rest (p + 1) fun x hx => h x (List.mem_cons_of_mem _ hx)]
    congr 1
    simp
    omega

theorem values_skip : ∀ (u rest : Str) (p : Nat), values p u.length (u ++ rest) = values (p + u.length) 0 rest
  | [], _, _ => rfl
  | c :: u, rest, p => by
    rw [List.cons_append, List.length_cons, values, values_skip u rest (p + 1)]
    congr 1
    omega

/-- The text goes on with white space, if at all. -/
def Ends (rest : Str) : Prop := ∀ c ∈ rest.head?, isSpace c = true

theorem ends_ne {rest : Str} (h : Ends rest) {c : Char} (hc : isSpace c = false) : rest.head? ≠ some c := by
  intro e
  have := h c (by simp [e])
  rw [hc] at this
  cases this

theorem tripleLen_none {s : Str} (h : s.take 3 ≠ ['\'', '\'', '\'']) : tripleLen s = none := by
  unfold tripleLen
  rw [if_neg]
  intro e
  exact h e.1

theorem quotedLen_none {q : Char} {p : Char → Bool} {s : Str} (h : s.head? ≠ some q) : quotedLen q p s = none := by
  cases s with
  | nil => rfl
  | cons c r =>
    have : c ≠ q := fun e => h (by simp [e])
    simp [quotedLen, this]

theorem quotedLen_word {q : Char} {p : Char → Bool} {s rest : Str} (hp : p q = false) (hs : ∀ c ∈ s, p c = true) (hr : rest.head? ≠ some q) :
    quotedLen q p (q :: (s ++ [q] ++ rest)) = some (s.length + 2) := by
  have h1 := takeWhile_stop (p := p) s ([q] ++ rest) hs (by simpa using hp)
  have h2 := takeWhile_stop (p := fun c => c == q) [q] rest (by simp) (by
    intro c hc
    simp only [beq_eq_false_iff_ne, ne_eq]
    rintro rfl
    exact hr hc)
  simp only [quotedLen, List.append_assoc, h1.1, h1.2, h2.1]
  simp
  omega

theorem valueAt_word {w : Str} {d : Option Str} (h : Word w d) {rest : Str} (hr : Ends rest) : valueAt (w ++ rest) = (w.length, d) ∧ ∃ c r, w = c :: r ∧ isSpace c = false := by
  cases h with
  | bare _ hne hs h1 h2 =>
    cases w with
    | nil => exact absurd rfl hne
    | cons c r =>
      refine ⟨?_, c, r, rfl, hs c List.mem_cons_self⟩
      have e1 : (c :: r ++ rest).head? ≠ some '\'' := h1
      have e2 : (c :: r ++ rest).head? ≠ some '"' := h2
      have e3 : (c :: r ++ rest).take 3 ≠ ['\'', '\'', '\''] := by
        intro e
        have := congrArg List.head? e
        simp at this
        exact h1 (by simp [this])
      have h4 := takeWhile_stop (p := fun c => !isSpace c) (c :: r) rest (fun x hx => by simp [hs x hx]) (fun x hx => by simp [hr x hx])
      simp only [valueAt, tripleLen_none e3, quotedLen_none e1, quotedLen_none e2, h4.1]
  | single s hs =>
    refine ⟨?_, _, _, rfl, by decide⟩
    have e3 : ('\'' :: (s ++ ['\'']) ++ rest).take 3 ≠ ['\'', '\'', '\''] := by
      intro e
      cases s with
      | nil =>
        cases rest with
        | nil => simp at e
        | cons x rest =>
          simp at e
          exact ends_ne hr (c := '\'') (by decide) (by simp [e])
      | cons x s =>
        simp at e
        exact (hs x List.mem_cons_self).2.2.2 e.1
    have := quotedLen_word (q := '\'') (p := inSingle) (s := s) (rest := rest) (by decide) (fun x hx => by
      obtain ⟨a, b, c, d⟩ := hs x hx
      simp [inSingle, a, b, c, d]) (ends_ne hr (by decide))
    simp only [List.cons_append, valueAt]
    rw [this, tripleLen_none (by simpa using e3)]
    simp
  | double s hs =>
    refine ⟨?_, _, _, rfl, by decide⟩
    have := quotedLen_word (q := '"') (p := inDouble) (s := s) (rest := rest) (by decide) (fun x hx => by
      obtain ⟨a, b, c⟩ := hs x hx
      simp [inDouble, a, b, c]) (ends_ne hr (by decide))
    have e1 : ('"' :: (s ++ ['"'] ++ rest)).head? ≠ some '\'' := by simp
    simp only [List.cons_append, valueAt]
    rw [this, tripleLen_none (by simp), quotedLen_none e1]
    simp
  | triple s hs =>
    refine ⟨?_, _, _, rfl, by decide⟩
    have h1 := takeWhile_stop (p := inSingle) s (['\'', '\'', '\''] ++ rest) (fun x hx => by
      obtain ⟨a, b, c, d⟩ := hs x hx
      simp [inSingle, a, b, c, d]) (by simp [inSingle])
    have : tripleLen (['\'', '\'', '\''] ++ (s ++ ['\'', '\'', '\'']) ++ rest) = some (6 + s.length) := by
      have e1 : (['\'', '\'', '\''] ++ (s ++ ['\'', '\'', '\'']) ++ rest).take 3 = tripleS := by simp [tripleS]
      have e2 : (['\'', '\'', '\''] ++ (s ++ ['\'', '\'', '\'']) ++ rest).drop 3 = s ++ (['\'', '\'', '\''] ++ rest) := by simp
      unfold tripleLen
      rw [e1, e2, h1.1, h1.2, if_pos]
      exact ⟨rfl, by simp [tripleS]⟩
    simp only [valueAt, this, tripleS]
    simp
    omega

/-- The values of a text that is made of values and white space. -/
theorem values_cells (tail : Str) (ht : Ends tail) : ∀ (cells : List Cell) (p : Nat), (∀ x ∈ cells, x.1 ≠ [] ∧ (∀ c ∈ x.1, isSpace c = true) ∧ Word x.2.1 x.2.2) →
    values p 0 (flat cells ++ tail) = starts p cells ++ values (p + (flat cells).length) 0 tail ∧ Ends (flat cells ++ tail)
  | [], p, _ => ⟨by simp [flat, starts], by simpa [flat] using ht⟩
  | (g, w, d) :: r, p, h => by
    obtain ⟨hg, hs, hw⟩ := h _ List.mem_cons_self
    simp only at hg hs hw
    obtain ⟨ih, he⟩ := values_cells tail ht r (p + g.length + w.length) fun x hx => h x (List.mem_cons_of_mem _ hx)
    obtain ⟨hv, c, u, rfl, hc⟩ := valueAt_word hw he
    refine ⟨?_, ?_⟩
    · simp only [flat, starts, List.append_assoc]
      rw [values_gap g _ p hs]
      have hv' : valueAt (c :: (u ++ (flat r ++ tail))) = ((c :: u).length, d) := hv
      rw [List.cons_append, values, if_neg (by simp [hc]), hv']
      simp only [List.length_cons, Nat.add_sub_cancel]
      rw [values_skip u _ (p + g.length + 1)]
      have e : p + g.length + 1 + u.length = p + g.length + (u.length + 1) := by omega
      simp only [List.length_cons] at ih
      rw [e, ih]
      simp only [List.cons_append, List.length_append, List.length_cons, List.cons.injEq, true_and]
      congr 2
      omega
    · intro x hx
      cases g with
      | nil => exact absurd rfl hg
      | cons y g =>
        simp [flat] at hx
        exact hs x (by simp [hx])

theorem unnamed_free {s : Str} (h : '_' ∉ s) : Unnamed s := by
  intro a c b e
  exact absurd (by rw [e]; simp) h

theorem packetText_append : ∀ (s tail : Str), Unnamed s → Ends tail → packetText (s ++ tail) = s ++ packetText tail
  | [], _, _, _ => rfl
  | c :: s, tail, hs, ht => by
    have h1 : isItem (s ++ tail) = false := by
      cases s with
      | nil =>
        cases tail with
        | nil => rfl
        | cons x t =>
          have : x ≠ '_' := fun e => ends_ne ht (c := '_') (by decide) (by simp [e])
          rw [List.nil_append]
          unfold isItem
          split
          · rename_i heq
            simp at heq
            exact absurd heq.1 this
          · rfl
      | cons x t =>
        rw [List.cons_append]
        unfold isItem
        split
        · rename_i d r heq
          simp only [List.cons.injEq] at heq
          obtain ⟨rfl, heq⟩ := heq
          have hd : isSpace d = true := by
            cases t with
            | nil => exact ht d (by rw [List.nil_append] at heq; simp [heq])
            | cons y t =>
              simp only [List.cons_append, List.cons.injEq] at heq
              obtain ⟨rfl, _⟩ := heq
              exact hs [c] y t rfl
          simp [hd]
        · rfl
    rw [List.cons_append, packetText, h1]
    simp only [Bool.false_eq_true, if_false, List.cons_append, List.cons.injEq, true_and]
    exact packetText_append s tail (fun a d b e => hs (c :: a) d b (by rw [e]; rfl)) ht

theorem packetText_cut : ∀ (s : Str) (c d : Char) (rest : Str), '_' ∉ s → c ≠ '_' → isSpace d = false → packetText (s ++ c :: '_' :: d :: rest) = s
  | [], c, d, rest, _, _, hd => by
    have : isItem ('_' :: d :: rest) = true := by simp [isItem, hd]
    simp [packetText, this]
  | x :: s, c, d, rest, hs, hc, hd => by
    have h1 : isItem (s ++ c :: '_' :: d :: rest) = false := by
      cases s with
      | nil =>
        unfold isItem
        split
        · rename_i heq
          simp at heq
          exact absurd heq.1 hc
        · rfl
      | cons y t =>
        have : y ≠ '_' := fun e => hs (by simp [e])
        unfold isItem
        split
        · rename_i heq
          simp at heq
          exact absurd heq.1 this
        · rfl
    rw [List.cons_append, packetText, h1]
    simp only [Bool.false_eq_true, if_false, List.cons.injEq, true_and]
    exact packetText_cut s c d rest (fun h => hs (List.mem_cons_of_mem _ h)) hc hd

theorem packetText_ends {tail : Str} (h : Ends tail) : Ends (packetText tail) := by
  cases tail with
  | nil => exact h
  | cons c r =>
    rw [packetText]
    split
    · intro x hx
      simp at hx
    · intro x hx
      exact h x (by simpa using hx)

theorem starts_length : ∀ (cells : List Cell) (p : Nat), (starts p cells).length = cells.length
  | [], _ => rfl
  | _ :: r, _ => by simp [starts, starts_length r]

theorem starts_bounds : ∀ (cells : List Cell) (p : Nat), ∀ v ∈ starts p cells, p ≤ v.1 ∧ v.1 ≤ p + (flat cells).length
  | [], _, v, h => by simp [starts] at h
  | (g, w, d) :: r, p, v, h => by
    simp only [starts, List.mem_cons] at h
    rcases h with rfl | h
    · simp [flat]
    · have := starts_bounds r _ v h
      simp only [flat, List.length_append]
      omega

theorem starts_pairwise : ∀ (cells : List Cell) (p : Nat), ((starts p cells).map (·.1)).Pairwise (· ≤ ·)
  | [], _ => by simp [starts]
  | (g, w, d) :: r, p => by
    simp only [starts, List.map_cons, List.pairwise_cons, List.mem_map]
    refine ⟨?_, starts_pairwise r _⟩
    rintro _ ⟨v, hv, rfl⟩
    have := starts_bounds r _ v hv
    omega

/-- The character before a value is the last one of the white space before it. -/
theorem starts_gap : ∀ (cells : List Cell) (p i : Nat) (v : Nat × Option Str) (x : Cell), (∀ y ∈ cells, y.1 ≠ []) → (starts p cells)[i]? = some v → cells[i]? = some x →
    p + 1 ≤ v.1 ∧ (flat cells)[v.1 - 1 - p]? = x.1.getLast?
  | [], _, _, _, _, _, h, _ => by simp [starts] at h
  | (g, w, d) :: r, p, 0, v, x, hg, hv, hx => by
    simp only [starts, List.getElem?_cons_zero, Option.some.injEq] at hv hx
    subst hv hx
    have hne := hg _ List.mem_cons_self
    have hl : 0 < g.length := by
      cases g with
      | nil => exact absurd rfl hne
      | cons => simp
    simp only [flat]
    refine ⟨by omega, ?_⟩
    rw [List.getElem?_append_left (by omega), List.getLast?_eq_getElem?]
    congr 1
    omega
  | (g, w, d) :: r, p, i + 1, v, x, hg, hv, hx => by
    simp only [starts, List.getElem?_cons_succ] at hv hx
    obtain ⟨h1, h2⟩ := starts_gap r _ i v x (fun y hy => hg y (List.mem_cons_of_mem _ hy)) hv hx
    refine ⟨by omega, ?_⟩
    simp only [flat]
    rw [List.getElem?_append_right (by omega), List.getElem?_append_right (by omega), ← h2]
    congr 1
    omega

theorem values_sorted : ∀ (s : Str) (p k : Nat), ((values p k s).map (·.1)).Pairwise (· ≤ ·) ∧ ∀ v ∈ values p k s, p ≤ v.1
  | [], p, k => by cases k <;> simp [values]
  | c :: r, p, k + 1 => by
    have := values_sorted r (p + 1) k
    rw [values]
    exact ⟨this.1, fun v hv => by have := this.2 v hv; omega⟩
  | c :: r, p, 0 => by
    rw [values]
    split
    · have := values_sorted r (p + 1) 0
      exact ⟨this.1, fun v hv => by have := this.2 v hv; omega⟩
    · have := values_sorted r (p + 1) ((valueAt (c :: r)).1 - 1)
      refine ⟨?_, ?_⟩
      · simp only [List.map_cons, List.pairwise_cons, List.mem_map]
        refine ⟨?_, this.1⟩
        rintro _ ⟨v, hv, rfl⟩
        have := this.2 v hv
        omega
      · intro v hv
        rcases List.mem_cons.mp hv with rfl | hv
        · exact Nat.le_refl _
        · have := this.2 v hv
          omega

/-! ## Rows -/

/-- A value at its column. -/
theorem write_column {s : Sink} {t : Str} {c : Nat} {x : Char} (b : Bool) (hc : s.pos < c) (hw : s.pos + t.length ≤ s.width) (hn : '\n' ∉ t) (hl : t.getLast? = some x) :
    s.write t { canbreak := b, startcol := (c : Int) } = .ok { s with out := s.out ++ (List.replicate (c - s.pos) ' ' ++ t), pos := c + t.length, last := some x } := by
  have hfull : ¬(s.pos + t.length > s.width) := by omega
  have hpos : 0 < c := by omega
  have : ¬((c : Int) < 0) := by omega
  simp [Sink.write, hfull, Sink.toColumn, Sink.toTab, Sink.setIndent, Sink.account, Sink.padTo, Sink.afterBreak, hpos, hc, hn, hl, this]

section Laws
open Print
variable [CaseFold]

theorem formatRow_at {st : Style} {hints : List Hint} : ∀ (l : List Placed) (s : Sink), (∀ x ∈ l, x.Ok st hints) → Room s.width s.pos (l.map fun x => (x.column, x.word)) →
    ∃ s', formatRow st hints s (l.map (·.name)) (l.map (·.value)) = .ok s' ∧ s'.out = s.out ++ rowAt s.pos (l.map fun x => (x.column, x.word))
  | [], s, _, _ => ⟨s, by simp [formatRow], by simp [rowAt]⟩
  | x :: l, s, h, hr => by
    obtain ⟨hint, h1, h2, h3, h4, c, h5, h6, h7, h8⟩ := h x List.mem_cons_self
    simp only [List.map_cons, Room] at hr
    obtain ⟨r1, r2, r3⟩ := hr
    have hval : formatPacketItem st (loopHint hints x.name) s x.value =
        .ok { s with out := s.out ++ (List.replicate (x.column - s.pos) ' ' ++ x.word), pos := x.column + x.word.length, last := some c } := by
      rw [h1]
      rcases h3 with ⟨y, hy, hf⟩ | hy
      · rw [hy]
        simp only [formatPacketItem, hintDelimiter, hf, hintColumn, h2]
        exact write_column false r1 (by omega) h4 h5
      · rw [hy]
        simp only [formatPacketItem, formatValue, hintColumn, h2]
        exact write_column true r1 (by omega) h4 h5
    have hb := write_blank (s := { s with out := s.out ++ (List.replicate (x.column - s.pos) ' ' ++ x.word), pos := x.column + x.word.length, last := some c }) (c := c) rfl h6 h7 h8 (by simp only; omega)
    obtain ⟨s', k1, k2⟩ := formatRow_at l { s with out := s.out ++ (List.replicate (x.column - s.pos) ' ' ++ x.word) ++ [' '], pos := x.column + x.word.length + 1, last := some ' ' }
      (fun y hy => h y (List.mem_cons_of_mem _ hy)) r3
    refine ⟨s', ?_, ?_⟩
    · simp only [List.map_cons, formatRow, hval, andThen, hb]
      exact k1
    · rw [k2]
      simp [rowAt]

end Laws

end Template
end Verif
