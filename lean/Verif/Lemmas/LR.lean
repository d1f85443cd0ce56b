import Verif.Spec.LR
/-! # Tables that fit a grammar

A table is sound if every text it accepts is a phrase of the grammar, and complete for a grammar if it accepts every phrase with its value. Both follow
from conditions on the finite tables that can be computed. -/
namespace Verif
namespace LR
variable {V : Type}

/-! ## Derivations -/

theorem row_beyond (t : List (List (List Nat))) (s : Nat) (h : 16 * t.length ≤ s) : row t s = [] := by
  have h1 : t.length ≤ s / 16 := by omega
  unfold row
  simp [List.getD_eq_getElem?_getD, List.getElem?_eq_none h1]

theorem Derives.append {G : List (Rule V)} {xs ys : List Sym} {w w' : List (Tok V)} {vs us : List V} (h : Derives G xs w vs)
    (h' : Derives G ys w' us) : Derives G (xs ++ ys) (w ++ w') (vs ++ us) := by
  induction h with
  | nil => exact h'
  | tok k v _ ih => exact .tok k v ih
  | rule hr hd _ _ ih =>
    rw [List.append_assoc]
    exact .rule hr hd ih

theorem Derives.length {G : List (Rule V)} {xs : List Sym} {w : List (Tok V)} {vs : List V} (h : Derives G xs w vs) : vs.length = xs.length := by
  induction h with
  | nil => rfl
  | tok _ _ _ ih => simp [ih]
  | rule _ _ _ _ ih => simp [ih]

/-! ## Soundness -/

/-- The state after a symbol. -/
def Table.trans (T : Table) (s : Nat) : Sym → Option Nat
  | .t k => match T.act s k with
    | some (.shift s') => some s'
    | _ => none
  | .n a => T.next s a

/-- All transitions written in the rows of a state. -/
def Table.transOf (T : Table) (s : Nat) : List (Sym × Nat) :=
  ((row T.action s).filterMap fun c => match decode (c / 64) with | .shift s' => some (.t (c % 64), s') | _ => none) ++
  (row T.goto s).map fun c => (.n (c % 128), c / 128)

theorem Table.act_mem {T : Table} {s k : Nat} {a : Act} (h : T.act s k = some a) :
    ∃ c ∈ row T.action s, c % 64 = k ∧ decode (c / 64) = a := by
  unfold Table.act at h
  cases hf : (row T.action s).find? (fun c => c % 64 == k) with
  | none => rw [hf] at h; cases h
  | some c =>
    rw [hf] at h
    injection h with h
    exact ⟨c, List.mem_of_find?_eq_some hf, by have := List.find?_some hf; simpa using this, h⟩

theorem Table.trans_mem {T : Table} {s s' : Nat} {x : Sym} (h : T.trans s x = some s') : (x, s') ∈ T.transOf s := by
  unfold Table.transOf
  cases x with
  | t k =>
    refine List.mem_append_left _ ?_
    simp only [Table.trans] at h
    cases ha : T.act s k with
    | none => rw [ha] at h; cases h
    | some a =>
      rw [ha] at h
      obtain ⟨c, hc, h1, h2⟩ := Table.act_mem ha
      cases a with
      | shift q =>
        injection h with h
        subst h
        refine List.mem_filterMap.mpr ⟨c, hc, ?_⟩
        rw [h2, h1]
      | reduce _ => cases h
      | accept => cases h
  | n a =>
    refine List.mem_append_right _ ?_
    simp only [Table.trans, Table.next] at h
    cases hf : (row T.goto s).find? (fun c => c % 128 == a) with
    | none => rw [hf] at h; cases h
    | some c =>
      rw [hf] at h
      injection h with h
      refine List.mem_map.mpr ⟨c, List.mem_of_find?_eq_some hf, ?_⟩
      have := List.find?_some hf
      simp only [beq_iff_eq] at this
      simp only at h
      rw [this, h]

/-- The condition for soundness: `past` gives for each state symbols that are on top of the stack whenever it is reached, the last first; `acc` is
the state that accepts; `start` is the nonterminal of the whole text. -/
def Table.checkSound (G : List (Rule V)) (T : Table) (past : List (List Sym)) (acc start : Nat) : Bool :=
  past.getD 0 [] == [] && past.getD acc [] == [.n start] && acc != 0 &&
  (List.range (16 * T.action.length)).all (fun s =>
    ((T.transOf s).all fun x =>
      (past.getD x.2 []).isPrefixOf (x.1 :: past.getD s []) && x.2 != 0 && (x.2 != acc || s == 0)) &&
    (row T.action s).all fun c =>
      match decode (c / 64) with
      | .shift _ => true
      | .accept => s == acc && c % 64 == 0
      | .reduce p => match G[p]? with
        | none => true
        | some r => r.rhs.reverse.isPrefixOf (past.getD s [])) &&
  decide (T.goto.length ≤ T.action.length)

/-- A stack as it arises: each state follows from the one below with a symbol, and the values belong to phrases of these symbols. -/
inductive Path (G : List (Rule V)) (T : Table) : List (Nat × V) → List Sym → List (Tok V) → Prop
  | nil : Path G T [] [] []
  | push {st : List (Nat × V)} {syms : List Sym} {u w : List (Tok V)} {x : Sym} {s : Nat} {v : V} : Path G T st syms u →
      T.trans (top st) x = some s → Derives G [x] w [v] → Path G T ((s, v) :: st) (x :: syms) (u ++ w)

section
variable {G : List (Rule V)} {T : Table} {past : List (List Sym)} {acc start : Nat} (hc : T.checkSound G past acc start = true)
include hc

theorem check_parts : past.getD 0 [] = [] ∧ past.getD acc [] = [.n start] ∧ acc ≠ 0 ∧ T.goto.length ≤ T.action.length ∧
    ∀ s < 16 * T.action.length, (∀ x ∈ T.transOf s, past.getD x.2 [] <+: x.1 :: past.getD s [] ∧ x.2 ≠ 0 ∧ (x.2 = acc → s = 0)) ∧
      ∀ c ∈ row T.action s, match decode (c / 64) with
        | .shift _ => True
        | .accept => s = acc ∧ c % 64 = 0
        | .reduce p => ∀ r, G[p]? = some r → r.rhs.reverse <+: past.getD s [] := by
  unfold Table.checkSound at hc
  simp only [Bool.and_eq_true, beq_iff_eq, bne_iff_ne, decide_eq_true_eq, List.all_eq_true, List.mem_range] at hc
  obtain ⟨⟨⟨⟨h1, h2⟩, h3⟩, h4⟩, h5⟩ := hc
  refine ⟨h1, h2, h3, h5, fun s hs => ⟨fun x hx => ?_, fun c hcm => ?_⟩⟩
  · obtain ⟨⟨a, b⟩, d⟩ := (h4 s hs).1 x hx
    refine ⟨List.isPrefixOf_iff_prefix.mp a, b, fun e => ?_⟩
    simpa [e] using d
  · have := (h4 s hs).2 c hcm
    split at this
    · trivial
    · simpa using this
    · intro r hr
      rw [hr] at this
      exact List.isPrefixOf_iff_prefix.mp this

theorem check_trans {s s' : Nat} {x : Sym} (h : T.trans s x = some s') :
    past.getD s' [] <+: x :: past.getD s [] ∧ s' ≠ 0 ∧ (s' = acc → s = 0) := by
  obtain ⟨-, -, -, hl, h5⟩ := check_parts hc
  have hm := Table.trans_mem h
  by_cases hs : s < 16 * T.action.length
  · exact (h5 s hs).1 _ hm
  · exfalso
    unfold Table.transOf at hm
    rw [row_beyond _ _ (by omega), row_beyond _ _ (by omega)] at hm
    cases hm

omit hc in
theorem check_act {s k : Nat} {a : Act} (h : T.act s k = some a) : s < 16 * T.action.length := by
  obtain ⟨c, hm, -⟩ := Table.act_mem h
  by_cases hs : s < 16 * T.action.length
  · exact hs
  · rw [row_beyond _ _ (by omega)] at hm
    cases hm

theorem path_past {st : List (Nat × V)} {syms : List Sym} {u : List (Tok V)} (h : Path G T st syms u) : past.getD (top st) [] <+: syms := by
  induction h with
  | nil => rw [show top ([] : List (Nat × V)) = 0 from rfl, (check_parts hc).1]; exact List.nil_prefix
  | push _ ht _ ih =>
    refine (check_trans hc ht).1.trans ?_
    obtain ⟨t, ht⟩ := ih
    exact ⟨t, by rw [List.cons_append, ht]⟩

theorem path_zero {st : List (Nat × V)} {syms : List Sym} {u : List (Tok V)} (h : Path G T st syms u) (h0 : top st = 0) : st = [] := by
  cases h with
  | nil => rfl
  | push _ ht _ => exact absurd h0 (check_trans hc ht).2.1

omit hc in
theorem path_pop : ∀ (ys : List Sym) {st : List (Nat × V)} {syms : List Sym} {u : List (Tok V)}, Path G T st syms u → ys <+: syms →
    ∃ u' w, u = u' ++ w ∧ Path G T (st.drop ys.length) (syms.drop ys.length) u' ∧ Derives G ys.reverse w ((st.take ys.length).reverse.map (·.2))
  | [], st, syms, u, h, _ => ⟨u, [], by simp, h, .nil⟩
  | y :: ys, _, _, _, h, hp => by
    cases h with
    | nil =>
      obtain ⟨t, ht⟩ := hp
      cases ht
    | push hpath ht hd =>
      rename_i st syms u w x s v
      obtain ⟨t, hp⟩ := hp
      rw [List.cons_append] at hp
      injection hp with h1 h2
      subst h1
      obtain ⟨u', w', hu, hp', hd'⟩ := path_pop ys hpath ⟨t, h2⟩
      refine ⟨u', w' ++ w, by rw [hu, List.append_assoc], hp', ?_⟩
      simp only [List.length_cons, List.take_succ_cons, List.reverse_cons, List.map_append, List.map_cons, List.map_nil]
      exact hd'.append hd

theorem run_sound : ∀ (n : Nat) (c : Cfg V) (syms : List Sym) (u : List (Tok V)) (v : V), Path G T c.stack syms u → (∀ k ∈ c.input, k.1 ≠ 0) →
    run G T n c = some (some v) → Phrase G start (u ++ c.input) v
  | 0, _, _, _, _, _, _, h => nomatch h
  | n + 1, c, syms, u, v, hp, hk, h => by
    have ih := run_sound n
    obtain ⟨hc1, hc2, hc3, -, hc5⟩ := check_parts hc
    unfold run at h
    cases hs : step G T c with
    | error => rw [hs] at h; cases h
    | done v' =>
      rw [hs] at h
      simp only [Option.some.injEq] at h
      subst h
      unfold step at hs
      cases ha : T.act (top c.stack) (look c.input) with
      | none => rw [ha] at hs; cases hs
      | some a =>
        rw [ha] at hs
        cases a with
        | shift s => simp only at hs; split at hs <;> cases hs
        | reduce p =>
          simp only at hs
          split at hs
          · cases hs
          · unfold reduceBy at hs; split at hs <;> cases hs
        | accept =>
          obtain ⟨e, he, h1, h2⟩ := Table.act_mem ha
          have h3 := (hc5 _ (check_act ha)).2 e he
          rw [h2] at h3
          obtain ⟨h3, h4⟩ := h3
          have hin : c.input = [] := by
            cases hi : c.input with
            | nil => rfl
            | cons k r =>
              exfalso
              refine hk k (hi ▸ List.mem_cons_self) ?_
              have : look c.input = k.1 := by rw [hi]; rfl
              rw [← this, ← h1, h4]
          have hpast := path_past hc hp
          rw [h3, hc2] at hpast
          generalize c.stack = st at hp hs h3 hpast
          cases hp with
          | nil => exact absurd h3.symm hc3
          | push hpath ht hd =>
            simp only [Out.done.injEq] at hs
            subst hs
            have h0 := (check_trans hc ht).2.2 h3
            have hst := path_zero hc hpath h0
            subst hst
            cases hpath
            obtain ⟨t, hpast⟩ := hpast
            rw [List.cons_append] at hpast
            injection hpast with h1 h2
            subst h1
            rw [hin, List.append_nil]
            exact hd
    | next c' =>
      rw [hs] at h
      simp only at h
      unfold step at hs
      cases ha : T.act (top c.stack) (look c.input) with
      | none => rw [ha] at hs; cases hs
      | some a =>
        rw [ha] at hs
        cases a with
        | shift s =>
          simp only at hs
          cases hi : c.input with
          | nil => rw [hi] at hs; cases hs
          | cons k r =>
            rw [hi] at hs
            simp only [Out.next.injEq] at hs
            subst hs
            have hl : look c.input = k.1 := by rw [hi]; rfl
            have := ih _ (.t k.1 :: syms) (u ++ [k]) v (.push hp (by simp only [Table.trans]; rw [← hl, ha]) (.tok k.1 k.2 .nil))
              (fun x hx => hk x (by rw [hi]; exact List.mem_cons_of_mem _ hx)) h
            simp only [List.append_assoc, List.singleton_append] at this
            exact this
        | reduce p =>
          simp only at hs
          cases hr : G[p]? with
          | none => rw [hr] at hs; cases hs
          | some r =>
            rw [hr] at hs
            simp only [reduceBy] at hs
            cases hn : T.next (top (c.stack.drop r.rhs.length)) r.lhs with
            | none => rw [hn] at hs; cases hs
            | some s =>
              rw [hn] at hs
              simp only [Out.next.injEq] at hs
              subst hs
              obtain ⟨e, he, h1, h2⟩ := Table.act_mem ha
              have h3 := (hc5 _ (check_act ha)).2 e he
              rw [h2] at h3
              have hpre := (h3 r hr).trans (path_past hc hp)
              obtain ⟨u', w, hu, hp', hd⟩ := path_pop r.rhs.reverse hp hpre
              simp only [List.length_reverse, List.reverse_reverse] at hp' hd
              have hd' : Derives G [.n r.lhs] w [r.act ((c.stack.take r.rhs.length).reverse.map (·.2))] := by
                have := Derives.rule (List.mem_of_getElem? hr) hd .nil
                rw [List.append_nil] at this
                exact this
              have := ih ⟨_, c.input⟩ _ _ v (.push hp' (by simp only [Table.trans]; exact hn) hd') hk h
              rw [hu]
              exact this
        | accept =>
          simp only at hs
          split at hs <;> cases hs

end

/-! ## Termination -/

/-- The entry for `k` in a row of numbers `64 * x + k`; 0 if there is none. -/
def entryOf (r : List Nat) (k : Nat) : Nat :=
  match r.find? fun c => c % 64 == k with
  | some c => c / 64
  | none => 0

/-- The condition for termination: a number for each state and next token, `pot`, and a bound of it for all states that follow a nonterminal, such that
each reduction lowers `w` times the height of the stack and this number. -/
def Table.checkHalt (G : List (Rule V)) (T : Table) (w : Nat) (pot : List (List (List Nat))) (bound : List (List Nat)) : Bool :=
  (List.range (16 * T.action.length)).all fun s =>
    ((row T.goto s).all fun c => (row pot (c / 128)).all fun e => decide (e / 64 ≤ entryOf (bound.getD (c % 128) []) (e % 64))) &&
    (row T.action s).all fun c =>
      match decode (c / 64) with
      | .reduce p => match G[p]? with
        | none => true
        | some r =>
          if r.rhs = [] then
            match T.next s r.lhs with
            | some s' => decide (w + entryOf (row pot s') (c % 64) < entryOf (row pot s) (c % 64))
            | none => true
          else decide (w + entryOf (bound.getD r.lhs []) (c % 64) < w * r.rhs.length + entryOf (row pot s) (c % 64))
      | _ => true

section
variable {G : List (Rule V)} {T : Table} {past : List (List Sym)} {acc start : Nat} (hc : T.checkSound G past acc start = true)
  {w : Nat} {pot : List (List (List Nat))} {bound : List (List Nat)} (hh : T.checkHalt G w pot bound = true)

theorem Table.next_mem {T : Table} {s s' a : Nat} (h : T.next s a = some s') : ∃ c ∈ row T.goto s, c % 128 = a ∧ c / 128 = s' := by
  unfold Table.next at h
  cases hf : (row T.goto s).find? (fun c => c % 128 == a) with
  | none => rw [hf] at h; cases h
  | some c =>
    rw [hf] at h
    injection h with h
    exact ⟨c, List.mem_of_find?_eq_some hf, by have := List.find?_some hf; simpa using this, h⟩

theorem path_length {st : List (Nat × V)} {syms : List Sym} {u : List (Tok V)} (h : Path G T st syms u) : st.length = syms.length := by
  induction h with
  | nil => rfl
  | push _ _ _ ih => simp [ih]

/-- The number that goes down. -/
def height (w : Nat) (pot : List (List (List Nat))) (c : Cfg V) : Nat := w * c.stack.length + entryOf (row pot (top c.stack)) (look c.input)

include hh in
theorem bound_ok {s s' a k : Nat} (hs : s < 16 * T.action.length) (hn : T.next s a = some s') :
    entryOf (row pot s') k ≤ entryOf (bound.getD a []) k := by
  obtain ⟨c, hm, h1, h2⟩ := Table.next_mem hn
  unfold Table.checkHalt at hh
  simp only [List.all_eq_true, List.mem_range, Bool.and_eq_true, decide_eq_true_eq] at hh
  have := (hh s hs).1 c hm
  rw [h1, h2] at this
  unfold entryOf
  cases hf : (row pot s').find? (fun c => c % 64 == k) with
  | none => exact Nat.zero_le _
  | some e =>
    have he := this e (List.mem_of_find?_eq_some hf)
    have hk := List.find?_some hf
    simp only [beq_iff_eq] at hk
    rw [hk] at he
    exact he

include hc hh in
/-- A step that reads no token lowers the number. -/
theorem path_step {c c' : Cfg V} {syms : List Sym} {u : List (Tok V)} (hp : Path G T c.stack syms u) (hs : step G T c = .next c') :
    ∃ syms' u', Path G T c'.stack syms' u' ∧
      (c'.input.length < c.input.length ∨ c'.input = c.input ∧ height w pot c' < height w pot c) := by
  obtain ⟨hc1, hc2, hc3, hgl, hc5⟩ := check_parts hc
  unfold step at hs
  cases ha : T.act (top c.stack) (look c.input) with
  | none => rw [ha] at hs; cases hs
  | some a =>
    rw [ha] at hs
    cases a with
    | shift s =>
      simp only at hs
      cases hi : c.input with
      | nil => rw [hi] at hs; cases hs
      | cons k r =>
        rw [hi] at hs
        simp only [Out.next.injEq] at hs
        subst hs
        have hl : look c.input = k.1 := by rw [hi]; rfl
        exact ⟨.t k.1 :: syms, u ++ [k], .push hp (by simp only [Table.trans]; rw [← hl, ha]) (.tok k.1 k.2 .nil), .inl (by simp)⟩
    | reduce p =>
      simp only at hs
      cases hr : G[p]? with
      | none => rw [hr] at hs; cases hs
      | some r =>
        rw [hr] at hs
        simp only [reduceBy] at hs
        cases hn : T.next (top (c.stack.drop r.rhs.length)) r.lhs with
        | none => rw [hn] at hs; cases hs
        | some s =>
          rw [hn] at hs
          simp only [Out.next.injEq] at hs
          subst hs
          obtain ⟨e, he, h1, h2⟩ := Table.act_mem ha
          have hlt := check_act ha
          have h3 := (hc5 _ hlt).2 e he
          rw [h2] at h3
          have hpre := (h3 r hr).trans (path_past hc hp)
          obtain ⟨u', w', hu, hp', hd⟩ := path_pop r.rhs.reverse hp hpre
          simp only [List.length_reverse, List.reverse_reverse] at hp' hd
          have hd' : Derives G [.n r.lhs] w' [r.act ((c.stack.take r.rhs.length).reverse.map (·.2))] := by
            have := Derives.rule (List.mem_of_getElem? hr) hd .nil
            rw [List.append_nil] at this
            exact this
          refine ⟨_, _, .push hp' (by simp only [Table.trans]; exact hn) hd', .inr ⟨rfl, ?_⟩⟩
          have hle : r.rhs.length ≤ c.stack.length := by
            rw [path_length hp]
            have := hpre.length_le
            simpa using this
          have hh' := hh
          unfold Table.checkHalt at hh'
          simp only [List.all_eq_true, List.mem_range, Bool.and_eq_true] at hh'
          have h4 := (hh' _ hlt).2 e he
          rw [h2] at h4
          simp only [hr, h1] at h4
          show w * ((c.stack.drop r.rhs.length).length + 1) + entryOf (row pot s) (look c.input) <
            w * c.stack.length + entryOf (row pot (top c.stack)) (look c.input)
          rw [List.length_drop]
          split at h4
          · rename_i hnil
            rw [hnil] at hn
            simp only [List.length_nil, List.drop_zero] at hn
            rw [hn] at h4
            simp only [decide_eq_true_eq] at h4
            rw [hnil]
            simp only [List.length_nil, Nat.sub_zero, Nat.mul_add]
            omega
          · have h5 : top (c.stack.drop r.rhs.length) < 16 * T.action.length := by
              obtain ⟨g, hg, -⟩ := Table.next_mem hn
              rcases Nat.lt_or_ge (top (c.stack.drop r.rhs.length)) (16 * T.action.length) with h | h
              · exact h
              · rw [row_beyond _ _ (by omega)] at hg; cases hg
            have h6 := bound_ok hh (k := look c.input) h5 hn
            simp only [decide_eq_true_eq] at h4
            have h7 : w * (c.stack.length - r.rhs.length + 1) + w * r.rhs.length = w * c.stack.length + w := by
              rw [← Nat.mul_add, show c.stack.length - r.rhs.length + 1 + r.rhs.length = c.stack.length + 1 by omega, Nat.mul_add, Nat.mul_one]
            omega
    | accept =>
      simp only at hs
      split at hs <;> cases hs

include hc hh in
theorem run_halts : ∀ (m n : Nat) (c : Cfg V) (syms : List Sym) (u : List (Tok V)), Path G T c.stack syms u → c.input.length ≤ m →
    height w pot c ≤ n → ∃ k, run G T k c ≠ none := by
  intro m
  induction m with
  | zero =>
    intro n
    induction n with
    | zero =>
      intro c syms u hp hm hn
      refine ⟨1, ?_⟩
      rw [run]
      cases hs : step G T c with
      | error => simp
      | done v => simp
      | next c' =>
        obtain ⟨s', u', -, h | ⟨-, h⟩⟩ := path_step hc hh hp hs <;> omega
    | succ n ih =>
      intro c syms u hp hm hn
      cases hs : step G T c with
      | error => exact ⟨1, by rw [run, hs]; simp⟩
      | done v => exact ⟨1, by rw [run, hs]; simp⟩
      | next c' =>
        obtain ⟨s', u', hp', h | ⟨hi, h⟩⟩ := path_step hc hh hp hs
        · omega
        · obtain ⟨k, hk⟩ := ih c' s' u' hp' (by rw [hi]; exact hm) (by omega)
          exact ⟨k + 1, by rw [run, hs]; exact hk⟩
  | succ m ihm =>
    intro n
    induction n with
    | zero =>
      intro c syms u hp hm hn
      cases hs : step G T c with
      | error => exact ⟨1, by rw [run, hs]; simp⟩
      | done v => exact ⟨1, by rw [run, hs]; simp⟩
      | next c' =>
        obtain ⟨s', u', hp', h | ⟨hi, h⟩⟩ := path_step hc hh hp hs
        · obtain ⟨k, hk⟩ := ihm _ c' s' u' hp' (by omega) (Nat.le_refl _)
          exact ⟨k + 1, by rw [run, hs]; exact hk⟩
        · omega
    | succ n ih =>
      intro c syms u hp hm hn
      cases hs : step G T c with
      | error => exact ⟨1, by rw [run, hs]; simp⟩
      | done v => exact ⟨1, by rw [run, hs]; simp⟩
      | next c' =>
        obtain ⟨s', u', hp', h | ⟨hi, h⟩⟩ := path_step hc hh hp hs
        · obtain ⟨k, hk⟩ := ihm _ c' s' u' hp' (by omega) (Nat.le_refl _)
          exact ⟨k + 1, by rw [run, hs]; exact hk⟩
        · obtain ⟨k, hk⟩ := ih c' s' u' hp' (by rw [hi]; exact hm) (by omega)
          exact ⟨k + 1, by rw [run, hs]; exact hk⟩

end

/-! ## Completeness -/

/-- A production of a grammar in which ambiguities are resolved by splitting nonterminals: it stands for production `image` of the grammar of the
table. -/
structure Fine where
  lhs : Nat
  rhs : List Sym
  image : Nat
  deriving DecidableEq

/-- `c'` is reached from `c`. -/
def Steps (G : List (Rule V)) (T : Table) (c c' : Cfg V) : Prop := ∃ n, ∀ m, run G T (m + n) c = run G T m c'

theorem Steps.refl {G : List (Rule V)} {T : Table} (c : Cfg V) : Steps G T c c := ⟨0, fun _ => rfl⟩

theorem Steps.trans {G : List (Rule V)} {T : Table} {a b c : Cfg V} (h : Steps G T a b) (h' : Steps G T b c) : Steps G T a c := by
  obtain ⟨n, h⟩ := h
  obtain ⟨n', h'⟩ := h'
  exact ⟨n' + n, fun m => by rw [← Nat.add_assoc, h, h']⟩

theorem Steps.one {G : List (Rule V)} {T : Table} {c c' : Cfg V} (h : step G T c = .next c') : Steps G T c c' :=
  ⟨1, fun m => by show run G T (m + 1) c = _; rw [run, h]⟩

section
variable [Inhabited V]

/-- The set `a` of numbers is contained in the set `b`; sets are numbers, read in binary. -/
def sub (a b : Nat) : Bool := a &&& b == a

omit [Inhabited V] in
theorem sub_bit {a b k : Nat} (h : sub a b = true) (hk : a.testBit k = true) : b.testBit k = true := by
  unfold sub at h
  rw [beq_iff_eq] at h
  rw [← h, Nat.testBit_and, Bool.and_eq_true] at hk
  exact hk.2

/-- What may come first after symbols, when `l` may come after them; `first` gives it for each nonterminal and `null` which of them can be empty. -/
def firstOf (first : List Nat) (null : Nat) : List Sym → Nat → Nat
  | [], l => l
  | .t k :: _, _ => 1 <<< k
  | .n a :: xs, l => if null.testBit a then first.getD a 0 ||| firstOf first null xs l else first.getD a 0

/-- The symbols can be empty. -/
def nullOf (null : Nat) (xs : List Sym) : Bool := xs.all fun x => match x with | .t _ => false | .n a => null.testBit a

/-- An item of a state: production, place in it and what may follow the production. -/
structure Item where
  prod : Nat
  dot : Nat
  follow : Nat

/-- Items are given as numbers. -/
def item (c : Nat) : Item := ⟨c % 256, c / 256 % 16, c / 4096⟩

/-- The data for the condition: the finer grammar, first symbols and the items of each state. -/
structure Cert where
  fine : List Fine
  img : List Nat
  first : List Nat
  null : Nat
  items : List (List (List Nat))
  start : Nat
  acc : Nat

/-- The symbol of the grammar of the table. -/
def Cert.sym (C : Cert) : Sym → Sym
  | .t k => .t k
  | .n a => .n (C.img.getD a 0)

/-- State `s` has the item with at least this to follow. -/
def Cert.has (C : Cert) (s p d l : Nat) : Bool :=
  (row C.items s).any fun c => c % 4096 == p + 256 * d && sub l (c / 4096)

/-- The condition on productions. -/
def Cert.checkRules (G : List (Rule V)) (C : Cert) : Bool :=
  C.fine.length ≤ 256 && C.fine.all fun f =>
    f.rhs.length < 16 && sub (firstOf C.first C.null f.rhs 0) (C.first.getD f.lhs 0) && (!nullOf C.null f.rhs || C.null.testBit f.lhs) &&
    match G[f.image]? with
    | some r => r.rhs == f.rhs.map C.sym && r.lhs == C.img.getD f.lhs 0
    | none => false

/-- The condition on an item with production `f` of a state. -/
def Cert.checkItem (T : Table) (C : Cert) (s : Nat) (i : Item) (f : Fine) : Bool :=
  match f.rhs.drop i.dot with
  | [] => (List.range 64).all (fun k => !i.follow.testBit k || T.act s k == some (.reduce f.image)) && decide (i.follow < 2 ^ 64)
  | x :: xs =>
    (match T.trans s (C.sym x) with
     | some s' => C.has s' i.prod (i.dot + 1) i.follow
     | none => false) &&
    match x with
    | .t _ => true
    | .n a => let l := firstOf C.first C.null xs i.follow
      C.fine.zipIdx.all fun g => g.1.lhs != a || C.has s g.2 0 l

/-- The condition on a state. -/
def Cert.checkState (T : Table) (C : Cert) (s : Nat) : Bool :=
  (row C.items s).all fun c => match C.fine[(item c).prod]? with
    | some f => C.checkItem T s (item c) f
    | none => false

/-- The condition on the beginning and the end. -/
def Cert.checkEnds (T : Table) (C : Cert) : Bool :=
  T.next 0 (C.img.getD C.start 0) == some C.acc && T.act C.acc 0 == some .accept &&
  C.fine.zipIdx.all fun g => g.1.lhs != C.start || C.has 0 g.2 0 1

/-- The production of the finer grammar, with the value of its image. -/
def Fine.rule (G : List (Rule V)) (f : Fine) : Rule V := ⟨f.lhs, f.rhs, match G[f.image]? with | some r => r.act | none => fun _ => default⟩

/-- The finer grammar with values. -/
def Cert.grammar (G : List (Rule V)) (C : Cert) : List (Rule V) := C.fine.map (Fine.rule G)

section
variable {G : List (Rule V)} {T : Table} {C : Cert} (hr : C.checkRules G = true) (hs : ∀ s < 16 * C.items.length, C.checkState T s = true)
  (he : C.checkEnds T = true)

omit [Inhabited V] in
theorem first_mono (first : List Nat) (null : Nat) (k : Nat) : ∀ (xs : List Sym) (l : Nat), (firstOf first null xs 0).testBit k = true →
    (firstOf first null xs l).testBit k = true
  | [], _, h => by simp [firstOf] at h
  | .t _ :: _, _, h => h
  | .n a :: xs, l, h => by
    unfold firstOf at h ⊢
    split at h
    · rename_i hn
      rw [if_pos hn]
      rw [Nat.testBit_or, Bool.or_eq_true] at h ⊢
      exact h.imp_right (first_mono first null k xs l)
    · rename_i hn
      rw [if_neg hn]
      exact h

omit [Inhabited V] in
theorem first_null (first : List Nat) (null : Nat) (k l : Nat) (hl : l.testBit k = true) : ∀ (xs : List Sym), nullOf null xs = true →
    (firstOf first null xs l).testBit k = true
  | [], _ => hl
  | .t _ :: _, h => by simp [nullOf] at h
  | .n a :: xs, h => by
    simp only [nullOf, List.all_cons, Bool.and_eq_true] at h
    unfold firstOf
    rw [if_pos h.1, Nat.testBit_or, Bool.or_eq_true]
    exact .inr (first_null first null k l hl xs h.2)

include hr in
omit [Inhabited V] in
theorem rules_parts {p : Nat} {f : Fine} (hf : C.fine[p]? = some f) : p < 256 ∧ f.rhs.length < 16 ∧
    sub (firstOf C.first C.null f.rhs 0) (C.first.getD f.lhs 0) = true ∧ (nullOf C.null f.rhs = true → C.null.testBit f.lhs = true) ∧
    ∃ r, G[f.image]? = some r ∧ r.rhs = f.rhs.map C.sym ∧ r.lhs = C.img.getD f.lhs 0 := by
  unfold Cert.checkRules at hr
  simp only [Bool.and_eq_true, decide_eq_true_eq, List.all_eq_true] at hr
  obtain ⟨hlen, hr⟩ := hr
  obtain ⟨⟨⟨h1, h2⟩, h3⟩, h4⟩ := hr f (List.mem_of_getElem? hf)
  obtain ⟨hp, -⟩ := List.getElem?_eq_some_iff.mp hf
  refine ⟨by omega, h1, h2, fun h => ?_, ?_⟩
  · simpa [h] using h3
  · split at h4
    · rename_i r hg
      simp only [Bool.and_eq_true, beq_iff_eq] at h4
      exact ⟨r, hg, h4.1, h4.2⟩
    · cases h4

theorem mem_grammar {r : Rule V} (h : r ∈ C.grammar G) : ∃ (p : Nat) (f : Fine), C.fine[p]? = some f ∧ r = f.rule G := by
  obtain ⟨f, hf, rfl⟩ := List.mem_map.mp h
  obtain ⟨p, hp⟩ := List.getElem?_of_mem hf
  exact ⟨p, f, hp, rfl⟩

include hr in
theorem first_derives {xs : List Sym} {w : List (Tok V)} {vs : List V} (h : Derives (C.grammar G) xs w vs) :
    (w ≠ [] → (firstOf C.first C.null xs 0).testBit (look w) = true) ∧ (w = [] → nullOf C.null xs = true) := by
  induction h with
  | nil => exact ⟨fun h => absurd rfl h, fun _ => rfl⟩
  | tok k v _ ih =>
    refine ⟨fun _ => ?_, fun h => nomatch h⟩
    simp [firstOf, look, Nat.shiftLeft_eq]
  | rule hm _ _ ih₁ ih₂ =>
    rename_i r w₁ us xs w₂ vs hd₁ hd₂
    obtain ⟨p, f, hf, rfl⟩ := mem_grammar hm
    obtain ⟨-, -, hsub, hnull, -⟩ := rules_parts hr hf
    refine ⟨fun hw => ?_, fun hw => ?_⟩
    · show (firstOf C.first C.null (.n f.lhs :: xs) 0).testBit _ = true
      by_cases h1 : w₁ = []
      · subst h1
        have hn := hnull (ih₁.2 rfl)
        unfold firstOf
        rw [if_pos hn, Nat.testBit_or, Bool.or_eq_true]
        exact .inr (ih₂.1 hw)
      · have hb : (C.first.getD f.lhs 0).testBit (look (w₁ ++ w₂)) = true := by
          refine sub_bit hsub ?_
          have := ih₁.1 h1
          cases w₁ with
          | nil => exact absurd rfl h1
          | cons a b => exact this
        unfold firstOf
        split
        · rw [Nat.testBit_or, Bool.or_eq_true]; exact .inl hb
        · exact hb
    · obtain ⟨h1, h2⟩ := List.append_eq_nil_iff.mp hw
      show nullOf C.null (.n f.lhs :: xs) = true
      unfold nullOf
      rw [List.all_cons, Bool.and_eq_true]
      exact ⟨hnull (ih₁.2 h1), ih₂.2 h2⟩

include hr in
theorem first_look {xs : List Sym} {w rest : List (Tok V)} {vs : List V} (h : Derives (C.grammar G) xs w vs) {l : Nat}
    (hl : l.testBit (look rest) = true) : (firstOf C.first C.null xs l).testBit (look (w ++ rest)) = true := by
  obtain ⟨h1, h2⟩ := first_derives hr h
  cases w with
  | nil => exact first_null _ _ _ _ hl _ (h2 rfl)
  | cons a b => exact first_mono _ _ _ _ _ (h1 (by simp))

/-- State `s` has the item for production `p` at place `d`, and `k` may follow. -/
def Has (C : Cert) (s p d k : Nat) : Prop := ∃ c ∈ row C.items s, (item c).prod = p ∧ (item c).dot = d ∧ (item c).follow.testBit k = true

omit [Inhabited V] in
theorem has_of {s p d l k : Nat} (hp : p < 256) (_ : d < 16) (h : C.has s p d l = true) (hk : l.testBit k = true) : Has C s p d k := by
  unfold Cert.has at h
  rw [List.any_eq_true] at h
  obtain ⟨c, hc, h⟩ := h
  rw [Bool.and_eq_true, beq_iff_eq] at h
  refine ⟨c, hc, ?_, ?_, sub_bit h.2 hk⟩
  · show c % 256 = p; omega
  · show c / 256 % 16 = d; omega

include hs in
omit [Inhabited V] in
theorem has_check {s p d k : Nat} (h : Has C s p d k) {f : Fine} (hf : C.fine[p]? = some f) :
    ∃ i : Item, i.prod = p ∧ i.dot = d ∧ i.follow.testBit k = true ∧ C.checkItem T s i f = true := by
  obtain ⟨c, hc, h1, h2, h3⟩ := h
  have hlt : s < 16 * C.items.length := by
    rcases Nat.lt_or_ge s (16 * C.items.length) with h | h
    · exact h
    · rw [row_beyond _ _ h] at hc; cases hc
  have := hs s hlt
  unfold Cert.checkState at this
  rw [List.all_eq_true] at this
  have := this c hc
  rw [h1, hf] at this
  exact ⟨item c, h1, h2, h3, this⟩

omit [Inhabited V] in
theorem trans_step {st : List (Nat × V)} {k : Nat} {v : V} {w : List (Tok V)} {s' : Nat} (h : T.trans (top st) (.t k) = some s') :
    step G T ⟨st, (k, v) :: w⟩ = .next ⟨(s', v) :: st, w⟩ := by
  simp only [Table.trans] at h
  split at h
  · rename_i q ha
    injection h with h
    subst h
    simp only [step, look, ha]
  · cases h

include hr hs in
/-- From a state with an item the parser reads what is derived from the rest of its production. -/
theorem item_run {xs : List Sym} {w : List (Tok V)} {vs : List V} (h : Derives (C.grammar G) xs w vs) : ∀ (st : List (Nat × V)) (rest : List (Tok V))
    (p d : Nat) (f : Fine), C.fine[p]? = some f → d ≤ f.rhs.length → f.rhs.drop d = xs → Has C (top st) p d (look rest) →
    ∃ new : List (Nat × V), new.map (·.2) = vs.reverse ∧ Steps G T ⟨st, w ++ rest⟩ ⟨new ++ st, rest⟩ ∧
      Has C (top (new ++ st)) p f.rhs.length (look rest) := by
  induction h with
  | nil =>
    intro st rest p d f hf hd hx hh
    have : f.rhs.length = d := by
      have := congrArg List.length hx
      simp at this
      omega
    exact ⟨[], rfl, .refl _, this ▸ hh⟩
  | tok k v hder ih =>
    rename_i xs w vs
    intro st rest p d f hf hd hx hh
    obtain ⟨hp, hlen, -, -, -⟩ := rules_parts hr hf
    obtain ⟨i, hi1, hi2, hi3, hck⟩ := has_check hs hh hf
    unfold Cert.checkItem at hck
    rw [hi2, hx] at hck
    simp only [Bool.and_eq_true] at hck
    obtain ⟨hck, -⟩ := hck
    split at hck
    · rename_i s' ht
      have hdl : d < f.rhs.length := by
        have := congrArg List.length hx
        simp at this
        omega
      have hx' : f.rhs.drop (d + 1) = xs := by
        rw [← List.drop_drop, hx]
        rfl
      rw [hi1] at hck
      obtain ⟨new, hn1, hn2, hn3⟩ := ih ((s', v) :: st) rest p (d + 1) f hf hdl hx' (has_of hp (by omega) hck hi3)
      refine ⟨new ++ [(s', v)], ?_, ?_, ?_⟩
      · simp [hn1]
      · rw [List.append_assoc]
        exact (Steps.one (trans_step ht)).trans hn2
      · rw [List.append_assoc]
        exact hn3
    · cases hck
  | rule hm hd₁ hd₂ ih₁ ih₂ =>
    rename_i r w₁ us xs w₂ vs
    intro st rest p d f hf hd hx hh
    obtain ⟨q, g, hg, rfl⟩ := mem_grammar hm
    obtain ⟨hp, hlen, -, -, -⟩ := rules_parts hr hf
    obtain ⟨hq, hqlen, -, -, rr, hrr, hrhs, hlhs⟩ := rules_parts hr hg
    obtain ⟨i, hi1, hi2, hi3, hck⟩ := has_check hs hh hf
    unfold Cert.checkItem at hck
    rw [hi2, hx] at hck
    simp only [Bool.and_eq_true] at hck
    obtain ⟨hck, hcl⟩ := hck
    rw [List.all_eq_true] at hcl
    have hcl := hcl (g, q) (List.mem_zipIdx_iff_getElem?.mpr hg)
    simp only [Fine.rule, bne_self_eq_false, Bool.false_or] at hcl
    have hq0 : Has C (top st) q 0 (look (w₂ ++ rest)) := has_of hq (by omega) hcl (first_look hr hd₂ hi3)
    obtain ⟨new, hn1, hn2, hn3⟩ := ih₁ st (w₂ ++ rest) q 0 g hg (Nat.zero_le _) rfl hq0
    obtain ⟨j, hj1, hj2, hj3, hjc⟩ := has_check hs hn3 hg
    unfold Cert.checkItem at hjc
    rw [hj2, List.drop_length] at hjc
    simp only [Bool.and_eq_true, List.all_eq_true, List.mem_range, decide_eq_true_eq] at hjc
    have hk : look (w₂ ++ rest) < 64 := by
      rcases Nat.lt_or_ge (look (w₂ ++ rest)) 64 with h | h
      · exact h
      · exfalso
        rw [Nat.testBit_lt_two_pow (Nat.lt_of_lt_of_le hjc.2 (Nat.pow_le_pow_right (by omega) h))] at hj3
        cases hj3
    have hact := hjc.1 _ hk
    rw [hj3] at hact
    simp only [Bool.not_true, Bool.false_or, beq_iff_eq] at hact
    split at hck
    · rename_i s' ht
      have hdl : d < f.rhs.length := by
        have := congrArg List.length hx
        simp at this
        omega
      have hx' : f.rhs.drop (d + 1) = xs := by
        rw [← List.drop_drop, hx]
        rfl
      rw [hi1] at hck
      have hnl : new.length = rr.rhs.length := by
        have h1 := congrArg List.length hn1
        have h2 := hd₁.length
        simp only [List.length_map, List.length_reverse] at h1
        rw [h1, h2, hrhs, List.length_map]
        rfl
      have hval : (g.rule G).act us = rr.act us := by
        simp only [Fine.rule, hrr]
      have hred : step G T ⟨new ++ st, w₂ ++ rest⟩ = .next ⟨(s', (g.rule G).act us) :: st, w₂ ++ rest⟩ := by
        have h1 : (new ++ st).drop rr.rhs.length = st := by rw [← hnl]; simp
        have h2 : (new ++ st).take rr.rhs.length = new := by rw [← hnl]; simp
        have h3 : T.next (top st) rr.lhs = some s' := by rw [hlhs]; exact ht
        have h4 : new.reverse.map (·.2) = us := by rw [List.map_reverse, hn1, List.reverse_reverse]
        simp only [step, hact, hrr, reduceBy, h1, h2, h3, h4, hval]
      obtain ⟨new', hm1, hm2, hm3⟩ := ih₂ ((s', (g.rule G).act us) :: st) rest p (d + 1) f hf hdl hx' (has_of hp (by omega) hck hi3)
      refine ⟨new' ++ [(s', (g.rule G).act us)], ?_, ?_, ?_⟩
      · simp [hm1]
      · rw [List.append_assoc, List.append_assoc]
        exact (hn2.trans (.one hred)).trans hm2
      · rw [List.append_assoc]
        exact hm3
    · cases hck

include hr hs he in
theorem parses_complete {w : List (Tok V)} {v : V} (h : Phrase (C.grammar G) C.start w v) : Parses G T w v := by
  unfold Phrase at h
  generalize hxs : [Sym.n C.start] = xs at h
  generalize hvs : [v] = vs at h
  cases h with
  | nil => cases hxs
  | tok _ _ _ => cases hxs
  | rule hm hd₁ hd₂ =>
    rename_i r w₁ us xs w₂ vs
    injection hxs with hx1 hx2
    injection hvs with hv1 hv2
    subst hx2 hv2
    cases hd₂
    obtain ⟨q, g, hg, rfl⟩ := mem_grammar hm
    injection hx1 with hx1
    obtain ⟨hq, hqlen, -, -, rr, hrr, hrhs, hlhs⟩ := rules_parts hr hg
    unfold Cert.checkEnds at he
    simp only [Bool.and_eq_true, beq_iff_eq, List.all_eq_true] at he
    obtain ⟨⟨he1, he2⟩, he3⟩ := he
    have he3 := he3 (g, q) (List.mem_zipIdx_iff_getElem?.mpr hg)
    have hgl : g.lhs = C.start := hx1.symm
    simp only [hgl, bne_self_eq_false, Bool.false_or] at he3
    obtain ⟨new, hn1, hn2, hn3⟩ := item_run hr hs hd₁ [] [] q 0 g hg (Nat.zero_le _) rfl (has_of hq (by omega) he3 (show Nat.testBit 1 0 = true by decide))
    obtain ⟨j, hj1, hj2, hj3, hjc⟩ := has_check hs hn3 hg
    unfold Cert.checkItem at hjc
    rw [hj2, List.drop_length] at hjc
    simp only [Bool.and_eq_true, List.all_eq_true, List.mem_range, decide_eq_true_eq] at hjc
    have hact := hjc.1 (look ([] : List (Tok V))) (by simp [look])
    rw [hj3] at hact
    simp only [Bool.not_true, Bool.false_or, beq_iff_eq] at hact
    have hnl : new.length = rr.rhs.length := by
      have h1 := congrArg List.length hn1
      have h2 := hd₁.length
      simp only [List.length_map, List.length_reverse] at h1
      rw [h1, h2, hrhs, List.length_map]
      rfl
    have hred : step G T ⟨new ++ [], []⟩ = .next ⟨[(C.acc, v)], []⟩ := by
      have h1 : (new ++ []).drop rr.rhs.length = ([] : List (Nat × V)) := by rw [← hnl]; simp
      have h2 : (new ++ []).take rr.rhs.length = new := by rw [← hnl]; simp
      have h3 : T.next 0 rr.lhs = some C.acc := by rw [hlhs, hgl]; exact he1
      have h4 : new.reverse.map (·.2) = us := by rw [List.map_reverse, hn1, List.reverse_reverse]
      have h5 : rr.act us = v := by rw [hv1]; simp only [Fine.rule, hrr]
      have h6 : top ([] : List (Nat × V)) = 0 := rfl
      simp only [step, hact, hrr, reduceBy, h1, h2, h6, h3, h4, h5]
    obtain ⟨n, hn⟩ := hn2.trans (.one hred)
    refine ⟨1 + n, ?_⟩
    simp only [List.append_nil] at hn ⊢
    rw [hn]
    simp only [run, step, top, look, he2]

end
end

/-- The parser gives at most one value. -/
theorem run_more {G : List (Rule V)} {T : Table} {a : Option V} : ∀ (n m : Nat) (c : Cfg V), run G T n c = some a → run G T (n + m) c = some a
  | 0, _, _, h => nomatch h
  | n + 1, m, c, h => by
    rw [Nat.succ_add]
    unfold run at h ⊢
    cases hs : step G T c with
    | error => rw [hs] at h; exact h
    | done v => rw [hs] at h; exact h
    | next c' => rw [hs] at h; exact run_more n m c' h

theorem parses_unique {G : List (Rule V)} {T : Table} {w : List (Tok V)} {v v' : V} (h : Parses G T w v) (h' : Parses G T w v') : v = v' := by
  obtain ⟨n, h⟩ := h
  obtain ⟨m, h'⟩ := h'
  have h1 := run_more n m _ h
  have h2 := run_more m n _ h'
  rw [Nat.add_comm, h1] at h2
  simpa using h2

end LR
end Verif
