import Verif.Lemmas.PyGood
import Verif.Spec.PyStmt
/-! # Lines that are read as given statements, wherever they stand -/
namespace Verif
namespace PyText

/-! ## Reading with larger bounds -/

theorem oneExpr_mono {n : Nat} {t : List Tok} {e : Py} (h : oneExpr n t = some e) : oneExpr (n + 1) t = some e := by
  unfold oneExpr at h ⊢
  cases hp : parse n 1 t with
  | none => rw [hp] at h; cases h
  | some p => rw [hp] at h; rw [parse_mono hp (Nat.le_succ n)]; exact h

theorem exprList_mono : ∀ {n : Nat} {t : List Tok} {p : List Py × List Tok}, exprList n t = some p → exprList (n + 1) t = some p
  | 0, t, p, h => by unfold exprList at h; cases h
  | n + 1, t, p, h => by
    unfold exprList at h ⊢
    refine bind_mono h (fun a ha => parse_mono ha (Nat.le_succ n)) fun a ha => ?_
    revert ha
    split
    · split
      · intro ha; exact map_mono ha fun q hq => exprList_mono hq
      · exact id
    · exact id

theorem someExprs_mono {n : Nat} {t : List Tok} {es : List Py} (h : someExprs n t = some es) : someExprs (n + 1) t = some es := by
  unfold someExprs at h ⊢
  exact bind_mono h (fun _ => exprList_mono) fun _ => id

theorem plainStmt_mono {n : Nat} {t : List Tok} {s : PyS} (h : plainStmt n t = some s) : plainStmt (n + 1) t = some s := by
  unfold plainStmt at h ⊢
  refine bind_mono h (fun _ => exprList_mono) fun a ha => ?_
  revert ha
  split
  · exact id
  · split
    · intro ha; exact map_mono ha fun _ => someExprs_mono
    · exact id

theorem simple_mono {n : Nat} {t : List Tok} {s : PyS} (h : simple n t = some s) : simple (n + 1) t = some s := by
  unfold simple at h ⊢
  revert h
  split
  · exact id
  · split
    · exact id
    · split
      · split
        · intro h; exact map_mono h fun _ => oneExpr_mono
        · exact plainStmt_mono
      · exact plainStmt_mono

theorem opener_mono {n : Nat} {t : List Tok} {h : Head} (hh : opener n t = some h) : opener (n + 1) t = some h := by
  unfold opener at hh ⊢
  revert hh
  split
  · split
    · intro h; exact map_mono h fun _ => oneExpr_mono
    · split
      · intro h; exact map_mono h fun _ => oneExpr_mono
      · split
        · exact id
        · split
          · intro h; exact map_mono h fun _ => oneExpr_mono
          · split
            · intro h
              refine bind_mono h (fun _ => id) fun a ha => ?_
              revert ha
              split
              · split
                · intro h; exact map_mono h fun _ => someExprs_mono
                · exact id
              · exact id
            · exact id
  · exact id

theorem header_mono {n : Nat} {t : List Tok} {h : Head} (hh : header n t = some h) : header (n + 1) t = some h := by
  unfold header at hh ⊢
  revert hh
  split
  · exact opener_mono
  · exact id

/-- All readings with bound `n` are kept with bound `n + 1`. -/
def BlockMono (n : Nat) : Prop :=
  (∀ k t r, block n k t = some r → block (n + 1) k t = some r) ∧
  (∀ k t r, body n k t = some r → body (n + 1) k t = some r) ∧
  (∀ k t r, orelse n k t = some r → orelse (n + 1) k t = some r)

theorem blockMono_succ {n : Nat} (ih : BlockMono n) : BlockMono (n + 1) := by
  obtain ⟨hb, hy, ho⟩ := ih
  refine ⟨?_, ?_, ?_⟩
  · intro k t r h
    unfold block at h ⊢
    cases t with
    | nil => exact h
    | cons l t =>
      obtain ⟨i, toks⟩ := l
      dsimp only at h ⊢
      by_cases h1 : i < k
      · rw [if_pos h1] at h ⊢; exact h
      · rw [if_neg h1] at h ⊢
        by_cases h2 : k < i
        · rw [if_pos h2] at h; cases h
        · rw [if_neg h2] at h ⊢
          by_cases h3 : opens toks = true
          · rw [if_pos h3] at h ⊢
            cases hh : header n toks with
            | none => rw [hh] at h; cases h
            | some d =>
              rw [hh] at h
              rw [header_mono hh]
              cases d with
              | if_ c =>
                dsimp only at h ⊢
                exact bind_mono h (hy _ _) fun a ha => bind_mono ha (ho _ _) fun b hb' => map_mono hb' (hb _ _)
              | elif_ c => cases h
              | else_ => cases h
              | for_ xs es => exact bind_mono h (hy _ _) fun a ha => map_mono ha (hb _ _)
              | while_ c => exact bind_mono h (hy _ _) fun a ha => map_mono ha (hb _ _)
              | def_ f xs => exact bind_mono h (hy _ _) fun a ha => map_mono ha (hb _ _)
          · rw [if_neg h3] at h ⊢
            exact bind_mono h (fun _ => simple_mono) fun a ha => map_mono ha (hb _ _)
  · intro k t r h
    unfold body at h ⊢
    cases t with
    | nil => exact h
    | cons l t =>
      obtain ⟨i, toks⟩ := l
      dsimp only at h ⊢
      by_cases h1 : k < i
      · rw [if_pos h1] at h ⊢; exact hb _ _ _ h
      · rw [if_neg h1] at h; cases h
  · intro k t r h
    unfold orelse at h ⊢
    cases t with
    | nil => exact h
    | cons l t =>
      obtain ⟨i, toks⟩ := l
      dsimp only at h ⊢
      by_cases h1 : i = k ∧ goesOn toks = true
      · rw [if_pos h1] at h ⊢
        cases hh : header n toks with
        | none => rw [hh] at h; cases h
        | some d =>
          rw [hh] at h
          rw [header_mono hh]
          cases d with
          | elif_ c => exact bind_mono h (hy _ _) fun a ha => map_mono ha (ho _ _)
          | else_ => exact hy _ _ _ h
          | _ => cases h
      · rw [if_neg h1] at h ⊢; exact h

theorem blockMono_zero : BlockMono 0 := by
  refine ⟨?_, ?_, ?_⟩
  · intro k t r h
    unfold block at h
    cases h
  · intro k t r h
    unfold body at h
    cases h
  · intro k t r h
    unfold orelse at h
    cases h

theorem blockMono_all : ∀ n, BlockMono n
  | 0 => blockMono_zero
  | n + 1 => blockMono_succ (blockMono_all n)

theorem block_mono {n m k : Nat} {t : List Line} {r : List PyS × List Line} (h : block n k t = some r) (hm : n ≤ m) :
    block m k t = some r := by
  induction hm with
  | refl => exact h
  | step _ ih => exact (blockMono_all _).1 _ _ _ ih

theorem lineOf_mono {n m : Nat} {s : Str} {l : List Line} (h : lineOf n s = some l) (hm : n ≤ m) : lineOf m s = some l := by
  unfold lineOf at h ⊢
  revert h
  split
  · exact id
  · intro h; exact map_mono h fun _ ht => tokens_mono ht hm

theorem linesOf_mono {n m : Nat} (hm : n ≤ m) : ∀ {s : List Str} {l : List Line}, linesOf n s = some l → linesOf m s = some l
  | [], l, h => h
  | a :: r, l, h => by
    unfold linesOf at h ⊢
    cases h1 : lineOf n a with
    | none => rw [h1] at h; cases h
    | some x =>
      cases h2 : linesOf n r with
      | none => rw [h1, h2] at h; cases h
      | some y =>
        rw [h1, h2] at h
        rw [lineOf_mono h1 hm, linesOf_mono hm h2]
        exact h

/-- A text is read as statements in one way at most. -/
theorem ReadsBlock.unique {s : Str} {a b : List PyS} (h : ReadsBlock s a) (h' : ReadsBlock s b) : a = b := by
  obtain ⟨n, l, hl, hp⟩ := h
  obtain ⟨n', l', hl', hp'⟩ := h'
  have h1 := linesOf_mono (Nat.le_max_left n n') hl
  have h2 := linesOf_mono (Nat.le_max_right n n') hl'
  rw [h1] at h2
  have : l = l' := Option.some.inj h2
  subst this
  have h3 := block_mono hp (Nat.le_max_left n n')
  have h4 := block_mono hp' (Nat.le_max_right n n')
  rw [h3] at h4
  exact congrArg Prod.fst (Option.some.inj h4)

/-! ## Expressions in statements -/

/-- What can follow a list of expressions. -/
def ListEnd (rest : List Tok) : Prop := rest = [] ∨ ∃ r, rest = .op "=".toList :: r

theorem ListEnd.stop {rest : List Tok} (h : ListEnd rest) : noTrailer rest ∧ infix_ rest = none := by
  rcases h with rfl | ⟨r, rfl⟩
  · exact ⟨trivial, rfl⟩
  · exact ⟨⟨by decide, by decide, by decide⟩, rfl⟩

theorem exprList_good {ts : List (List Tok)} {es : List Py} (h : ListGood ts es) (hne : ts ≠ []) {rest : List Tok} (hr : ListEnd rest) :
    Ev (fun m => exprList m (commaToks ts ++ rest)) (es, rest) := by
  induction h with
  | nil => exact absurd rfl hne
  | @cons lvl t e ts es he h1 hts ih =>
    let g : (Py × List Tok) → Nat → Option (List Py × List Tok) := fun p m =>
      match p.2 with
      | .op o :: r => if o = ",".toList then (exprList m r).map fun q => (p.1 :: q.1, q.2) else some ([p.1], .op o :: r)
      | r => some ([p.1], r)
    cases ts with
    | nil =>
      cases hts
      have h2 := (he.parse1 h1 hr.stop.1 hr.stop.2).bind (g := g) (b := ([e], rest)) (Ev.intro fun m => by
        dsimp only [g]
        rcases hr with rfl | ⟨r, rfl⟩
        · rfl
        · dsimp only; rw [if_neg (by decide)])
      refine Ev.succ (h2.congr fun m => ?_)
      rw [commaToks, exprList]
      rfl
    | cons u ts =>
      have ih := ih (by simp)
      have hcomma : noTrailer (.op ",".toList :: (commaToks (u :: ts) ++ rest)) := ⟨by decide, by decide, by decide⟩
      have h2 := (he.parse1 h1 hcomma rfl).bind (g := g) (b := (e :: es, rest))
          ((ih.map (g := fun q => (e :: q.1, q.2))).congr fun m => by dsimp only [g]; rw [if_pos rfl])
      refine Ev.succ (h2.congr fun m => ?_)
      rw [commaToks, exprList, List.append_assoc, List.cons_append]
      rfl

theorem someExprs_good {ts : List (List Tok)} {es : List Py} (h : ListGood ts es) (hne : ts ≠ []) :
    Ev (fun m => someExprs m (commaToks ts)) es := by
  have h1 := (exprList_good h hne (.inl rfl)).bind (g := fun p _ => if p.2 = [] then some p.1 else none) (b := es)
    (Ev.intro fun m => by dsimp only; rw [if_pos rfl])
  refine h1.congr fun m => ?_
  rw [List.append_nil]
  rfl

theorem oneExpr_good {lvl : Nat} {t : List Tok} {e : Py} (h : ExprGood lvl t e) (h1 : 1 ≤ lvl) : Ev (fun m => oneExpr m t) e := by
  obtain ⟨n, hn⟩ := h.parse1 h1 (rest := []) trivial rfl
  refine ⟨n, fun m hm => ?_⟩
  have : parse m 1 (t ++ []) = some (e, []) := hn m hm
  rw [List.append_nil] at this
  show oneExpr m t = some e
  unfold oneExpr
  rw [this]

/-- The first token of an expression is no keyword but `not`. -/
theorem ExprGood.first {lvl : Nat} {t : List Tok} {e : Py} (h : ExprGood lvl t e) (h1 : 1 ≤ lvl) {w : Str} {r : List Tok}
    (ht : t = .word w :: r) : w = "not".toList ∨ w ∉ keywords := by
  subst ht
  obtain ⟨n, hn⟩ := h.parse1 h1 (rest := []) trivial rfl
  have := hn (n + 2) (by omega)
  unfold parse at this
  simp only [List.cons_append] at this
  by_cases hw : w = "not".toList
  · exact .inl hw
  · refine .inr fun hk => ?_
    rw [if_neg hw] at this
    unfold primary at this
    dsimp only at this
    rw [if_pos hk] at this
    cases this

/-- The first token of expressions begins no other statement. -/
theorem first_plain {ts : List (List Tok)} {es : List Py} (h : ListGood ts es) (hne : ts ≠ []) (rest : List Tok) :
    opens (commaToks ts ++ rest) = false ∧ goesOn (commaToks ts ++ rest) = false ∧
      ∀ n, simple n (commaToks ts ++ rest) = plainStmt n (commaToks ts ++ rest) := by
  cases h with
  | nil => exact absurd rfl hne
  | @cons lvl t e ts es he h1 hts =>
    obtain ⟨⟨x, xs, hx, hxt⟩, -⟩ := id he
    have hhd : ∃ r, commaToks (t :: ts) ++ rest = x :: r := by
      subst hx
      cases ts <;> exact ⟨_, rfl⟩
    obtain ⟨r, hr⟩ := hhd
    rw [hr]
    cases x with
    | word w =>
      have hw := he.first h1 hx
      have hc : ∀ k, k ∈ keywords → k ≠ "not".toList → w ≠ k := by
        rintro k hk hn rfl
        rcases hw with rfl | hw
        · exact hn rfl
        · exact hw hk
      refine ⟨?_, ?_, fun n => ?_⟩
      · show compound.contains w = false
        simp only [compound, List.contains_eq_mem, decide_eq_false_iff_not, List.mem_cons, List.not_mem_nil, or_false, not_or]
        refine ⟨hc _ ?_ ?_, hc _ ?_ ?_, hc _ ?_ ?_, hc _ ?_ ?_, hc _ ?_ ?_, hc _ ?_ ?_⟩ <;> decide
      · simp only [goesOn, List.head?_cons, Option.some.injEq, Tok.word.injEq, Bool.or_eq_false_iff, decide_eq_false_iff_not]
        exact ⟨hc _ (by decide) (by decide), hc _ (by decide) (by decide)⟩
      · unfold simple
        rw [if_neg (fun h => hc "break".toList (by decide) (by decide) (by injection h with h _; injection h)),
          if_neg (fun h => hc "continue".toList (by decide) (by decide) (by injection h with h _; injection h))]
        dsimp only
        rw [if_neg (hc _ (by decide) (by decide))]
    | num s => exact ⟨rfl, rfl, fun n => rfl⟩
    | str s => exact ⟨rfl, rfl, fun n => rfl⟩
    | op o => exact ⟨rfl, rfl, fun n => rfl⟩

end PyText
end Verif
