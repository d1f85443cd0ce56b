import Verif.Lemmas.PyEq
import Verif.Lemmas.PyBlock
/-! # Comparing Python statements -/
namespace Verif
namespace PyText

mutual
/-- The same statement. -/
def PyS.eqb : PyS → PyS → Bool
  | .expr a, .expr b => eqbs a b
  | .assign a b, .assign c d => eqbs a c && eqbs b d
  | .ite c s e, .ite d t f => c.eqb d && eqbStmts s t && eqbStmts e f
  | .for_ xs o s, .for_ ys p t => xs == ys && eqbs o p && eqbStmts s t
  | .while_ c s, .while_ d t => c.eqb d && eqbStmts s t
  | .brk, .brk => true
  | .cont, .cont => true
  | .def_ f xs s, .def_ g ys t => f == g && xs == ys && eqbStmts s t
  | .ret a, .ret b => a.eqb b
  | _, _ => false
/-- The same statements. -/
def eqbStmts : List PyS → List PyS → Bool
  | [], [] => true
  | a :: r, b :: s => a.eqb b && eqbStmts r s
  | _, _ => false
end

mutual
theorem PyS.eqb_eq : (a b : PyS) → a.eqb b = true → a = b
  | .expr l, b, h => by
    cases b <;> simp only [PyS.eqb, Bool.false_eq_true] at h
    rw [eqbs_eq l _ h]
  | .assign l m, b, h => by
    cases b <;> simp only [PyS.eqb, Bool.and_eq_true, Bool.false_eq_true] at h
    rw [eqbs_eq l _ h.1, eqbs_eq m _ h.2]
  | .ite c s e, b, h => by
    cases b <;> simp only [PyS.eqb, Bool.and_eq_true, Bool.false_eq_true] at h
    rw [Py.eqb_eq c _ h.1.1, eqbStmts_eq s _ h.1.2, eqbStmts_eq e _ h.2]
  | .for_ xs o s, b, h => by
    cases b <;> simp only [PyS.eqb, Bool.and_eq_true, beq_iff_eq, Bool.false_eq_true] at h
    rw [h.1.1, eqbs_eq o _ h.1.2, eqbStmts_eq s _ h.2]
  | .while_ c s, b, h => by
    cases b <;> simp only [PyS.eqb, Bool.and_eq_true, Bool.false_eq_true] at h
    rw [Py.eqb_eq c _ h.1, eqbStmts_eq s _ h.2]
  | .brk, b, h => by cases b <;> simp_all [PyS.eqb]
  | .cont, b, h => by cases b <;> simp_all [PyS.eqb]
  | .def_ f xs s, b, h => by
    cases b <;> simp only [PyS.eqb, Bool.and_eq_true, beq_iff_eq, Bool.false_eq_true] at h
    rw [h.1.1, h.1.2, eqbStmts_eq s _ h.2]
  | .ret e, b, h => by
    cases b <;> simp only [PyS.eqb, Bool.false_eq_true] at h
    rw [Py.eqb_eq e _ h]
theorem eqbStmts_eq : (l m : List PyS) → eqbStmts l m = true → l = m
  | [], [], _ => rfl
  | [], _ :: _, h => by cases h
  | _ :: _, [], h => by cases h
  | a :: r, b :: s, h => by
    simp only [eqbStmts, Bool.and_eq_true] at h
    rw [PyS.eqb_eq a b h.1, eqbStmts_eq r s h.2]
end

mutual
theorem PyS.eqb_refl : (a : PyS) → a.eqb a = true
  | .expr l => by simp [PyS.eqb, eqbs_refl l]
  | .assign l m => by simp [PyS.eqb, eqbs_refl l, eqbs_refl m]
  | .ite c s e => by simp [PyS.eqb, Py.eqb_refl c, eqbStmts_refl s, eqbStmts_refl e]
  | .for_ xs o s => by simp [PyS.eqb, eqbs_refl o, eqbStmts_refl s]
  | .while_ c s => by simp [PyS.eqb, Py.eqb_refl c, eqbStmts_refl s]
  | .brk => by simp [PyS.eqb]
  | .cont => by simp [PyS.eqb]
  | .def_ f xs s => by simp [PyS.eqb, eqbStmts_refl s]
  | .ret e => by simp [PyS.eqb, Py.eqb_refl e]
theorem eqbStmts_refl : (l : List PyS) → eqbStmts l l = true
  | [] => by simp [eqbStmts]
  | a :: r => by simp [eqbStmts, PyS.eqb_refl a, eqbStmts_refl r]
end

instance : DecidableEq PyS := fun a b =>
  if h : a.eqb b = true then .isTrue (PyS.eqb_eq a b h) else .isFalse fun e => h (e ▸ PyS.eqb_refl a)

/-- What is read in a text with the bound `n`. -/
def readBlock (n : Nat) (s : Str) : Option (List PyS) :=
  (linesOf n (pieces s)).bind fun lines => (block n 0 lines).bind fun p => if p.2.isEmpty then some p.1 else none

theorem readsBlock_of {n : Nat} {s : Str} {ss : List PyS} (h : readBlock n s = some ss) : ReadsBlock s ss := by
  unfold readBlock at h
  rw [Option.bind_eq_some_iff] at h
  obtain ⟨lines, h1, h2⟩ := h
  rw [Option.bind_eq_some_iff] at h2
  obtain ⟨⟨tt, r⟩, h3, h4⟩ := h2
  dsimp only at h4
  split at h4
  · rename_i he
    rw [List.isEmpty_iff] at he
    subst he
    cases h4
    exact ⟨n, lines, h1, h3⟩
  · cases h4

theorem exprList_le {n m : Nat} {t : List Tok} {p : List Py × List Tok} (h : exprList n t = some p) (hm : n ≤ m) : exprList m t = some p := by
  induction hm with
  | refl => exact h
  | step _ ih => exact exprList_mono ih

/-- A line that gives a value to what cannot be given one is not read. -/
theorem not_assigned {n : Nat} {s : Str} {w : Str} {t : Tok} {toks r : List Tok} {es : List Py}
    (h1 : linesOf n (pieces s) = some [(0, .word w :: t :: toks)]) (h2 : opens (.word w :: t :: toks) = false) (h3 : w ≠ "return".toList)
    (h4 : exprList n (.word w :: t :: toks) = some (es, .op "=".toList :: r)) (h5 : es.all assignable = false) (ss : List PyS) :
    ¬ ReadsBlock s ss := by
  rintro ⟨m, lines, hl, hb⟩
  have hl' := linesOf_mono (Nat.le_add_left m (n + 1)) hl
  rw [linesOf_mono (m := n + 1 + m) (by omega) h1] at hl'
  cases hl'
  have hb' := block_mono hb (show m ≤ n + m + 1 by omega)
  rw [block] at hb'
  rw [if_neg (by omega), if_neg (by omega), h2, if_neg (by simp), Option.bind_eq_some_iff] at hb'
  obtain ⟨a, ha, -⟩ := hb'
  rw [simple, if_neg (by simp), if_neg (by simp)] at ha
  rw [if_neg h3, plainStmt, exprList_le h4 (show n ≤ n + m by omega)] at ha
  dsimp only [Option.bind] at ha
  rw [if_neg (by rw [h5]; simp)] at ha
  cases ha

end PyText
end Verif
