import Verif.Lemmas.PyParse
/-! # Comparing Python expressions -/
namespace Verif
namespace PyText

mutual
/-- The same expression. -/
def Py.eqb : Py → Py → Bool
  | .name s, .name t => s == t
  | .num s, .num t => s == t
  | .str s, .str t => s == t
  | .none, .none => true
  | .attr e a, .attr f b => e.eqb f && a == b
  | .call e l, .call f m => e.eqb f && eqbs l m
  | .index e i, .index f j => e.eqb f && i.eqb j
  | .slice a b c, .slice d e f => a.eqb d && b.eqb e && c.eqb f
  | .tuple l, .tuple m => eqbs l m
  | .list l, .list m => eqbs l m
  | .dict k v, .dict l w => eqbs k l && eqbs v w
  | .set l, .set m => eqbs l m
  | .comp a x e c, .comp b y f d => a == b && x == y && e.eqb f && c.eqb d
  | .bin o a b, .bin p c d => o == p && a.eqb c && b.eqb d
  | .un o a, .un p b => o == p && a.eqb b
  | _, _ => false
/-- The same expressions. -/
def eqbs : List Py → List Py → Bool
  | [], [] => true
  | a :: r, b :: s => a.eqb b && eqbs r s
  | _, _ => false
end

mutual
theorem Py.eqb_eq : (a b : Py) → a.eqb b = true → a = b
  | .name s, b, h => by cases b <;> simp_all [Py.eqb]
  | .num s, b, h => by cases b <;> simp_all [Py.eqb]
  | .str s, b, h => by cases b <;> simp_all [Py.eqb]
  | .none, b, h => by cases b <;> simp_all [Py.eqb]
  | .attr e a, b, h => by
    cases b <;> simp only [Py.eqb, Bool.and_eq_true, beq_iff_eq, Bool.false_eq_true] at h
    rw [Py.eqb_eq e _ h.1, h.2]
  | .call e l, b, h => by
    cases b <;> simp only [Py.eqb, Bool.and_eq_true, Bool.false_eq_true] at h
    rw [Py.eqb_eq e _ h.1, eqbs_eq l _ h.2]
  | .index e i, b, h => by
    cases b <;> simp only [Py.eqb, Bool.and_eq_true, Bool.false_eq_true] at h
    rw [Py.eqb_eq e _ h.1, Py.eqb_eq i _ h.2]
  | .slice x y z, b, h => by
    cases b <;> simp only [Py.eqb, Bool.and_eq_true, Bool.false_eq_true] at h
    rw [Py.eqb_eq x _ h.1.1, Py.eqb_eq y _ h.1.2, Py.eqb_eq z _ h.2]
  | .tuple l, b, h => by
    cases b <;> simp only [Py.eqb, Bool.false_eq_true] at h
    rw [eqbs_eq l _ h]
  | .list l, b, h => by
    cases b <;> simp only [Py.eqb, Bool.false_eq_true] at h
    rw [eqbs_eq l _ h]
  | .dict k v, b, h => by
    cases b <;> simp only [Py.eqb, Bool.and_eq_true, Bool.false_eq_true] at h
    rw [eqbs_eq k _ h.1, eqbs_eq v _ h.2]
  | .bin o x y, b, h => by
    cases b <;> simp only [Py.eqb, Bool.and_eq_true, beq_iff_eq, Bool.false_eq_true] at h
    rw [h.1.1, Py.eqb_eq x _ h.1.2, Py.eqb_eq y _ h.2]
  | .un o x, b, h => by
    cases b <;> simp only [Py.eqb, Bool.and_eq_true, beq_iff_eq, Bool.false_eq_true] at h
    rw [h.1, Py.eqb_eq x _ h.2]
  | .set l, b, h => by
    cases b <;> simp only [Py.eqb, Bool.false_eq_true] at h
    rw [eqbs_eq l _ h]
  | .comp a x e c, b, h => by
    cases b <;> simp only [Py.eqb, Bool.and_eq_true, beq_iff_eq, Bool.false_eq_true] at h
    rw [h.1.1.1, h.1.1.2, Py.eqb_eq e _ h.1.2, Py.eqb_eq c _ h.2]
theorem eqbs_eq : (l m : List Py) → eqbs l m = true → l = m
  | [], [], _ => rfl
  | [], _ :: _, h => by cases h
  | _ :: _, [], h => by cases h
  | a :: r, b :: s, h => by
    simp only [eqbs, Bool.and_eq_true] at h
    rw [Py.eqb_eq a b h.1, eqbs_eq r s h.2]
end

mutual
theorem Py.eqb_refl : (a : Py) → a.eqb a = true
  | .name s | .num s | .str s => by simp [Py.eqb]
  | .none => by simp [Py.eqb]
  | .attr e a => by simp [Py.eqb, Py.eqb_refl e]
  | .call e l => by simp [Py.eqb, Py.eqb_refl e, eqbs_refl l]
  | .index e i => by simp [Py.eqb, Py.eqb_refl e, Py.eqb_refl i]
  | .slice a b c => by simp [Py.eqb, Py.eqb_refl a, Py.eqb_refl b, Py.eqb_refl c]
  | .tuple l => by simp [Py.eqb, eqbs_refl l]
  | .list l => by simp [Py.eqb, eqbs_refl l]
  | .dict k v => by simp [Py.eqb, eqbs_refl k, eqbs_refl v]
  | .set l => by simp [Py.eqb, eqbs_refl l]
  | .comp a x e c => by simp [Py.eqb, Py.eqb_refl e, Py.eqb_refl c]
  | .bin o a b => by simp [Py.eqb, Py.eqb_refl a, Py.eqb_refl b]
  | .un o a => by simp [Py.eqb, Py.eqb_refl a]
theorem eqbs_refl : (l : List Py) → eqbs l l = true
  | [] => by simp [eqbs]
  | a :: r => by simp [eqbs, Py.eqb_refl a, eqbs_refl r]
end

instance : DecidableEq Py := fun a b =>
  if h : a.eqb b = true then .isTrue (Py.eqb_eq a b h) else .isFalse fun e => h (e ▸ Py.eqb_refl a)

/-- What is read in a text with the bound `n`. -/
def readWith (n : Nat) (s : Str) : Option (Py × List Tok) := (tokens n s).bind fun toks => parse n 1 toks

theorem reads_of {n : Nat} {s : Str} {e : Py} (h : readWith n s = some (e, [])) : Reads s e := by
  unfold readWith at h
  cases ht : tokens n s with
  | none => rw [ht] at h; cases h
  | some toks => rw [ht] at h; exact ⟨n, toks, ht, h⟩

/-- Nothing is read in a text after whose beginning, an expression, something else follows. -/
theorem not_reads {n : Nat} {s : Str} {p : Py} {t : Tok} {r : List Tok} (h : readWith n s = some (p, t :: r)) (q : Py) :
    ¬ Reads s q := by
  unfold readWith at h
  cases ht : tokens n s with
  | none => rw [ht] at h; cases h
  | some toks =>
    rw [ht] at h
    replace h : parse n 1 toks = some (p, t :: r) := h
    rintro ⟨n', toks', ht', hq⟩
    have : toks = toks' := Lexes.unique ⟨n, ht⟩ ⟨n', ht'⟩
    subst this
    have h1 := parse_mono h (Nat.le_max_left n n')
    have h2 := parse_mono hq (Nat.le_max_right n n')
    rw [h1] at h2
    exact absurd (congrArg Prod.snd (Option.some.inj h2)) (by simp)

end PyText
end Verif
