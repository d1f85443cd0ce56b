import Verif.Lemmas.ReadEnds
import Verif.Lemmas.Reader
/-! # Every rule of the parsers consumes text: values -/
set_option linter.unusedSectionVars false

namespace Verif.Reader
open Scanner
variable [CaseFold] {lx : Lexer Tk} (hs : Sound lx) {input : Str}

/-- After a value: nothing has been looked at beyond it, and there is no `None` in it. -/
def ValueQ (v : PyVal) (p : PState) : Prop := Clean p ∧ notNone v = true

theorem notNone_snoc {acc : List PyVal} {v : PyVal} (h : notNoneAll acc = true) (hv : notNone v = true) : notNoneAll (acc ++ [v]) = true := by
  rw [notNoneAll_iff] at h ⊢
  intro x hx
  rw [List.mem_append, List.mem_singleton] at hx
  rcases hx with hx | rfl
  · exact h x hx
  · exact hv

include hs

theorem scLines_out : ∀ (fuel : Nat) (acc : Str) (p : PState), Ok lx input p → Wide p [.endSc, .scLine] → rest p + 1 ≤ fuel →
    Out lx input Syn 1 p (fun _ p' => Clean p') (scLines lx fuel acc p)
  | 0, _, _, _, _, h => by omega
  | fuel + 1, acc, p, hp, hw, hf => by
    unfold scLines
    refine (peek_out hs hp hw).elim (fun e he => .err e he) fun t p1 o1 l1 w1 => ?_
    simp only
    split
    · refine (take_out hs o1 (w1.sub (by simp)) (by decide)).elim (fun e he => .err e he) fun x p2 o2 l2 q2 => ?_
      exact (scLines_out fuel _ p2 o2 (q2.1.wide o2 _) (by omega)).mono (fun _ h => h) (by omega) (fun _ _ _ h => h)
    · rcases afterStar_out hs o1 (F := [.endSc, .scLine]) w1 with ⟨e, h, he⟩ | ⟨p2, h, o2, l2, w2⟩
      · rw [h]; exact .err e he
      · rw [h]
        simp only
        refine (take_out hs o2 (w2.sub (by simp)) (by decide)).elim (fun e he => .err e he) fun x p3 o3 l3 q3 => ?_
        exact .ok o3 (by omega) q3.1

theorem scLinesOfText_out (fuel : Nat) (p : PState) (hp : Ok lx input p) (hw : Wide p [.startSc]) (hf : rest p ≤ fuel) :
    Out lx input Syn 1 p (fun _ p' => Clean p') (scLinesOfText lx fuel p) := by
  unfold scLinesOfText
  refine (take_out hs hp hw (by decide)).elim (fun e he => .err e he) fun x p1 o1 l1 q1 => ?_
  exact (scLines_out hs fuel x p1 o1 (q1.1.wide o1 _) (by omega)).mono (fun _ h => h) (by omega) (fun _ _ _ h => h)

theorem value1_out (fuel : Nat) (p : PState) (hp : Ok lx input p) (hw : Wide p [.value, .startSc]) (hf : 2 * rest p + 1 ≤ fuel) :
    Out lx input Syn 1 p ValueQ (value1 lx fuel p) := by
  unfold value1
  refine (peek_out hs hp hw).elim (fun e he => .err e he) fun t p1 o1 l1 w1 => ?_
  simp only
  split
  · refine (take_out hs o1 (w1.sub (by simp)) (by decide)).elim (fun e he => .err e he) fun x p2 o2 l2 q2 => ?_
    exact .ok o2 (by omega) ⟨q2.1, rfl⟩
  · refine (scLinesOfText_out hs fuel p1 o1 (w1.sub (by simp)) (by omega)).elim (fun e he => .err e he) fun x p2 o2 l2 q2 => ?_
    exact .ok o2 (by omega) ⟨q2, rfl⟩

theorem delimited_out (p : PState) (hp : Ok lx input p) (hw : Wide p [.single, .triple]) :
    Out lx input Syn 1 p (fun _ p' => Clean p') (delimited lx p) := by
  unfold delimited
  refine (peek_out hs hp hw).elim (fun e he => .err e he) fun t p1 o1 l1 w1 => ?_
  simp only
  split
  · refine (take_out hs o1 (w1.sub (by simp)) (by decide)).elim (fun e he => .err e he) fun x p2 o2 l2 q2 => ?_
    exact .ok o2 (by omega) q2.1
  · refine (take_out hs o1 (w1.sub (by simp)) (by decide)).elim (fun e he => .err e he) fun x p2 o2 l2 q2 => ?_
    exact .ok o2 (by omega) q2.1

theorem value2_all : ∀ fuel : Nat,
    (∀ p, Ok lx input p → Wide p first2 → 2 * rest p + 1 ≤ fuel → Out lx input Syn 1 p ValueQ (value2 lx fuel p)) ∧
    (∀ acc p, notNoneAll acc = true → Ok lx input p → Wide p (.closeSquare :: first2) → 2 * rest p + 2 ≤ fuel →
      Out lx input Syn 1 p ValueQ (squareLoop lx fuel acc p)) ∧
    (∀ acc p, Ok lx input p → Wide p [.closeCurly, .single, .triple] → 2 * rest p + 2 ≤ fuel →
      Out lx input Syn 1 p ValueQ (curlyLoop lx fuel acc p))
  | 0 => ⟨fun _ _ _ h => by omega, fun _ _ _ _ _ h => by omega, fun _ _ _ _ h => by omega⟩
  | fuel + 1 => by
    obtain ⟨ih1, ih2, ih3⟩ := value2_all fuel
    refine ⟨?_, ?_, ?_⟩
    · intro p hp hw hf
      unfold value2
      refine (peek_out hs hp hw).elim (fun e he => .err e he) fun t p1 o1 l1 w1 => ?_
      simp only
      split
      · refine (take_out hs o1 (w1.sub (by simp [first2])) (by decide)).elim (fun e he => .err e he) fun x p2 o2 l2 q2 => ?_
        exact .ok o2 (by omega) ⟨q2.1, rfl⟩
      split
      · refine (delimited_out hs p1 o1 (w1.sub (by simp [first2]))).elim (fun e he => .err e he) fun x p2 o2 l2 q2 => ?_
        exact .ok o2 (by omega) ⟨q2, rfl⟩
      split
      · refine (scLinesOfText_out hs fuel p1 o1 (w1.sub (by simp [first2])) (by omega)).elim (fun e he => .err e he) fun x p2 o2 l2 q2 => ?_
        exact .ok o2 (by omega) ⟨q2, rfl⟩
      · refine (peek_out hs o1 (R := [.openCurly, .openSquare]) (w1.sub (by simp [first2]))).elim (fun e he => .err e he)
          fun t2 p2 o2 l2 w2 => ?_
        simp only
        split
        · refine (take_out hs o2 (w2.sub (by simp)) (by decide)).elim (fun e he => .err e he) fun x p3 o3 l3 q3 => ?_
          exact (ih2 [] p3 rfl o3 (q3.1.wide o3 _) (by omega)).mono (fun _ h => h) (by omega) (fun _ _ _ h => h)
        · refine (take_out hs o2 (w2.sub (by simp)) (by decide)).elim (fun e he => .err e he) fun x p3 o3 l3 q3 => ?_
          exact (ih3 [] p3 o3 (q3.1.wide o3 _) (by omega)).mono (fun _ h => h) (by omega) (fun _ _ _ h => h)
    · intro acc p ha hp hw hf
      unfold squareLoop
      refine (peek_out hs hp hw).elim (fun e he => .err e he) fun t p1 o1 l1 w1 => ?_
      simp only
      split
      · refine (ih1 p1 o1 (w1.sub fun x hx => by simp [hx]) (by omega)).elim (fun e he => .err e he) fun v p2 o2 l2 q2 => ?_
        exact (ih2 _ p2 (notNone_snoc ha q2.2) o2 (q2.1.wide o2 _) (by omega)).mono (fun _ h => h) (by omega) (fun _ _ _ h => h)
      · rcases afterStar_out hs o1 (F := .closeSquare :: first2) w1 with ⟨e, h, he⟩ | ⟨p2, h, o2, l2, w2⟩
        · rw [h]; exact .err e he
        · rw [h]
          simp only
          refine (take_out hs o2 (w2.sub (by simp)) (by decide)).elim (fun e he => .err e he) fun x p3 o3 l3 q3 => ?_
          exact .ok o3 (by omega) ⟨q3.1, ha⟩
    · intro acc p hp hw hf
      unfold curlyLoop
      refine (peek_out hs hp hw).elim (fun e he => .err e he) fun t p1 o1 l1 w1 => ?_
      simp only
      split
      · refine (delimited_out hs p1 o1 (w1.sub (by simp))).elim (fun e he => .err e he) fun x p2 o2 l2 q2 => ?_
        simp only
        refine (take_out hs o2 (q2.wide o2 _) (ty := .colon) (by decide)).elim (fun e he => .err e he) fun _ p3 o3 l3 q3 => ?_
        simp only
        refine (ih1 p3 o3 (q3.1.wide o3 _) (by omega)).elim (fun e he => .err e he) fun v p4 o4 l4 q4 => ?_
        exact (ih3 _ p4 o4 (q4.1.wide o4 _) (by omega)).mono (fun _ h => h) (by omega) (fun _ _ _ h => h)
      · rcases afterStar_out hs o1 (F := [.closeCurly, .single, .triple]) w1 with ⟨e, h, he⟩ | ⟨p2, h, o2, l2, w2⟩
        · rw [h]; exact .err e he
        · rw [h]
          simp only
          refine (take_out hs o2 (w2.sub (by simp)) (by decide)).elim (fun e he => .err e he) fun x p3 o3 l3 q3 => ?_
          exact .ok o3 (by omega) ⟨q3.1, rfl⟩

theorem valueS_all : ∀ fuel : Nat,
    (∀ p, Ok lx input p → Wide p first2 → 2 * rest p + 1 ≤ fuel → Out lx input Syn 1 p ValueQ (valueS lx fuel p)) ∧
    (∀ acc p, notNoneAll acc = true → Ok lx input p → Wide p (.closeSquare :: first2) → 2 * rest p + 2 ≤ fuel →
      Out lx input Syn 1 p ValueQ (squareS lx fuel acc p)) ∧
    (∀ acc p, notNoneAll acc = true → Ok lx input p → Wide p (.comma :: .closeSquare :: first2) → 2 * rest p + 3 ≤ fuel →
      Out lx input Syn 1 p ValueQ (squareCommaS lx fuel acc p)) ∧
    (∀ acc p, Ok lx input p → Wide p [.closeCurly, .single, .triple] → 2 * rest p + 2 ≤ fuel →
      Out lx input Syn 1 p ValueQ (curlyS lx fuel acc p)) ∧
    (∀ acc p, Ok lx input p → Wide p [.comma, .closeCurly, .single, .triple] → 2 * rest p + 3 ≤ fuel →
      Out lx input Syn 1 p ValueQ (curlyCommaS lx fuel acc p))
  | 0 => ⟨fun _ _ _ h => by omega, fun _ _ _ _ _ h => by omega, fun _ _ _ _ _ h => by omega, fun _ _ _ _ h => by omega, fun _ _ _ _ h => by omega⟩
  | fuel + 1 => by
    obtain ⟨ih1, ih2, ih3, ih4, ih5⟩ := valueS_all fuel
    refine ⟨?_, ?_, ?_, ?_, ?_⟩
    · intro p hp hw hf
      unfold valueS
      refine (peek_out hs hp hw).elim (fun e he => .err e he) fun t p1 o1 l1 w1 => ?_
      simp only
      split
      · refine (take_out hs o1 (w1.sub (by simp [first2])) (by decide)).elim (fun e he => .err e he) fun x p2 o2 l2 q2 => ?_
        exact .ok o2 (by omega) ⟨q2.1, rfl⟩
      split
      · refine (delimited_out hs p1 o1 (w1.sub (by simp [first2]))).elim (fun e he => .err e he) fun x p2 o2 l2 q2 => ?_
        exact .ok o2 (by omega) ⟨q2, rfl⟩
      split
      · refine (scLinesOfText_out hs fuel p1 o1 (w1.sub (by simp [first2])) (by omega)).elim (fun e he => .err e he) fun x p2 o2 l2 q2 => ?_
        exact .ok o2 (by omega) ⟨q2, rfl⟩
      · refine (peek_out hs o1 (R := [.openCurly, .openSquare]) (w1.sub (by simp [first2]))).elim (fun e he => .err e he)
          fun t2 p2 o2 l2 w2 => ?_
        simp only
        split
        · refine (take_out hs o2 (w2.sub (by simp)) (by decide)).elim (fun e he => .err e he) fun x p3 o3 l3 q3 => ?_
          exact (ih2 [] p3 rfl o3 (q3.1.wide o3 _) (by omega)).mono (fun _ h => h) (by omega) (fun _ _ _ h => h)
        · refine (take_out hs o2 (w2.sub (by simp)) (by decide)).elim (fun e he => .err e he) fun x p3 o3 l3 q3 => ?_
          exact (ih4 [] p3 o3 (q3.1.wide o3 _) (by omega)).mono (fun _ h => h) (by omega) (fun _ _ _ h => h)
    · intro acc p ha hp hw hf
      unfold squareS
      refine (peek_out hs hp hw).elim (fun e he => .err e he) fun t p1 o1 l1 w1 => ?_
      simp only
      split
      · refine (ih1 p1 o1 (w1.sub fun x hx => by simp [hx]) (by omega)).elim (fun e he => .err e he) fun v p2 o2 l2 q2 => ?_
        exact (ih3 _ p2 (notNone_snoc ha q2.2) o2 (q2.1.wide o2 _) (by omega)).mono (fun _ h => h) (by omega) (fun _ _ _ h => h)
      · rcases afterStar_out hs o1 (F := .closeSquare :: first2) w1 with ⟨e, h, he⟩ | ⟨p2, h, o2, l2, w2⟩
        · rw [h]; exact .err e he
        · rw [h]
          simp only
          refine (take_out hs o2 (w2.sub (by simp)) (by decide)).elim (fun e he => .err e he) fun x p3 o3 l3 q3 => ?_
          exact .ok o3 (by omega) ⟨q3.1, ha⟩
    · intro acc p ha hp hw hf
      unfold squareCommaS
      refine (peek_out hs hp hw).elim (fun e he => .err e he) fun t p1 o1 l1 w1 => ?_
      simp only
      split
      · refine (take_out hs o1 (w1.sub (by simp)) (by decide)).elim (fun e he => .err e he) fun _ p2 o2 l2 q2 => ?_
        simp only
        refine (ih1 p2 o2 (q2.1.wide o2 _) (by omega)).elim (fun e he => .err e he) fun v p3 o3 l3 q3 => ?_
        exact (ih3 _ p3 (notNone_snoc ha q3.2) o3 (q3.1.wide o3 _) (by omega)).mono (fun _ h => h) (by omega) (fun _ _ _ h => h)
      · rcases afterStar_out hs o1 (F := .comma :: .closeSquare :: first2) w1 with ⟨e, h, he⟩ | ⟨p2, h, o2, l2, w2⟩
        · rw [h]; exact .err e he
        · rw [h]
          exact (ih2 acc p2 ha o2 (w2.sub fun x hx => List.mem_cons_of_mem _ hx) (by omega)).mono (fun _ h => h) (by omega) (fun _ _ _ h => h)
    · intro acc p hp hw hf
      unfold curlyS
      refine (peek_out hs hp hw).elim (fun e he => .err e he) fun t p1 o1 l1 w1 => ?_
      simp only
      split
      · refine (delimited_out hs p1 o1 (w1.sub (by simp))).elim (fun e he => .err e he) fun x p2 o2 l2 q2 => ?_
        simp only
        refine (take_out hs o2 (q2.wide o2 _) (ty := .colon) (by decide)).elim (fun e he => .err e he) fun _ p3 o3 l3 q3 => ?_
        simp only
        refine (ih1 p3 o3 (q3.1.wide o3 _) (by omega)).elim (fun e he => .err e he) fun v p4 o4 l4 q4 => ?_
        exact (ih5 _ p4 o4 (q4.1.wide o4 _) (by omega)).mono (fun _ h => h) (by omega) (fun _ _ _ h => h)
      · rcases afterStar_out hs o1 (F := [.closeCurly, .single, .triple]) w1 with ⟨e, h, he⟩ | ⟨p2, h, o2, l2, w2⟩
        · rw [h]; exact .err e he
        · rw [h]
          simp only
          refine (take_out hs o2 (w2.sub (by simp)) (by decide)).elim (fun e he => .err e he) fun x p3 o3 l3 q3 => ?_
          exact .ok o3 (by omega) ⟨q3.1, rfl⟩
    · intro acc p hp hw hf
      unfold curlyCommaS
      refine (peek_out hs hp hw).elim (fun e he => .err e he) fun t p1 o1 l1 w1 => ?_
      simp only
      split
      · refine (take_out hs o1 (w1.sub (by simp)) (by decide)).elim (fun e he => .err e he) fun _ p2 o2 l2 q2 => ?_
        simp only
        refine (delimited_out hs p2 o2 (q2.1.wide o2 _)).elim (fun e he => .err e he) fun x p3 o3 l3 q3 => ?_
        simp only
        refine (take_out hs o3 (q3.wide o3 _) (ty := .colon) (by decide)).elim (fun e he => .err e he) fun _ p4 o4 l4 q4 => ?_
        simp only
        refine (ih1 p4 o4 (q4.1.wide o4 _) (by omega)).elim (fun e he => .err e he) fun v p5 o5 l5 q5 => ?_
        exact (ih5 _ p5 o5 (q5.1.wide o5 _) (by omega)).mono (fun _ h => h) (by omega) (fun _ _ _ h => h)
      · rcases afterStar_out hs o1 (F := [.comma, .closeCurly, .single, .triple]) w1 with ⟨e, h, he⟩ | ⟨p2, h, o2, l2, w2⟩
        · rw [h]; exact .err e he
        · rw [h]
          exact (ih4 acc p2 o2 (w2.sub (by simp)) (by omega)).mono (fun _ h => h) (by omega) (fun _ _ _ h => h)

end Verif.Reader
