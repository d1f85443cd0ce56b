import Verif.Lemmas.Transform
/-! # C114: the methods of a dictionary are read independently of each other -/
namespace Verif
namespace Drel
open LR
set_option linter.unusedSectionVars false

section Laws
variable [CaseFold] {Py : Type}

/-- **C114.** Going through the definitions of a dictionary ends, whatever their methods. -/
theorem C114_ends (make : Str → Bool → Val → Except PyErr Py) (d : Nat) (defs : List (Str × Block)) : ∃ res d', Transforms make d defs res d' := by
  obtain ⟨n, ⟨res, d'⟩, h⟩ := transformN_halts make defs d
  exact ⟨res, d', n, h⟩

/-- **C114.** It has one result. -/
theorem C114_unique (make : Str → Bool → Val → Except PyErr Py) (d : Nat) (defs : List (Str × Block)) (res res' : Except PyErr (List (Str × List Py)))
    (d1 d2 : Nat) (h : Transforms make d defs res d1) (h' : Transforms make d defs res' d2) : res = res' ∧ d1 = d2 := by
  obtain ⟨n, h⟩ := h
  obtain ⟨m, h'⟩ := h'
  have e1 := transformN_more m h
  have e2 := transformN_more n h'
  rw [Nat.add_comm, e1] at e2
  simpa using e2

/-- **C114.** Although one lexer reads all methods, and remembers open parentheses, what is made of a definition does not depend
on the definitions before it: the result for a dictionary is made up of the results for each definition alone, in order.
Afterwards no parentheses are open, so that this also holds for the next dictionary.
Missing: functions with errors leave the lexer as it is (`C114_functions_fails`). -/
theorem C114_alone_partial (make : Str → Bool → Val → Except PyErr Py) (defs : List (Str × Block)) (out : List (Str × List Py)) (d' : Nat)
    (h : Transforms make 0 defs (.ok out) d') :
    d' = 0 ∧ ∃ f : Str × Block → List (Str × List Py), (∀ x ∈ defs, Transforms make 0 [x] (.ok (f x)) 0) ∧ out = defs.flatMap f := by
  classical
  have key : ∀ (defs : List (Str × Block)) (out : List (Str × List Py)) (n d' : Nat), transformN n make 0 defs = some (.ok out, d') →
      d' = 0 ∧ (∀ x ∈ defs, ∃ o, Transforms make 0 [x] (.ok o) 0) ∧
      ∀ f : Str × Block → List (Str × List Py), (∀ x ∈ defs, Transforms make 0 [x] (.ok (f x)) 0) → out = defs.flatMap f := by
    intro defs
    induction defs with
    | nil =>
      intro out n d' h
      rw [transformN] at h
      simp only [Option.some.injEq, Prod.mk.injEq, Except.ok.injEq] at h
      exact ⟨h.2.symm, fun x hx => absurd hx (by simp), fun f _ => by rw [← h.1]; rfl⟩
    | cons x r ih =>
      intro out n d' h
      obtain ⟨o1, o2, h1, h2, h3⟩ := transforms_cons h
      obtain ⟨k1, k2, k3⟩ := ih o2 n d' h2
      refine ⟨k1, ?_, ?_⟩
      · intro y hy
        rcases List.mem_cons.1 hy with e | e
        · rw [e]; exact ⟨o1, n, h1⟩
        · exact k2 y e
      · intro f hf
        have e1 : o1 = f x := by
          have := C114_unique make 0 [x] _ _ _ _ ⟨n, h1⟩ (hf x (by simp))
          simpa using this.1
        rw [h3, List.flatMap_cons, e1, k3 f (fun y hy => hf y (by simp [hy]))]
  obtain ⟨n, h⟩ := h
  obtain ⟨h1, h2, h3⟩ := key defs out n d' h
  refine ⟨h1, fun x => if hx : ∃ o, Transforms make 0 [x] (.ok o) 0 then hx.choose else [], ?_, ?_⟩
  · intro x hx
    have := h2 x hx
    show Transforms make 0 [x] (.ok (dite _ _ _)) 0
    rw [dif_pos this]
    exact this.choose_spec
  · apply h3
    intro x hx
    have := h2 x hx
    show Transforms make 0 [x] (.ok (dite _ _ _)) 0
    rw [dif_pos this]
    exact this.choose_spec

/-- **C114.** A definition with methods is given the translations of those that are for evaluation and are programs, in order, and
of no others; if there are none it is left alone. -/
theorem C114_methods (make : Str → Bool → Val → Except PyErr Py) (name : Str) (b : Block) (ms : List (Str × Str)) (hm : HasMethods b ms)
    (hf : ¬ InFunctions b) (out : List (Str × List Py)) (d' : Nat) (h : Transforms make 0 [(name, b)] (.ok out) d') :
    ∃ (cat : Bool) (ts : List Py), (cat = true ↔ CatScope b) ∧ Taken (make name cat) ms ts ∧ out = if ts = [] then [] else [(name, ts)] := by
  obtain ⟨n, h⟩ := h
  have hd : derivable b = true := by
    unfold derivable getOr
    rw [hm.1, Bool.true_and, decide_eq_true_eq]
    intro e
    apply hf
    unfold InFunctions
    cases hc : b.getItem "_name.category_id".toList with
    | ok v =>
      rw [hc] at e
      have e' : v = .str "function".toList := e
      rw [e']
    | error x =>
      rw [hc] at e
      have e' : PyVal.str [] = .str "function".toList := e
      exact absurd e' (by decide)
  rw [transformN, if_pos hd, pairsOf_has hm] at h
  simp only at h
  cases hq : methodsN n (make name (isCatDef b)) 0 (ms.map fun m => (.str m.1, .str m.2)) with
  | none => rw [hq] at h; cases h
  | some x =>
    obtain ⟨x, k⟩ := x
    rw [hq] at h
    cases x with
    | error e => cases h
    | ok l =>
      simp only [transformN, Option.some.injEq, Prod.mk.injEq, Except.ok.injEq] at h
      refine ⟨isCatDef b, l, ?_, methodsN_taken hq, ?_⟩
      · unfold isCatDef getOr CatScope
        rw [decide_eq_true_eq]
        cases hc : b.getItem "_definition.scope".toList with
        | ok v => simp
        | error x => simp
      · rw [← h.1]
        cases l with
        | nil => simp
        | cons a r => simp

/-- **C114.** A definition without methods, or of a function, is left alone. -/
theorem C114_others (make : Str → Bool → Val → Except PyErr Py) (name : Str) (b : Block)
    (h : b.contains "_method.expression".toList = false ∨ InFunctions b) : Transforms make 0 [(name, b)] (.ok []) 0 := by
  have hd : derivable b = false := by
    unfold derivable getOr
    rcases h with h | h
    · rw [h, Bool.false_and]
    · rw [show b.getItem "_name.category_id".toList = _ from h]
      simp
  exact ⟨0, by rw [transformN, hd]; rfl⟩

/-- **C114.** An error in a method does not keep a dictionary from being opened: if all programs can be translated, it succeeds. -/
theorem C114_opens (make : Str → Bool → Val → Except PyErr Py) (hmake : ∀ s c v, ∃ p, make s c v = .ok p) (defs : List (Str × Block))
    (hdefs : ∀ x ∈ defs, x.2.contains "_method.expression".toList = false ∨ InFunctions x.2 ∨ ∃ ms, HasMethods x.2 ms) (d : Nat) :
    ∃ out d', Transforms make d defs (.ok out) d' := by
  obtain ⟨n, ⟨res, d'⟩, h⟩ := transformN_halts make defs d
  have key : ∀ (defs : List (Str × Block)) (d d' : Nat) (res : Except PyErr (List (Str × List Py))),
      (∀ x ∈ defs, x.2.contains "_method.expression".toList = false ∨ InFunctions x.2 ∨ ∃ ms, HasMethods x.2 ms) →
      transformN n make d defs = some (res, d') → ∃ out, res = .ok out := by
    intro defs
    induction defs with
    | nil =>
      intro d d' res _ h
      rw [transformN] at h
      simp only [Option.some.injEq, Prod.mk.injEq] at h
      exact ⟨[], h.1.symm⟩
    | cons x r ih =>
      intro d d' res hx h
      obtain ⟨name, b⟩ := x
      rw [transformN] at h
      by_cases hd : derivable b = true
      · rw [if_pos hd] at h
        have hms : ∃ ms, HasMethods b ms := by
          rcases hx (name, b) (by simp) with h1 | h1 | h1
          · unfold derivable at hd; rw [h1] at hd; cases hd
          · unfold derivable getOr at hd
            rw [show b.getItem "_name.category_id".toList = _ from h1] at hd
            simp at hd
          · exact h1
        obtain ⟨ms, hms⟩ := hms
        rw [pairsOf_has hms] at h
        simp only at h
        cases hq : methodsN n (make name (isCatDef b)) d (ms.map fun m => (.str m.1, .str m.2)) with
        | none => rw [hq] at h; cases h
        | some x =>
          obtain ⟨x, k⟩ := x
          rw [hq] at h
          obtain ⟨l, hl⟩ := methodsN_ok (hmake name (isCatDef b)) hq
          rw [hl] at h
          simp only at h
          cases hr : transformN n make k r with
          | none => rw [hr] at h; cases h
          | some y =>
            obtain ⟨y, k'⟩ := y
            rw [hr] at h
            obtain ⟨o, ho⟩ := ih k k' y (fun x hm => hx x (by simp [hm])) hr
            rw [ho] at h
            simp only [Option.some.injEq, Prod.mk.injEq] at h
            exact ⟨_, h.1.symm⟩
      · rw [if_neg hd] at h
        exact ih d d' res (fun x hm => hx x (by simp [hm])) h
  obtain ⟨out, ho⟩ := key defs d d' res hdefs h
  exact ⟨out, d', n, by rw [h, ho]⟩

/-- **C114.** Functions are read independently of each other as well, if all can be read: each is translated, and no parentheses are
open afterwards. -/
theorem C114_functions (n : Nat) (make : Str → Val → Except PyErr Py) (fs : List (Str × Str)) (l : List Py) (d' : Nat)
    (h : functionsN n make 0 fs = some (.ok l, d')) :
    d' = 0 ∧ l.length = fs.length ∧ ∀ x ∈ fs.zip l, ∃ v, Reads (unixLines x.1.2) v ∧ make x.1.1 v = .ok x.2 := by
  induction fs generalizing l d' with
  | nil =>
    rw [functionsN] at h
    simp only [Option.some.injEq, Prod.mk.injEq, Except.ok.injEq] at h
    refine ⟨h.2.symm, by rw [← h.1]; rfl, fun x hx => absurd hx (by simp)⟩
  | cons f r ih =>
    obtain ⟨name, body⟩ := f
    rw [functionsN] at h
    cases hp : parseN n 0 (unixLines body) with
    | none => rw [hp] at h; cases h
    | some x =>
      obtain ⟨o, k⟩ := x
      rw [hp] at h
      cases o with
      | none => cases h
      | some v =>
        obtain ⟨hv, hk⟩ := parseN_some hp
        simp only at h
        cases hm : make name v with
        | error e => rw [hm] at h; cases h
        | ok p =>
          rw [hm, hk] at h
          simp only at h
          cases hr : functionsN n make 0 r with
          | none => rw [hr] at h; cases h
          | some y =>
            obtain ⟨y, k'⟩ := y
            rw [hr] at h
            cases y with
            | error e => cases h
            | ok l' =>
              simp only [Option.some.injEq, Prod.mk.injEq, Except.ok.injEq] at h
              obtain ⟨i1, i2, i3⟩ := ih l' k' hr
              rw [← h.1, ← h.2]
              refine ⟨i1, by simp [i2], ?_⟩
              intro x hx
              rw [List.zip_cons_cons] at hx
              rcases List.mem_cons.1 hx with e | e
              · rw [e]; exact ⟨v, hv, hm⟩
              · exact i3 x e

/-- **C114.** Whether lines are ended by line feeds or by carriage returns with line feeds, and whether the last one is ended,
makes no difference: the parser sees the same text. -/
theorem C114_lines (ls : List Str) (s s' : Str) (h : TextOf ls s) (h' : TextOf ls s') : unixLines s = unixLines s' ∧ unixLines s = joinNl ls := by
  unfold unixLines
  rw [splitLines_text h, splitLines_text h']
  exact ⟨rfl, rfl⟩

end Laws

/-! ## Examples -/

section Samples
local instance transformFold : CaseFold := asciiFold

/-- A definition with a loop of methods: one that is no program, with a parenthesis open; one for something else; and a program. -/
def methodBlock : Block :=
  (((({} : Block).addItem "_method.purpose".toList (.list [.str "Evaluation".toList, .str "Definition".toList, .str "Evaluation".toList])).1.addItem
    "_method.expression".toList (.list [.str "x = (1 2".toList, .str "y = 1".toList, .str "z = 1\r\n".toList])).1.createLoop
    ["_method.purpose".toList, "_method.expression".toList]).1

/-- A definition with a single method. -/
def singleBlock : Block :=
  ((({} : Block).addItem "_method.purpose".toList (.str "Evaluation".toList)).1.addItem "_method.expression".toList (.str "a = (1)".toList)).1

/-- The hypotheses of C114, and a result: the first method does not disturb the third or the next definition. -/
example : HasMethods methodBlock [("Evaluation".toList, "x = (1 2".toList), ("Definition".toList, "y = 1".toList), ("Evaluation".toList, "z = 1\r\n".toList)] ∧
    HasMethods singleBlock [("Evaluation".toList, "a = (1)".toList)] ∧ ¬ InFunctions methodBlock ∧
    Transforms (fun _ _ _ => .ok ()) 0 [("a".toList, methodBlock), ("b".toList, {}), ("c".toList, singleBlock)]
      (.ok [("a".toList, [()]), ("c".toList, [()])]) 0 := by
  refine ⟨⟨by decide +kernel, .inl ⟨by decide +kernel, by decide +kernel⟩⟩, ⟨by decide +kernel, .inr ⟨_, _, rfl, by decide +kernel, by decide +kernel⟩⟩,
    ?_, 1000, by decide +kernel⟩
  unfold InFunctions
  decide +kernel

/-- **C114** fails after a function with an error: opening the dictionary ends in an exception, and the lexer, which all
dictionaries share, is left with a parenthesis open. Then the first method of the next dictionary is not taken, although it is
a program. -/
theorem C114_functions_fails : ∃ n : Nat,
    functionsN n (fun _ _ => .ok ()) 0 [("f".toList, "Function f(x".toList)] = some (.error .syntax, 1) ∧
    transformN n (fun _ _ _ => .ok ()) 1 [("c".toList, singleBlock)] = some (.ok [], 0) ∧
    transformN n (fun _ _ _ => .ok ()) 0 [("c".toList, singleBlock)] = some (.ok [("c".toList, [()])], 0) :=
  ⟨1000, by decide +kernel, by decide +kernel, by decide +kernel⟩

/-- **C114** fails for definitions in the category of functions when its name is in other capitals, although names of categories
are compared ignoring case elsewhere: the function is taken for a method. -/
theorem C114_category_fails : ∃ n : Nat,
    transformN n (fun _ _ _ => .ok ()) 0 [("f".toList, (singleBlock.addItem "_name.category_id".toList (.str "FUNCTION".toList)).1)] =
      some (.ok [("f".toList, [()])], 0) ∧
    transformN n (fun _ _ _ => .ok ()) 0 [("f".toList, (singleBlock.addItem "_name.category_id".toList (.str "function".toList)).1)] =
      some (.ok [], 0) :=
  ⟨1000, by decide +kernel, by decide +kernel⟩

/-- **C114** fails for a definition whose method has no purpose: the dictionary cannot be opened. -/
theorem C114_purpose_fails : transformN 0 (fun _ _ _ => (.ok () : Except PyErr Unit)) 0
    [("a".toList, (({} : Block).addItem "_method.expression".toList (.str "x = 1".toList)).1)] = some (.error .key, 0) := by
  decide +kernel

/-- The hypothesis of `C114_functions`. -/
example : functionsN 1000 (fun _ _ => .ok ()) 0 [("f".toList, "Function f(x:[Single,Real]) {\n f = x\n}".toList)] = some (.ok [()], 0) := by
  decide +kernel

/-- Lines with both ends. -/
example : TextOf ["x = 1".toList, "".toList, "y = 2".toList] "x = 1\n\r\ny = 2".toList := by
  have h1 : TextOf ["y = 2".toList] "y = 2".toList := .last (by decide) (by decide)
  have h2 := TextOf.line (l := []) (by decide) (.inr rfl) h1
  exact TextOf.line (l := "x = 1".toList) (by decide) (.inl rfl) h2

end Samples
end Drel
end Verif
