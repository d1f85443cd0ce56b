import Verif.Lemmas.TypeContents
/-! # C50: type expressions -/
namespace Verif.TypeContents
open Yapps
open Spec.TypeContents

/-! ## What is accepted -/

/-- What comes after an element: neither a letter nor an opening bracket. -/
def Stop (rest : Str) : Prop := ∀ c t, rest = c :: t → isLetter c = false ∧ c ≠ '('

theorem stop_blanks {g rest : Str} (hg : Blanks g) (h : Stop rest) : Stop (g ++ rest) := by
  intro c t e
  cases g with
  | nil => exact h c t e
  | cons x g =>
    injection e with e1 e2
    subst e1
    have hb := isBlank_iff.2 (hg x (by simp))
    refine ⟨not_letter_of_blank hb, ?_⟩
    rintro rfl
    revert hb
    decide

theorem stop_sign {c : Char} {rest : Str} (h : c = ')' ∨ c = ',') : Stop (c :: rest) := by
  rintro x t ⟨⟩
  rcases h with rfl | rfl <;> decide

theorem stop_nil : Stop [] := by
  intro c t e
  cases e

/-- The text that may follow the last element, the token that ends the list, and what is left after it. -/
def Closing (follow : List Tok) (rest : Str) (n : Tok) (w r : Str) : Prop :=
  (follow = [.comma, .close] ∧ n = .close ∧ w = [')'] ∧ ∃ g, rest = g ++ ')' :: r ∧ Blanks g) ∨
  (follow = [.comma, .fin] ∧ n = .fin ∧ w = [] ∧ r = [] ∧ Blanks rest)

theorem Closing.stop {follow : List Tok} {rest w r : Str} {n : Tok} (h : Closing follow rest n w r) : Stop rest := by
  rcases h with ⟨-, -, -, g, rfl, hg⟩ | ⟨-, -, -, -, hg⟩
  · exact stop_blanks hg (stop_sign (.inl rfl))
  · have := stop_blanks hg stop_nil
    simpa using this

theorem Closing.next {follow : List Tok} {rest w r : Str} {n : Tok} (h : Closing follow rest n w r) {fuel : Nat} (hf : rest.length < fuel) :
    next table [.blank] follow fuel rest = .ok (n, w, r) := by
  rcases h with ⟨rfl, rfl, rfl, g, rfl, hg⟩ | ⟨rfl, rfl, rfl, rfl, hg⟩
  · exact next_sign hg hf (.inl ⟨rfl, .inl ⟨rfl, rfl⟩⟩)
  · exact next_fin hg hf

theorem Closing.mem {follow : List Tok} {rest w r : Str} {n : Tok} (h : Closing follow rest n w r) : n ∈ follow ∧ n ≠ .comma := by
  rcases h with ⟨rfl, rfl, -⟩ | ⟨rfl, rfl, -⟩ <;> decide

theorem Closing.comma {follow : List Tok} {rest w r : Str} {n : Tok} (h : Closing follow rest n w r) {g t : Str} (hg : Blanks g) {fuel : Nat}
    (hf : (g ++ ',' :: t).length < fuel) : Yapps.next table [.blank] follow fuel (g ++ ',' :: t) = .ok (.comma, [','], t) := by
  rcases h with ⟨rfl, -⟩ | ⟨rfl, -⟩
  · exact next_sign hg hf (.inl ⟨rfl, .inr ⟨rfl, rfl⟩⟩)
  · exact next_sign hg hf (.inr ⟨rfl, rfl, rfl⟩)

theorem Closing.comma_mem {follow : List Tok} {rest w r : Str} {n : Tok} (h : Closing follow rest n w r) : Tok.comma ∈ follow := by
  rcases h with ⟨rfl, -⟩ | ⟨rfl, -⟩ <;> decide

theorem more_end {follow : List Tok} {rest w r : Str} {m : Tok} (h : Closing follow rest m w r) {p : State Tok} (hp : Ready p rest)
    {n : Nat} (hn : 0 < n) : ∃ p', (∀ acc, moreElements n follow acc p = .ok (acc, p')) ∧ Peeked p' follow m w r := by
  cases n with
  | zero => omega
  | succ n =>
    obtain ⟨p1, h1, h2⟩ := peek_ok hp (h.next (bound_gt hp))
    refine ⟨p1, ?_, h2⟩
    intro acc
    rw [moreElements, show lx = lexer table [.blank] from rfl, h1]
    simp only
    rw [if_neg h.mem.2, afterStar_peeked h2 h.mem.1]

mutual
theorem element_complete {t : Str} {v : PyVal} (h : Element t v) {rest : Str} {p : State Tok} {n : Nat} (hs : Stop rest)
    (hp : Ready p (t ++ rest)) (hn : t.length < n) : ∃ p', baseElement n p = .ok (v, p') ∧ Ready p' rest := by
  match h with
  | @Element.name g w hg hw =>
    cases n with
    | zero => omega
    | succ n =>
      rw [List.append_assoc] at hp
      obtain ⟨p1, h1, h2⟩ := peek_ok hp (next_identifier hg hw hs (bound_gt hp))
      refine ⟨_, ?_, ready_of_peeked h2 hw.1⟩
      rw [baseElement, show lx = lexer table [.blank] from rfl, h1]
      simp only
      rw [if_neg (by decide), take_peeked h2 (by simp)]
  | @Element.container g w body g' vs hg hw hb hg' =>
    have e : g ++ w ++ '(' :: body ++ g' ++ [')'] ++ rest = g ++ (w ++ '(' :: (body ++ (g' ++ ')' :: rest))) := by simp
    rw [e] at hp
    obtain ⟨p1, h1, h2⟩ := peek_ok hp (next_container hg hw (bound_gt hp))
    have hr := ready_of_peeked h2 (by simp)
    have hl : body.length + 2 < n := by
      have : 0 < w.length := List.length_pos_iff.2 hw.1
      simp at hn
      omega
    match n with
    | 0 => omega
    | 1 => omega
    | n + 2 =>
      obtain ⟨v0, p3, p4, h3, h4, h5⟩ := elements_complete hb (n := n) (m := .close) (w := [')']) (r := rest)
        (.inl ⟨rfl, rfl, rfl, g', rfl, hg'⟩) hr (by omega)
      refine ⟨{ p4 with pos := p4.pos + 1 }, ?_, ready_of_peeked h5 (by simp)⟩
      rw [baseElement, show lx = lexer table [.blank] from rfl, h1]
      simp only
      rw [if_pos trivial, take_peeked h2 (by simp)]
      simp only
      have h4' := h4 []
      rw [List.nil_append, List.nil_append] at h4'
      rw [elementList, h3]
      simp only
      rw [h4']
      simp only
      rw [take_peeked h5 (by simp)]
theorem elements_complete {t : Str} {vs : List PyVal} (h : Elements t vs) {follow : List Tok} {rest w r : Str} {m : Tok} {p : State Tok} {n : Nat}
    (hc : Closing follow rest m w r) (hp : Ready p (t ++ rest)) (hn : t.length < n) :
    ∃ v p1 p', baseElement n p = .ok (v, p1) ∧ (∀ acc, moreElements n follow (acc ++ [v]) p1 = .ok (acc ++ vs, p')) ∧ Peeked p' follow m w r := by
  match h with
  | @Elements.one t v he =>
    obtain ⟨p1, h1, h2⟩ := element_complete he hc.stop hp hn
    obtain ⟨p2, h3, h4⟩ := more_end hc h2 (n := n) (by omega)
    exact ⟨v, p1, p2, h1, fun acc => h3 _, h4⟩
  | @Elements.more t g r' v vs he hg hr =>
    have e : t ++ g ++ ',' :: r' ++ rest = t ++ (g ++ ',' :: (r' ++ rest)) := by simp
    rw [e] at hp
    have hl : t.length < n ∧ r'.length + 1 < n := by
      simp at hn
      omega
    obtain ⟨p1, h1, h2⟩ := element_complete he (stop_blanks hg (stop_sign (.inr rfl))) hp hl.1
    match n with
    | 0 => omega
    | n + 1 =>
      obtain ⟨p2, h3, h4⟩ := peek_ok h2 (hc.comma hg (bound_gt h2))
      have h5 := ready_of_peeked h4 (by simp)
      obtain ⟨v', p3, p4, h6, h7, h8⟩ := elements_complete hr hc h5 (by omega) (n := n)
      refine ⟨v, p1, p4, h1, ?_, h8⟩
      intro acc
      rw [moreElements, show lx = lexer table [.blank] from rfl, h3]
      simp only
      rw [if_pos trivial, take_peeked h4 hc.comma_mem]
      simp only
      rw [h6]
      simp only
      rw [h7, List.append_assoc]
      rfl
end

/-! ## Nothing else is accepted -/

/-- Further elements, each after a comma. -/
def More (t : Str) (vs : List PyVal) : Prop := (t = [] ∧ vs = []) ∨ ∃ g r, t = g ++ ',' :: r ∧ Blanks g ∧ Elements r vs

theorem More.elements {t t' : Str} {v : PyVal} {vs : List PyVal} (h : Element t v) (h' : More t' vs) : Elements (t ++ t') (v :: vs) := by
  rcases h' with ⟨rfl, rfl⟩ | ⟨g, r, rfl, hg, hr⟩
  · rw [List.append_nil]
    exact .one h
  · rw [← List.append_assoc]
    exact .more h hg hr

/-- The repetition with the outcome described. -/
def MoreSays (n : Nat) (follow : List Tok) (acc : List PyVal) (p : State Tok) (text : Str) : Prop :=
  (∃ t rest vs p' m w r, text = t ++ rest ∧ More t vs ∧ Closing follow rest m w r ∧
    moreElements n follow acc p = .ok (acc ++ vs, p') ∧ Peeked p' follow m w r) ∨
  (∃ e, moreElements n follow acc p = .error e ∧ (text.length < n → e = .syntax))

/-- An element with the outcome described. -/
def BaseSays (n : Nat) (p : State Tok) (text : Str) : Prop :=
  (∃ t rest v p', text = t ++ rest ∧ t ≠ [] ∧ Element t v ∧ baseElement n p = .ok (v, p') ∧ Ready p' rest) ∨
  (∃ e, baseElement n p = .error e ∧ (text.length < n → e = .syntax))

theorem follow_next {follow : List Tok} (hf : follow = [.comma, .close] ∨ follow = [.comma, .fin]) (text : Str) {fuel : Nat} (hl : text.length < fuel) :
    (∃ m w r, Closing follow text m w r ∧ next table [.blank] follow fuel text = .ok (m, w, r)) ∨
    (∃ g r, text = g ++ ',' :: r ∧ Blanks g ∧ next table [.blank] follow fuel text = .ok (.comma, [','], r)) ∨
    next table [.blank] follow fuel text = .error .syntax := by
  rcases hf with rfl | rfl
  · rcases next_inner text hl with ⟨g, rest, n, c, rfl, hg, ⟨rfl, rfl⟩ | ⟨rfl, rfl⟩, hn⟩ | hn
    · exact .inl ⟨.close, [')'], rest, .inl ⟨rfl, rfl, rfl, g, rfl, hg⟩, hn⟩
    · exact .inr (.inl ⟨g, rest, rfl, hg, hn⟩)
    · exact .inr (.inr hn)
  · rcases next_outer text hl with ⟨g, rest, rfl, hg, hn⟩ | ⟨hg, hn⟩ | hn
    · exact .inr (.inl ⟨g, rest, rfl, hg, hn⟩)
    · exact .inl ⟨.fin, [], [], .inr ⟨rfl, rfl, rfl, rfl, hg⟩, hn⟩
    · exact .inr (.inr hn)

theorem run_says : ∀ (n : Nat), (∀ (p : State Tok) (text : Str), Ready p text → BaseSays n p text) ∧
    (∀ (follow : List Tok) (acc : List PyVal) (p : State Tok) (text : Str), (follow = [.comma, .close] ∨ follow = [.comma, .fin]) → Ready p text →
      MoreSays n follow acc p text) := by
  intro n
  induction n using Nat.strongRecOn with
  | ind n ih =>
  match n with
  | 0 =>
    refine ⟨fun p text _ => .inr ⟨_, rfl, by omega⟩, fun follow acc p text _ _ => .inr ⟨_, rfl, by omega⟩⟩
  | n + 1 =>
    have ihb := fun p text h => (ih n (by omega)).1 p text h
    have ihm := fun follow acc p text hf h => (ih n (by omega)).2 follow acc p text hf h
    constructor
    · intro p text hp
      rcases next_element text (bound_gt hp) with ⟨g, w, rest, rfl, hg, hw, hn⟩ | ⟨g, w, rest, rfl, hg, hw, hn⟩ | hn
      · obtain ⟨p1, h1, h2⟩ := peek_ok hp hn
        have hr := ready_of_peeked h2 (by simp)
        have hw0 : 0 < w.length := List.length_pos_iff.2 hw.1
        have hb : baseElement (n + 1) p = (match elementList n { p1 with pos := p1.pos + 1 } with
            | .error e => .error e
            | .ok (vs, p3) =>
              match take lx .close p3 with
              | .error e => .error e
              | .ok (_, p4) => .ok (.list vs, p4)) := by
          rw [baseElement, show lx = lexer table [.blank] from rfl, h1]
          simp only
          rw [if_pos trivial, take_peeked h2 (by simp)]
          rfl
        match n with
        | 0 => exact .inr ⟨.depth, by rw [hb]; rfl, by simp⟩
        | n + 1 =>
          rcases (ih n (by omega)).1 _ _ hr with ⟨t, rest', v, p3, rfl, hne, he, h3, h4⟩ | ⟨e, h3, h4⟩
          · have ht0 : 0 < t.length := List.length_pos_iff.2 hne
            rcases (ih n (by omega)).2 [.comma, .close] [v] _ _ (.inl rfl) h4 with
              ⟨t', rest'', vs, p4, m, w', r, rfl, hm, hc, h5, h6⟩ | ⟨e, h5, h6⟩
            · rcases hc with ⟨-, rfl, rfl, g', rfl, hg'⟩ | ⟨h, -⟩
              · refine .inl ⟨g ++ w ++ '(' :: (t ++ t') ++ g' ++ [')'], r, .list (v :: vs), { p4 with pos := p4.pos + 1 }, by simp, by simp,
                  .container hg hw (hm.elements he) hg', ?_, ready_of_peeked h6 (by simp)⟩
                rw [hb, elementList, h3]
                simp only
                rw [h5]
                simp only
                rw [take_peeked h6 (by simp)]
                rfl
              · cases h
            · refine .inr ⟨e, ?_, ?_⟩
              · rw [hb, elementList, h3]
                simp only
                rw [h5]
              · intro hl
                exact h6 (by simp at hl ⊢; omega)
          · refine .inr ⟨e, ?_, ?_⟩
            · rw [hb, elementList, h3]
            · intro hl
              exact h4 (by simp at hl ⊢; omega)
      · obtain ⟨p1, h1, h2⟩ := peek_ok hp hn
        refine .inl ⟨g ++ w, rest, .str w, _, by simp, by simp [hw.1], .name hg hw, ?_, ready_of_peeked h2 hw.1⟩
        rw [baseElement, show lx = lexer table [.blank] from rfl, h1]
        simp only
        rw [if_neg (by decide), take_peeked h2 (by simp)]
      · refine .inr ⟨.syntax, ?_, fun _ => rfl⟩
        rw [baseElement, show lx = lexer table [.blank] from rfl, peek_error hp hn]
    · intro follow acc p text hf hp
      rcases follow_next hf text (bound_gt hp) with ⟨m, w, r, hc, hn⟩ | ⟨g, r, rfl, hg, hn⟩ | hn
      · obtain ⟨p', h1, h2⟩ := more_end hc hp (n := n + 1) (by omega)
        exact .inl ⟨[], text, [], p', m, w, r, rfl, .inl ⟨rfl, rfl⟩, hc, by rw [h1, List.append_nil], h2⟩
      · obtain ⟨p1, h1, h2⟩ := peek_ok hp hn
        have hr := ready_of_peeked h2 (by simp)
        have hcm : Tok.comma ∈ follow := by rcases hf with rfl | rfl <;> decide
        have hb : moreElements (n + 1) follow acc p = (match baseElement n { p1 with pos := p1.pos + 1 } with
            | .error e => .error e
            | .ok (v, p3) => moreElements n follow (acc ++ [v]) p3) := by
          rw [moreElements, show lx = lexer table [.blank] from rfl, h1]
          simp only
          rw [if_pos trivial, take_peeked h2 hcm]
          rfl
        rcases ihb _ _ hr with ⟨t, rest', v, p3, rfl, hne, he, h3, h4⟩ | ⟨e, h3, h4⟩
        · rcases ihm follow (acc ++ [v]) _ _ hf h4 with ⟨t', rest'', vs, p4, m, w', r', rfl, hm, hc, h5, h6⟩ | ⟨e, h5, h6⟩
          · refine .inl ⟨g ++ ',' :: (t ++ t'), rest'', v :: vs, p4, m, w', r', by simp, .inr ⟨g, t ++ t', rfl, hg, hm.elements he⟩, hc, ?_, h6⟩
            rw [hb, h3]
            simp only
            rw [h5, List.append_assoc]
            rfl
          · refine .inr ⟨e, ?_, ?_⟩
            · rw [hb, h3]
              exact h5
            · intro hl
              exact h6 (by simp at hl ⊢; omega)
        · refine .inr ⟨e, ?_, ?_⟩
          · rw [hb, h3]
          · intro hl
            exact h4 (by simp at hl ⊢; omega)
      · refine .inr ⟨.syntax, ?_, fun _ => rfl⟩
        rw [moreElements, show lx = lexer table [.blank] from rfl, peek_error hp hn]

/-! ## C50 -/

theorem contents_single {t g : Str} {vs : List PyVal} (h : Elements t vs) (hg : Blanks g) : Contents (t ++ g) (single vs) := by
  match vs, h with
  | [], h => cases h
  | [v], h => exact .one h hg
  | v :: w :: vs, h => exact .several h hg

theorem accepted {text : Str} {v : PyVal} (h : Contents text v) : interpretStructure text = .ok v := by
  have key : ∀ {t g : Str} {vs : List PyVal}, Elements t vs → Blanks g → interpretStructure (t ++ g) = .ok (single vs) := by
    intro t g vs h hg
    have hp : Ready ({ scan := { input := t ++ g } } : State Tok) (t ++ g) := ready_start _
    obtain ⟨v0, p1, p2, h1, h2, h3⟩ := elements_complete h (n := 2 * (t ++ g).length + 2) (follow := [.comma, .fin]) (rest := g) (m := .fin) (w := [])
      (r := []) (.inr ⟨rfl, rfl, rfl, rfl, hg⟩) hp (by simp; omega)
    have h2' := h2 []
    rw [List.nil_append, List.nil_append] at h2'
    rw [interpretStructure, input, h1]
    simp only
    rw [h2']
    simp only
    rw [show lx = lexer table [.blank] from rfl, take_peeked h3 (by simp)]
  cases h with
  | one h hg => exact key h hg
  | several h hg => exact key h hg

theorem outcome (text : Str) : (∃ v, Contents text v ∧ interpretStructure text = .ok v) ∨ interpretStructure text = .error .syntax := by
  have hp : Ready ({ scan := { input := text } } : State Tok) text := ready_start _
  rcases (run_says (2 * text.length + 2)).1 _ _ hp with ⟨t, rest, v, p1, rfl, -, he, h1, h2⟩ | ⟨e, h1, h2⟩
  · rcases (run_says (2 * (t ++ rest).length + 2)).2 [.comma, .fin] [v] _ _ (.inr rfl) h2 with
      ⟨t', rest', vs, p2, m, w, r, rfl, hm, hc, h3, h4⟩ | ⟨e, h3, h4⟩
    · rcases hc with ⟨h, -⟩ | ⟨-, rfl, rfl, rfl, hg⟩
      · cases h
      · have hcon := contents_single (hm.elements he) hg
        rw [← List.append_assoc]
        exact .inl ⟨_, hcon, accepted hcon⟩
    · right
      rw [interpretStructure, input, h1]
      simp only
      rw [h3]
      simp only
      rw [h4 (by simp; omega)]
  · right
    rw [interpretStructure, input, h1]
    simp only
    rw [h2 (by omega)]

/-- C50: a text is accepted exactly when it is written as a type expression, or several separated by commas, and the result is
its structure. -/
theorem C50_accepted (text : Str) (v : PyVal) : interpretStructure text = .ok v ↔ Contents text v := by
  constructor
  · intro h
    rcases outcome text with ⟨v', hc, h'⟩ | h'
    · rw [h] at h'
      cases h'
      exact hc
    · rw [h] at h'
      cases h'
  · exact accepted

/-- C50: everything else is refused with a syntax error. -/
theorem C50_refused (text : Str) (h : ∀ v, ¬ Contents text v) : interpretStructure text = .error .syntax := by
  rcases outcome text with ⟨v, hc, -⟩ | h'
  · exact absurd hc (h v)
  · exact h'

/-! ### Brackets -/

theorem count_blanks {g : Str} (hg : Blanks g) {c : Char} (hc : c = '(' ∨ c = ')') : g.count c = 0 := by
  rw [List.count_eq_zero]
  intro h
  rcases hc with rfl | rfl <;> rcases hg _ h with h | h | h | h <;> revert h <;> decide

theorem count_word {g : Str} (hg : Word g) {c : Char} (hc : c = '(' ∨ c = ')') : g.count c = 0 := by
  rw [List.count_eq_zero]
  intro h
  have := hg.2 _ h
  rcases hc with rfl | rfl <;> rcases this with ⟨h1, h2⟩ | ⟨h1, h2⟩ <;> revert h1 h2 <;> decide

mutual
theorem element_balanced {t : Str} {v : PyVal} (h : Element t v) : t.count '(' = t.count ')' := by
  match h with
  | .name hg hw =>
    rw [List.count_append, List.count_append, count_blanks hg (.inl rfl), count_blanks hg (.inr rfl), count_word hw (.inl rfl),
      count_word hw (.inr rfl)]
  | .container hg hw hb hg' =>
    have := elements_balanced hb
    simp only [List.count_append, count_blanks hg (.inl rfl), count_blanks hg (.inr rfl), count_word hw (.inl rfl),
      count_word hw (.inr rfl), count_blanks hg' (.inl rfl), count_blanks hg' (.inr rfl), List.count_cons, List.count_nil, this]
    simp
theorem elements_balanced {t : Str} {vs : List PyVal} (h : Elements t vs) : t.count '(' = t.count ')' := by
  match h with
  | .one h => exact element_balanced h
  | .more he hg hr =>
    have h1 := element_balanced he
    have h2 := elements_balanced hr
    simp only [List.count_append, List.count_cons, h1, h2, count_blanks hg (.inl rfl), count_blanks hg (.inr rfl)]
    simp
end

/-- C50: a text with more of one kind of bracket than of the other is refused. -/
theorem C50_unbalanced (text : Str) (h : text.count '(' ≠ text.count ')') : interpretStructure text = .error .syntax := by
  apply C50_refused
  intro v hc
  apply h
  cases hc with
  | one he hg => simp only [List.count_append, elements_balanced he, count_blanks hg (.inl rfl), count_blanks hg (.inr rfl)]
  | several he hg => simp only [List.count_append, elements_balanced he, count_blanks hg (.inl rfl), count_blanks hg (.inr rfl)]

/-! ### Printed expressions -/

mutual
theorem printed_element {e : Expr} (h : e.Named) : Element e.printed e.shape := by
  match e with
  | .name w =>
    exact Element.name (g := []) (by intro c hc; cases hc) h
  | .container w es =>
    have := printed_elements h.2.1 h.2.2
    have := Element.container (g := []) (g' := []) (by intro c hc; cases hc) h.1 this (by intro c hc; cases hc)
    simpa [Expr.printed, Expr.shape] using this
theorem printed_elements {es : List Expr} (hne : es ≠ []) (h : Expr.AllNamed es) : Elements (Expr.printedAll es) (Expr.shapes es) := by
  match es with
  | [] => exact absurd rfl hne
  | [e] => exact .one (printed_element h.1)
  | e :: e' :: es =>
    have h1 := printed_element h.1
    have h2 := printed_elements (es := e' :: es) (by simp) h.2
    have := Elements.more (g := []) h1 (by intro c hc; cases hc) h2
    simpa [Expr.printedAll, Expr.shapes] using this
end

/-- C50: an expression of any depth, written out, is read as its nested structure. -/
theorem C50_printed (e : Expr) (h : e.Named) : interpretStructure e.printed = .ok e.shape := by
  apply accepted
  have := Contents.one (g := []) (.one (printed_element h)) (by intro c hc; cases hc)
  rwa [List.append_nil] at this

/-- A nested expression. -/
def sampleExpr : Expr := .container "List".toList [.name "Real".toList, .container "Matrix".toList [.name "Integer".toList, .name "Code".toList]]

example : sampleExpr.Named := by
  simp only [sampleExpr, Expr.Named, Expr.AllNamed, Word, Letter]
  decide +kernel

example : sampleExpr.printed = "List(Real,Matrix(Integer,Code))".toList := by
  decide +kernel

example : interpretStructure "List ( Real".toList = .error .syntax := by
  decide +kernel

example : interpretStructure " List(Real , Code( Text ) ) ".toList =
    .ok (.list [.str "Real".toList, .list [.str "Text".toList]]) := by
  decide +kernel

/-- C50: the name of a container is not part of the result: different expressions give the same structure. -/
theorem C50_container_lost : interpretStructure "List(Real,Code)".toList = interpretStructure "Matrix(Real,Code)".toList ∧
    interpretStructure "List(Real,Code)".toList = interpretStructure "Real,Code".toList := by
  decide +kernel

/-- C50: a container needs something in it. -/
theorem C50_empty_refused : interpretStructure "List()".toList = .error .syntax := by
  decide +kernel

end Verif.TypeContents
