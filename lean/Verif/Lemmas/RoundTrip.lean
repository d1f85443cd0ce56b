import Verif.Spec.RoundTrip
import Verif.Lemmas.ReadValue
import Verif.Lemmas.Print
import Verif.Props.Text
/-! # Lemmas about writing and reading back -/
set_option linter.unusedSectionVars false
namespace Verif.RoundTrip
open Print Lex
variable [CaseFold]

theorem stops_iff {rest : Str} : WhiteNext rest ↔ Stops rest := Iff.rfl

theorem isIn_iff (t : Str) : ∀ s : Str, isIn t s = true ↔ Occurs t s
  | [] => by
    rw [isIn, List.isEmpty_iff]
    constructor
    · rintro rfl; exact ⟨[], [], rfl⟩
    · rintro ⟨a, b, h⟩
      have := congrArg List.length h
      simp at this
      exact List.length_eq_zero_iff.1 (by omega)
  | c :: r => by
    rw [isIn, Bool.or_eq_true, isIn_iff t r, List.isPrefixOf_iff_prefix]
    constructor
    · rintro (⟨b, h⟩ | ⟨a, b, h⟩)
      · exact ⟨[], b, by simpa using h.symm⟩
      · exact ⟨c :: a, b, by simp [h]⟩
    · rintro ⟨a, b, h⟩
      cases a with
      | nil => exact .inl ⟨b, by simpa using h.symm⟩
      | cons d a =>
        simp only [List.cons_append, List.cons.injEq] at h
        exact .inr ⟨a, b, h.2⟩

/-! ## The prefix -/

theorem prefixLoop_form (s : Str) : ∀ (n : Nat) (p : Str), ∃ k, prefixLoop s n p = p ++ List.replicate k ':'
  | 0, p => ⟨0, by simp [prefixLoop]⟩
  | n + 1, p => by
    rw [prefixLoop]
    split
    · obtain ⟨k, hk⟩ := prefixLoop_form s n (p ++ [':'])
      exact ⟨k + 1, by rw [hk, List.replicate_succ]; simp⟩
    · exact ⟨0, by simp⟩

/-- The prefix the writer uses. -/
theorem writer_prefix (s : Str) : GoodPrefix (prefixLoop s (s.length + 1) "CIF:".toList ++ "> ".toList) ∧
    (prefixLoop s (s.length + 1) "CIF:".toList ++ "> ".toList).head? = some 'C' ∧
    '\r' ∉ prefixLoop s (s.length + 1) "CIF:".toList ++ "> ".toList ∧ '#' ∉ prefixLoop s (s.length + 1) "CIF:".toList ++ "> ".toList := by
  obtain ⟨k, hk⟩ := prefixLoop_form s (s.length + 1) "CIF:".toList
  rw [hk]
  refine ⟨⟨by simp, by simp, ?_, ?_⟩, by simp, ?_, ?_⟩ <;> simp

theorem mem_replaceAll {pat new : Str} {x : Char} : ∀ s : Str, x ∈ replaceAll pat new s → x ∈ new ∨ x ∈ s := by
  intro s
  induction hn : s.length using Nat.strongRecOn generalizing s with
  | _ n ih =>
    cases s with
    | nil => rw [replaceAll]; simp
    | cons c r =>
      rw [replaceAll]
      split
      · intro h
        rw [List.mem_append] at h
        rcases h with h | h
        · exact .inl h
        · have := ih (r.drop (pat.length - 1)).length (by rw [← hn]; simp; omega) _ rfl h
          rcases this with h | h
          · exact .inl h
          · exact .inr (List.mem_cons_of_mem _ (List.mem_of_mem_drop h))
      · intro h
        rw [List.mem_cons] at h
        rcases h with h | h
        · exact .inr (by simp [h])
        · rcases ih r.length (by rw [← hn]; simp) _ rfl h with h | h
          · exact .inl h
          · exact .inr (by simp [h])

theorem mem_foldHeader {s r : Str} (h : matchFoldHeader s = some r) {x : Char} (hx : x ∈ r) : x ∈ s := by
  cases s with
  | nil => simp [matchFoldHeader] at h
  | cons c s =>
    by_cases hc : c = '\\'
    · subst hc
      simp only [matchFoldHeader] at h
      split at h
      · rename_i r' he
        simp only [Option.some.injEq] at h
        subst h
        have : x ∈ s.dropWhile isBlank := by rw [he]; simp [hx]
        exact List.mem_cons_of_mem _ ((List.dropWhile_suffix _).subset this)
      · simp at h
    · rw [matchFoldHeader] at h
      · simp at h
      · intro r' he; simp only [List.cons.injEq] at he; exact hc he.1

theorem mem_applyPrefix {s p t : Str} (h : applyLinePrefix s p = .ok t) {x : Char} (hx : x ∈ t) : x ∈ p ∨ x = '\\' ∨ x = '\n' ∨ x ∈ s := by
  unfold applyLinePrefix at h
  cases p with
  | nil => simp at h
  | cons c p =>
    simp only at h
    split at h
    · split at h
      · rename_i nh he
        simp only [Except.ok.injEq] at h
        subst h
        simp only [List.mem_append] at hx
        rcases hx with ((hx | hx) | hx) | hx
        · exact .inl hx
        · simp at hx; rcases hx with hx | hx <;> simp [hx]
        · exact .inl hx
        · rcases mem_replaceAll _ hx with hx | hx
          · rw [List.mem_cons] at hx
            rcases hx with hx | hx
            · exact .inr (.inr (.inl hx))
            · exact .inl hx
          · exact .inr (.inr (.inr (mem_foldHeader he hx)))
      · simp only [Except.ok.injEq] at h
        subst h
        simp only [List.mem_append] at hx
        rcases hx with ((hx | hx) | hx) | hx
        · exact .inl hx
        · simp at hx; rcases hx with hx | hx <;> simp [hx]
        · exact .inl hx
        · rcases mem_replaceAll _ hx with hx | hx
          · rw [List.mem_cons] at hx
            rcases hx with hx | hx
            · exact .inr (.inr (.inl hx))
            · exact .inl hx
          · exact .inr (.inr (.inr hx))
    · simp at h

theorem mem_foldTail {l : Str} {x : Char} (hx : x ∈ foldTail l) : x = '\\' ∨ x = '\n' ∨ x ∈ l := by
  unfold foldTail at hx
  split at hx
  · simp only [List.mem_append, List.mem_cons, List.not_mem_nil, or_false] at hx
    rcases hx with hx | hx | hx <;> simp [hx]
  · simp [hx]

theorem mem_foldLong (w : FoldWidths) (l : Str) {x : Char} (hx : x ∈ foldLong w l) : x = '\\' ∨ x = '\n' ∨ x ∈ l := by
  fun_induction foldLong w l with
  | case1 l hlen ih =>
    simp only [List.mem_append, List.mem_cons, List.not_mem_nil, or_false] at hx
    rcases hx with (hx | hx | hx) | hx
    · exact .inr (.inr (List.mem_of_mem_take hx))
    · exact .inl hx
    · exact .inr (.inl hx)
    · rcases ih hx with h | h | h
      · exact .inl h
      · exact .inr (.inl h)
      · exact .inr (.inr (List.mem_of_mem_drop h))
  | case2 l hlen => exact mem_foldTail hx

theorem mem_joinNl {x : Char} : ∀ {ls : List Str}, x ∈ joinNl ls → x = '\n' ∨ ∃ l ∈ ls, x ∈ l
  | [], h => by simp [joinNl] at h
  | [l], h => .inr ⟨l, by simp, by simpa [joinNl] using h⟩
  | l :: m :: ls, h => by
    rw [joinNl, List.mem_append, List.mem_cons] at h
    rcases h with h | h | h
    · exact .inr ⟨l, by simp, h⟩
    · exact .inl h
    · rcases mem_joinNl h with h | ⟨k, hk, h⟩
      · exact .inl h
      · exact .inr ⟨k, by simp [hk], h⟩

theorem mem_line {s l : Str} (hl : l ∈ splitNl s) {x : Char} (hx : x ∈ l) : x ∈ s := by
  have : x ∈ ended (splitNl s) := List.mem_flatMap.2 ⟨l, hl, by simp [hx]⟩
  rw [ended_split, List.mem_append] at this
  rcases this with h | h
  · exact h
  · have := splitNl_noNl s l hl
    simp only [List.mem_singleton] at h
    subst h
    exact (this hx).elim

theorem mem_applyFolding {w : FoldWidths} {s : Str} {x : Char} (hx : x ∈ applyLineFolding w s) : x = '\\' ∨ x = '\n' ∨ x ∈ s := by
  cases h : needsFolding w s with
  | false => rw [applyLineFolding, h] at hx; exact .inr (.inr (by simpa using hx))
  | true =>
    rw [applyLineFolding_eq w s h, List.mem_cons, List.mem_cons] at hx
    rcases hx with hx | hx | hx
    · exact .inl hx
    · exact .inr (.inl hx)
    · rcases mem_joinNl hx with hx | ⟨l, hl, hx⟩
      · exact .inr (.inl hx)
      · obtain ⟨k, hk, rfl⟩ := List.mem_map.1 hl
        unfold foldLine at hx
        split at hx
        · rcases mem_foldTail hx with h | h | h
          · exact .inl h
          · exact .inr (.inl h)
          · exact .inr (.inr (mem_line hk h))
        · rcases mem_foldLong w k hx with h | h | h
          · exact .inl h
          · exact .inr (.inl h)
          · exact .inr (.inr (mem_line hk h))

/-! ## Lines of a text field -/

theorem ended_append (a b : List Str) : ended (a ++ b) = ended a ++ ended b := by simp [ended]

theorem ended_last {a : List Str} (h : a ≠ []) : ∃ x, ended a = x ++ ['\n'] := by
  obtain ⟨b, l, rfl⟩ : ∃ b l, a = b ++ [l] := ⟨a.dropLast, a.getLast h, (List.dropLast_concat_getLast h).symm⟩
  exact ⟨ended b ++ l, by rw [ended_append]; simp [ended]⟩

theorem cut_end {q x y : Str} (h : q ++ ['\n'] = x ++ y ++ ['\n']) : q = x ++ y := by
  have := congrArg List.dropLast h
  simpa using this

theorem linesOk_of {q : Str} (hcr : '\r' ∉ q) (hsemi : ¬ Occurs semiDelim q) (hcom : ¬ LosesComment (semiDelim ++ q ++ semiDelim)) :
    ∀ (post pre : List Str), splitNl q = pre ++ post → pre ≠ [] → LinesOk post
  | [], _, _, _ => trivial
  | l :: post, pre, e, hpre => by
    have hl : l ∈ splitNl q := by rw [e]; simp
    obtain ⟨x, hx⟩ := ended_last hpre
    have hq : q ++ ['\n'] = x ++ '\n' :: l ++ '\n' :: ended post := by
      rw [← ended_split, e, ended_append, hx]
      simp [ended]
    refine ⟨?_, ?_, ?_, ?_⟩
    · intro c hc
      have h1 : c ≠ '\n' := fun h => splitNl_noNl q l hl (h ▸ hc)
      have h2 : c ≠ '\r' := fun h => hcr (h ▸ mem_line hl hc)
      simp [Pat.notNlCr, h1, h2]
    · intro h
      cases l with
      | nil => simp at h
      | cons c l =>
        simp only [List.head?_cons, Option.some.injEq] at h
        subst h
        apply hsemi
        obtain ⟨y, hy⟩ : ∃ y, '\n' :: ended post = y ++ ['\n'] := by
          have := ended_last (a := [] :: post) (by simp)
          simpa [ended] using this
        refine ⟨x, l ++ y, ?_⟩
        apply cut_end
        rw [hq, List.append_assoc, hy]
        simp [semiDelim]
    · intro h
      cases l with
      | nil => simp at h
      | cons c l =>
        simp only [List.head?_cons, Option.some.injEq] at h
        subst h
        apply Classical.byContradiction
        intro hno
        simp only [not_or] at hno
        apply hcom
        refine ⟨semiDelim ++ x, l, ended post ++ [';'], ?_, ?_, ?_, ?_⟩
        · have : semiDelim ++ q ++ semiDelim = semiDelim ++ (q ++ ['\n']) ++ [';'] := by simp [semiDelim]
          rw [this, hq]
          simp
        · intro h
          exact splitNl_noNl q _ hl (by simp [h])
        · cases post with
          | nil => simp at hno
          | cons m post =>
            cases m with
            | nil => simp at hno
            | cons d m =>
              have : d ≠ '\n' := by
                intro h
                exact splitNl_noNl q (d :: m) (by rw [e]; simp) (by simp [h])
              simpa [ended] using this
        · cases post with
          | nil => simp at hno
          | cons m post =>
            cases m with
            | nil => simp at hno
            | cons d m =>
              have := (linesOk_of hcr hsemi hcom ((d :: m) :: post) (pre ++ ['#' :: l]) (by rw [e]; simp) (by simp)).2.1
              simpa [ended] using this
    · exact linesOk_of hcr hsemi hcom post (pre ++ [l]) (by rw [e]; simp) (by simp)

theorem linesOk_prefixed {t p : Str} (hcr : '\r' ∉ t) (hp : p.head? = some 'C') (h : ∀ l ∈ splitNl t, ∃ r, l = p ++ r) :
    ∀ (post : List Str), (∀ l ∈ post, l ∈ splitNl t) → LinesOk post
  | [], _ => trivial
  | l :: post, hpost => by
    have hl := hpost l (by simp)
    obtain ⟨r, hr⟩ := h l hl
    have hhead : l.head? = some 'C' := by
      rw [hr, List.head?_append, hp]; rfl
    refine ⟨?_, by rw [hhead]; decide, by rw [hhead]; simp, linesOk_prefixed hcr hp h post fun x hx => hpost x (by simp [hx])⟩
    intro c hc
    have h1 : c ≠ '\n' := fun h => splitNl_noNl t l hl (h ▸ hc)
    have h2 : c ≠ '\r' := fun h => hcr (h ▸ mem_line hl hc)
    simp [Pat.notNlCr, h1, h2]

/-! ## The text between the semicolons -/

/-- Folding, if a line is too long (StarFile.nw 2769-2770). -/
def folded (st : Style) (s : Str) : Str :=
  if (splitNl s).any (fun l => decide ((l.length : Int) > st.maxOut)) then applyLineFolding .default s else s

/-- The text between the semicolons is well-defined. -/
theorem textField_ok (st : Style) (s : Str) : ∃ q, textField st s = .ok (semiDelim ++ q ++ semiDelim) ∧
    ((¬ Occurs semiDelim (folded st s) ∧ q = folded st s) ∨
     (Occurs semiDelim (folded st s) ∧ ∃ p, GoodPrefix p ∧ p.head? = some 'C' ∧ ('\r' ∉ p ∧ '#' ∉ p) ∧ applyLinePrefix (folded st s) p = .ok q)) := by
  unfold textField folded
  generalize (if ((splitNl s).any fun l => decide ((l.length : Int) > st.maxOut)) = true then applyLineFolding .default s else s) = f
  dsimp only
  by_cases h : isIn semiDelim (f) = true
  · rw [if_pos h]
    obtain ⟨hp, hc, hr⟩ := writer_prefix (f)
    generalize prefixLoop (f) ((f).length + 1) "CIF:".toList ++ "> ".toList = p at hp hc hr
    obtain ⟨q, hq⟩ := (C01_accepts (f) p).2 ⟨by intro h; subst h; simp at hc, hp.2.1, hp.2.2.1⟩
    refine ⟨q, by rw [hq], .inr ⟨(isIn_iff _ _).1 h, p, hp, hc, hr, hq⟩⟩
  · rw [if_neg h]
    exact ⟨_, rfl, .inl ⟨fun ho => h ((isIn_iff _ _).2 ho), rfl⟩⟩

/-! ## Decoding -/

theorem takeWhile_all {p : Char → Bool} {l : Str} {x : Char} (h : x ∈ l.takeWhile p) : p x = true := by
  induction l with
  | nil => simp at h
  | cons c l ih =>
    rw [List.takeWhile_cons] at h
    split at h
    · rw [List.mem_cons] at h
      rcases h with rfl | h
      · assumption
      · exact ih h
    · simp at h

theorem hasPrefixHeader_of {s : Str} {x : Str × Bool × Str} (h : matchPrefixHeader s = some x) : HasPrefixHeader s := by
  cases s with
  | nil => simp [matchPrefixHeader] at h
  | cons c r =>
    rw [matchPrefixHeader] at h
    split at h
    · simp at h
    · rename_i hc
      simp only [not_or] at hc
      have hsplit : r = r.takeWhile (fun d => d != '\n' && d != '\\') ++ r.dropWhile (fun d => d != '\n' && d != '\\') :=
        List.takeWhile_append_dropWhile.symm
      have hbody : ∀ d ∈ r.takeWhile (fun d => d != '\n' && d != '\\'), d ≠ '\n' ∧ d ≠ '\\' := by
        intro d hd
        have := takeWhile_all hd
        simpa using this
      generalize r.takeWhile (fun d => d != '\n' && d != '\\') = body at h hc hsplit hbody
      have fin : ∀ m b r3, (m = ['\\'] ∨ m = ['\\', '\\']) → (∀ x ∈ b, isBlank x = true) → r = body ++ (m ++ b ++ '\n' :: r3) →
          HasPrefixHeader (c :: r) := by
        intro m b r3 hm hb he
        refine ⟨c, body, m, b, r3, by rw [he]; simp, hc.1, hc.2.2, fun h => (hbody _ h).2 rfl, ?_, hm, hb⟩
        simp only [List.mem_cons, not_or]
        exact ⟨fun h => hc.2.1 h.symm, fun h => (hbody _ h).1 rfl⟩
      split at h
      · rename_i r1 hr1
        rw [hr1] at hsplit
        split at h
        · rename_i r2
          split at h
          · rename_i r3 hr3
            have e2 : r2 = r2.takeWhile isBlank ++ '\n' :: r3 := by rw [← hr3]; exact List.takeWhile_append_dropWhile.symm
            exact fin ['\\', '\\'] (r2.takeWhile isBlank) r3 (.inr rfl) (fun x hx => takeWhile_all hx) (by
              rw [hsplit]
              conv => lhs; rw [e2]
              simp)
          · simp at h
        · split at h
          · rename_i r3 hr3
            have e2 : r1 = r1.takeWhile isBlank ++ '\n' :: r3 := by rw [← hr3]; exact List.takeWhile_append_dropWhile.symm
            exact fin ['\\'] (r1.takeWhile isBlank) r3 (.inl rfl) (fun x hx => takeWhile_all hx) (by
              rw [hsplit]
              conv => lhs; rw [e2]
              simp)
          · simp at h
      · simp at h

theorem no_prefixHeader {s : Str} (h : ¬ HasPrefixHeader s) : matchPrefixHeader s = none := by
  cases hm : matchPrefixHeader s with
  | none => rfl
  | some x => exact (h (hasPrefixHeader_of hm)).elim

/-- Folding is undone, or was not done. -/
theorem unfold_folded {st : Style} {s : Str} (h1 : ¬ HasFoldHeader s)
    (h2 : (∃ l ∈ splitNl s, st.maxOut < l.length) → ∀ l ∈ splitNl s, ¬ endsMarkBlank l) :
    removeLineFolding (folded st s) = s ∧ (folded st s = s ∨ ∃ r, folded st s = '\\' :: '\n' :: r) := by
  have hs : removeLineFolding s = s := by rw [removeLineFolding, matchFoldHeader_none_of h1]
  unfold folded
  split
  · rename_i h
    have hl : ∃ l ∈ splitNl s, st.maxOut < l.length := by
      simp only [List.any_eq_true, decide_eq_true_eq] at h
      exact h
    cases hn : needsFolding .default s with
    | true =>
      refine ⟨unfold_apply _ s hn (h2 hl), .inr ?_⟩
      rw [applyLineFolding_eq _ s hn]
      exact ⟨_, rfl⟩
    | false =>
      have : applyLineFolding .default s = s := by simp [applyLineFolding, hn]
      rw [this]
      exact ⟨hs, .inl rfl⟩
  · exact ⟨hs, .inl rfl⟩

theorem decode_field {st : Style} {s q : Str} (h1 : ¬ HasFoldHeader s) (h3 : ¬ HasPrefixHeader s)
    (h2 : (∃ l ∈ splitNl s, st.maxOut < l.length) → ∀ l ∈ splitNl s, ¬ endsMarkBlank l)
    (hq : (¬ Occurs semiDelim (folded st s) ∧ q = folded st s) ∨
     (Occurs semiDelim (folded st s) ∧ ∃ p, GoodPrefix p ∧ p.head? = some 'C' ∧ ('\r' ∉ p ∧ '#' ∉ p) ∧ applyLinePrefix (folded st s) p = .ok q)) :
    decodeProtocols q = s := by
  obtain ⟨hu, hf⟩ := unfold_folded h1 h2
  rcases hq with ⟨-, rfl⟩ | ⟨-, p, hp, -, -, hq⟩
  · have : matchPrefixHeader (folded st s) = none := by
      rcases hf with h | ⟨r, h⟩
      · rw [h]; exact no_prefixHeader h3
      · rw [h]; simp [matchPrefixHeader]
    rw [decodeProtocols, removeLinePrefix, this]
    exact hu
  · rw [C01_prefix_transparent _ p q hp hq, hu]

theorem folded_noReturn {st : Style} {s : Str} (h : '\r' ∉ s) : '\r' ∉ folded st s := by
  unfold folded
  split
  · intro hm
    rcases mem_applyFolding hm with h' | h' | h'
    · exact absurd h' (by decide)
    · exact absurd h' (by decide)
    · exact h h'
  · exact h

/-- The lines of a text field written for a text, and what they say. -/
theorem field_lines {st : Style} {s w : Str} (h : textField st s = .ok w) (hs : FieldSafe st s w) :
    ∃ q l ls, w = semiDelim ++ q ++ semiDelim ∧ splitNl q = l :: ls ∧ (∀ x ∈ l, Pat.notNlCr x = true) ∧ LinesOk ls ∧ decodeProtocols q = s := by
  obtain ⟨q, hq, hcase⟩ := textField_ok st s
  rw [hq] at h
  simp only [Except.ok.injEq] at h
  subst h
  have hdec := decode_field hs.noFold hs.noPrefix hs.noBlankEnd hcase
  have hfr := folded_noReturn (st := st) hs.noReturn
  cases hsp : splitNl q with
  | nil => exact (splitNl_ne_nil q hsp).elim
  | cons l ls =>
    have hcr : '\r' ∉ q := by
      rcases hcase with ⟨-, rfl⟩ | ⟨-, p, hp, -, hpr, hpq⟩
      · exact hfr
      · intro hm
        rcases mem_applyPrefix hpq hm with h | h | h | h
        · exact hpr.1 h
        · exact absurd h (by decide)
        · exact absurd h (by decide)
        · exact hfr h
    have hl : ∀ x ∈ l, Pat.notNlCr x = true := by
      intro c hc
      have hm : l ∈ splitNl q := by rw [hsp]; simp
      have h1 : c ≠ '\n' := fun h => splitNl_noNl q l hm (h ▸ hc)
      have h2 : c ≠ '\r' := fun h => hcr (h ▸ mem_line hm hc)
      simp [Pat.notNlCr, h1, h2]
    have hok : LinesOk ls := by
      rcases hcase with ⟨hsemi, rfl⟩ | ⟨-, p, hp, hc, hpr, hpq⟩
      · exact linesOk_of hcr hsemi hs.noComment ls [l] (by rw [hsp]; rfl) (by simp)
      · exact linesOk_prefixed hcr hc (C01_lines_prefixed _ p q hp hpq) ls (fun x hx => by rw [hsp]; simp [hx])
    exact ⟨q, l, ls, rfl, hsp, hl, hok, hdec⟩

/-- A text field written for a text is read as that text. -/
theorem field_reads {st : Style} {s w : Str} (h : textField st s = .ok w) (hs : FieldSafe st s w) : ReadsAs w (.str s) := by
  obtain ⟨q, l, ls, rfl, h1, h2, h3, h4⟩ := field_lines h hs
  have := reads_field h1 h2 h3
  rw [h4] at this
  exact this

/-! ## The choice of a representation -/

/-- The representations `formatString` can produce in 1.1. -/
theorem format_cases {maxOut : Int} {s w : Str} {d : Option Str} (h : formatString (Style.v11 maxOut) s d = .ok w) :
    (w = s ∧ needsDelimiter (Style.v11 maxOut) s = false) ∨
    (w = '\'' :: s ++ ['\''] ∧ '\n' ∉ s ∧ '\'' ∉ s) ∨
    (w = '"' :: s ++ ['"'] ∧ '\n' ∉ s ∧ '"' ∉ s) ∨
    textField (Style.v11 maxOut) s = .ok w := by
  have hover : ∀ x : Str, oversize (Style.v11 maxOut) x = false → '\n' ∉ x := by
    intro x hx
    simp only [oversize, Bool.or_eq_false_iff, decide_eq_false_iff_not] at hx
    exact hx.2
  have hS : allowed (Style.v11 maxOut) s (some ['\'']) = true → '\n' ∉ s ∧ '\'' ∉ s := by
    intro h
    simp only [allowed, if_true, Bool.and_eq_true, Bool.not_eq_true', decide_eq_false_iff_not] at h
    exact ⟨hover s h.2.1, h.2.2⟩
  have hD : allowed (Style.v11 maxOut) s (some ['"']) = true → '\n' ∉ s ∧ '"' ∉ s := by
    intro h
    have hne : (['"'] : Str) ≠ ['\''] := by decide
    simp only [allowed, if_neg hne, if_true, Bool.and_eq_true, Bool.not_eq_true', decide_eq_false_iff_not] at h
    exact ⟨hover s h.2.1, h.2.2⟩
  have hmem : ∀ x, allowed (Style.v11 maxOut) s (some x) = true → x = ['\''] ∨ x = ['"'] ∨ x = semiDelim := by
    intro x h
    simp only [allowed, Bool.and_eq_true, decide_eq_true_eq] at h
    have := h.1
    simp only [Style.v11, List.mem_cons, Option.some.injEq, reduceCtorEq, List.not_mem_nil, or_false] at this
    exact this
  have hsemi : ¬ (semiDelim = ['"'] ∨ semiDelim = ['\''] ∨ semiDelim = tripleD ∨ semiDelim = tripleS) := by decide
  rw [formatString] at h
  cases hc : choose (Style.v11 maxOut) s d with
  | none =>
    rw [hc] at h
    simp only [Except.ok.injEq] at h
    left
    refine ⟨h.symm, ?_⟩
    unfold choose at hc
    split at hc
    · rename_i ha
      subst hc
      simp only [allowed, Bool.and_eq_true, Bool.not_eq_true'] at ha
      exact ha.2
    · split at hc
      · simp at hc
      · split at hc <;> simp at hc
  | some x =>
    rw [hc] at h
    simp only at h
    have hx : (x = ['\''] ∧ '\n' ∉ s ∧ '\'' ∉ s) ∨ (x = ['"'] ∧ '\n' ∉ s ∧ '"' ∉ s) ∨ x = semiDelim := by
      unfold choose at hc
      split at hc
      · rename_i ha
        subst hc
        rcases hmem x ha with rfl | rfl | rfl
        · exact .inl ⟨rfl, hS ha⟩
        · exact .inr (.inl ⟨rfl, hD ha⟩)
        · exact .inr (.inr rfl)
      · split at hc
        · rename_i ha
          simp only [Option.some.injEq] at hc
          exact .inl ⟨hc.symm, hS ha⟩
        · split at hc
          · rename_i ha
            simp only [Option.some.injEq] at hc
            exact .inr (.inl ⟨hc.symm, hD ha⟩)
          · simp only [Option.some.injEq] at hc
            exact .inr (.inr hc.symm)
    rcases hx with ⟨rfl, hx⟩ | ⟨rfl, hx⟩ | rfl
    · rw [if_pos (by simp)] at h
      simp only [Except.ok.injEq] at h
      exact .inr (.inl ⟨by rw [← h]; simp, hx⟩)
    · rw [if_pos (by simp)] at h
      simp only [Except.ok.injEq] at h
      exact .inr (.inr (.inl ⟨by rw [← h]; simp, hx⟩))
    · rw [if_neg hsemi] at h
      exact .inr (.inr (.inr h))

theorem ascii_of_lower {c : Char} (h : (asciiLowerChar c).toNat < 128) : c.toNat < 128 := by
  unfold asciiLowerChar at h
  split at h
  · rename_i h'
    have : c.toNat ≤ 90 := h'.2
    omega
  · exact h

theorem lower_of_ascii {a t : Str} (h : asciiLower a = t) (ht : ∀ c ∈ t, c.toNat < 128) : lower a = t := by
  rw [CaseFold.lower_ascii, h]
  intro c hc
  apply ascii_of_lower
  exact ht _ (by rw [← h]; exact List.mem_map_of_mem hc)

theorem bare_of {maxOut : Int} {s : Str} (h : needsDelimiter (Style.v11 maxOut) s = false)
    (hs : ∀ c ∈ s, isSpace c = false) (hstop : ¬ StartsStop s) (hloop : asciiLower s ≠ "loop_".toList) : Bare s := by
  simp only [needsDelimiter, Bool.or_eq_false_iff, decide_eq_false_iff_not, List.any_eq_false] at h
  obtain ⟨⟨⟨⟨⟨⟨⟨⟨hne, -⟩, -⟩, hany⟩, hfirst⟩, hds⟩, hg⟩, hdq⟩, hsq⟩ := h
  refine ⟨?_, hs, ?_, hloop⟩
  · cases s with
    | nil => exact absurd rfl hne
    | cons c t =>
      refine ⟨c, t, rfl, ?_, ?_⟩
      · have h1 := hany c (by simp)
        have h2 := hs c (by simp)
        have h3 : c ≠ '"' := fun e => hdq (by simp [e])
        have h4 : c ≠ '\'' := fun e => hsq (by simp [e])
        simp only [Bool.or_eq_true, beq_iff_eq, not_or] at h1
        simp only [Bool.or_eq_false_iff, beq_eq_false_iff_ne] at hfirst
        simp [Pat.bareStart11, h2, h3, h4, h1, hfirst]
      · simp only [Bool.or_eq_false_iff, beq_eq_false_iff_ne] at hfirst
        exact hfirst.1.2
  · have four : ∀ a t : Str, s = a ++ '_' :: t → a.length = 4 → s.length > 3 ∧ s.take 4 = a := by
      intro a t e hl
      rw [e]
      refine ⟨by simp [hl]; omega, ?_⟩
      rw [List.take_append, hl]; simp [← hl]
    rintro (⟨a, t, e, hl, hw⟩ | ⟨a, t, e, hl, hw⟩ | ⟨a, t, e, hl, hw⟩ | ⟨a, t, e, hl, hw⟩)
    · obtain ⟨h1, h2⟩ := four a t e hl
      have : lower a = "save".toList := lower_of_ascii hw (by decide)
      simp [h1, h2, this] at hds
    · have h1 : s.length > 5 := by rw [e]; simp [hl, globalL]; omega
      have h2 : s.take 6 = a := by
        have hl' : a.length = 6 := hl
        rw [e, List.take_append, hl']; simp [← hl']
      have : lower a = "global".toList := lower_of_ascii hw (by decide)
      simp [h1, h2, this] at hg
    · apply hstop
      have hl' : a.length = 4 := hl
      have : s.take 5 = a ++ ['_'] := by
        rw [e, List.take_append, hl', List.take_of_length_le (by omega)]; rfl
      rw [StartsStop, this, asciiLower, List.map_append]
      rw [asciiLower] at hw
      rw [hw]; rfl
    · obtain ⟨h1, h2⟩ := four a t e hl
      have : lower a = "data".toList := lower_of_ascii hw (by decide)
      simp [h1, h2, this] at hds

/-- Every representation of a text is read as that text. -/
theorem format_reads {maxOut : Int} {s w : Str} {d : Option Str} (h : formatString (Style.v11 maxOut) s d = .ok w)
    (hs : Safe (Style.v11 maxOut) s w) : ReadsAs w (.str s) := by
  rcases format_cases h with ⟨rfl, hn⟩ | ⟨rfl, hn, hq⟩ | ⟨rfl, hn, hq⟩ | ht
  · obtain ⟨h1, h2, h3⟩ := hs.bare rfl
    exact reads_bare (bare_of hn h1 h2 h3)
  · obtain ⟨h1, h2⟩ := hs.single rfl
    refine reads_single fun c hc => ?_
    have e1 : c ≠ '\n' := fun e => hn (e ▸ hc)
    have e2 : c ≠ '\'' := fun e => hq (e ▸ hc)
    have e3 : c ≠ '\r' := fun e => h1 (e ▸ hc)
    have e4 : c ≠ '\x0c' := fun e => h2 (e ▸ hc)
    simp [inSingle, e1, e2, e3, e4]
  · have h1 := hs.double rfl
    refine reads_double fun c hc => ?_
    have e1 : c ≠ '\n' := fun e => hn (e ▸ hc)
    have e2 : c ≠ '"' := fun e => hq (e ▸ hc)
    have e3 : c ≠ '\r' := fun e => h1 (e ▸ hc)
    simp [inDouble, e1, e2, e3]
  · refine field_reads ht (hs.field ?_)
    obtain ⟨q, hq, -⟩ := textField_ok (Style.v11 maxOut) s
    rw [hq] at ht
    simp only [Except.ok.injEq] at ht
    rw [← ht]; rfl

theorem value_ready {w rest : Str} {v : PyVal} (h : ReadsAs w v) (hr : Stops rest) {p : PState} (hp : Ready p (w ++ rest)) {fuel : Nat}
    (hf : w.length < fuel) : ∃ p', Reader.gram11.value fuel p = .ok (v, p') ∧ Ready p' rest := by
  obtain ⟨t, x, rest1, -, hx, hl, hv⟩ := h.read rest hr
  obtain ⟨p1, hp1, hk⟩ := peek_ready hp (hl firstValue outside_first (fun _ h => h))
  obtain ⟨p2, h2, h3⟩ := hv firstValue p1 fuel hf (fun _ h => h) hk
  refine ⟨p2, ?_, h3⟩
  rw [← h2]
  exact dialect11.again fuel p p1 t hp1 (peek_peeked hk (.inr (fun _ h => h)))

theorem readBack_of {w rest : Str} {v : PyVal} (h : ReadsAs w v) (hr : WhiteNext rest) : ReadBack Reader.gram11 w v rest := by
  intro fuel hf
  obtain ⟨p', h1, h2⟩ := value_ready h (stops_iff.1 hr) (ready_start (w ++ rest)) hf
  exact ⟨p', h1, h2.rest⟩

/-! ## The end of a text field -/

theorem line_after (x : Str) : ∀ a : Str, ∃ pre, pre ≠ [] ∧ splitNl (a ++ '\n' :: x) = pre ++ splitNl x
  | [] => ⟨[[]], by simp, by simp [splitNl]⟩
  | c :: a => by
    obtain ⟨pre, hp, h⟩ := line_after x a
    by_cases hc : c = '\n'
    · exact ⟨[] :: pre, by simp, by simp [splitNl, hc, h]⟩
    · cases pre with
      | nil => exact absurd rfl hp
      | cons l pre => exact ⟨(c :: l) :: pre, by simp, by simp [splitNl, hc, h]⟩

theorem semi_line {q : Str} (h : Occurs semiDelim q) : ∃ l ∈ splitNl q, l.head? = some ';' := by
  obtain ⟨a, b, rfl⟩ := h
  obtain ⟨pre, -, h⟩ := line_after (';' :: b) a
  have e : a ++ semiDelim ++ b = a ++ '\n' :: ';' :: b := by simp [semiDelim]
  rw [e, h]
  cases hs : splitNl b with
  | nil => exact absurd hs (splitNl_ne_nil b)
  | cons l ls => exact ⟨';' :: l, by simp [splitNl, hs], rfl⟩

theorem semi_inside {q a b : Str} (hq : ¬ Occurs semiDelim q) (h : semiDelim ++ q ++ semiDelim = a ++ semiDelim ++ b) : a = [] ∨ b = [] := by
  cases a with
  | nil => exact .inl rfl
  | cons c a =>
    right
    have h1 : '\n' :: ';' :: (q ++ ['\n', ';']) = c :: (a ++ '\n' :: ';' :: b) := by simpa [semiDelim] using h
    simp only [List.cons.injEq] at h1
    cases a with
    | nil => exact absurd h1.2 (by simp)
    | cons d a =>
      have h2 : q ++ ['\n', ';'] = a ++ '\n' :: ';' :: b := by
        have := h1.2
        simp only [List.cons_append, List.cons.injEq] at this
        exact this.2
      rcases List.append_eq_append_iff.1 h2 with ⟨c, -, e⟩ | ⟨c, e1, e2⟩
      · have := congrArg List.length e
        simp at this
        exact List.eq_nil_of_length_eq_zero (by omega)
      · match c, e1, e2 with
        | [], _, e2 => simpa using e2
        | [x], _, e2 => simp at e2
        | x :: y :: c, e1, e2 =>
          simp only [List.cons_append, List.cons.injEq] at e2
          exact absurd ⟨a, c, by rw [e1, ← e2.1, ← e2.2.1]; simp [semiDelim]⟩ hq

theorem field_inside {st : Style} {s w a b : Str} (h : textField st s = .ok w) (e : w = a ++ semiDelim ++ b) : a = [] ∨ b = [] := by
  obtain ⟨q, hq, hcase⟩ := textField_ok st s
  rw [hq] at h
  simp only [Except.ok.injEq] at h
  rw [← h] at e
  refine semi_inside ?_ e
  rcases hcase with ⟨hsemi, rfl⟩ | ⟨-, p, hp, hc, -, hpq⟩
  · exact hsemi
  · intro ho
    obtain ⟨l, hl, hh⟩ := semi_line ho
    obtain ⟨r, rfl⟩ := C01_lines_prefixed _ p q hp hpq l hl
    rw [List.head?_append, hc] at hh
    simp at hh

end Verif.RoundTrip
