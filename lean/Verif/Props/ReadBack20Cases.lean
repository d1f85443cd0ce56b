import Verif.Props.ReadBack20
import Verif.Props.ReadBackCases
/-! # Cases of C70 -/
set_option linter.unusedSectionVars false
namespace Verif.RoundTrip
open Print Reader Lex Block
variable [CaseFold]

/-- The text field for a printable text within the output limit. -/
theorem fieldSafe_printable {st : Style} {s w : Str} (hs : Printable s) (hl : (s.length : Int) ≤ st.maxOut) (ht : textField st s = .ok w) : FieldSafe st s w := by
  have hn : '\n' ∉ s := fun h => absurd (hs _ h) (by decide)
  have hcr : '\r' ∉ s := fun h => absurd (hs _ h) (by decide)
  have hsplit : splitNl s = [s] := splitNl_of_noNl s hn
  have hlong : ¬ ∃ l ∈ splitNl s, st.maxOut < l.length := by
    rintro ⟨l, hl', h⟩
    rw [hsplit] at hl'
    simp only [List.mem_singleton] at hl'
    subst hl'
    omega
  refine ⟨hcr, ?_, ?_, ?_, fun h => (hlong h).elim⟩
  · rintro ⟨a, l, b, e, hnl, -, h2⟩
    obtain ⟨q, hq, hcase⟩ := textField_ok st s
    have hf : folded st s = s := by
      unfold folded
      rw [if_neg]
      simpa using hlong
    rw [hf] at hcase
    have hoc : ¬ Occurs semiDelim s := by
      rintro ⟨a, b, rfl⟩
      exact hn (by simp [semiDelim])
    rcases hcase with ⟨-, rfl⟩ | ⟨h, -⟩
    · rw [hq] at ht
      simp only [Except.ok.injEq] at ht
      rw [← ht] at e
      cases a with
      | nil => simp [semiDelim] at e
      | cons c a =>
        have e1 : (semiDelim ++ q ++ semiDelim).count '\n' = (c :: a ++ "\n#".toList ++ l ++ '\n' :: b).count '\n' := by rw [e]
        have h0 : c = '\n' := by
          simp only [semiDelim, List.cons_append] at e
          have := congrArg List.head? e
          simpa using this.symm
        have h1 : q.count '\n' = 0 := List.count_eq_zero.2 hn
        rw [h0] at e1
        simp [semiDelim, h1] at e1
        omega
    · exact absurd h hoc
  · rintro ⟨b, r, e, -⟩
    exact hn (by rw [e]; simp)
  · rintro ⟨c, p, m, b, r, e, -⟩
    exact hn (by rw [e]; simp)

/-- Triple quotes are only used when they are asked for. -/
theorem format_triple {maxOut : Int} {s w q : Str} {d : Option Str} (hq : q = tripleS ∨ q = tripleD) (hd : d ≠ some q)
    (h : formatString (Style.v20 maxOut) s d = .ok w) : w ≠ q ++ s ++ q := by
  have hc : choose (Style.v20 maxOut) s d ≠ some q := by
    unfold choose
    split
    · exact hd
    · split
      · rcases hq with rfl | rfl <;> decide
      · split <;> rcases hq with rfl | rfl <;> decide
  have hlen : q.length = 3 := by rcases hq with rfl | rfl <;> rfl
  rintro rfl
  rw [formatString] at h
  cases hx : choose (Style.v20 maxOut) s d with
  | none =>
    rw [hx] at h
    have := congrArg List.length (Except.ok.inj h)
    simp [hlen] at this
    omega
  | some x =>
    rw [hx] at h hc
    have hxq : x ≠ q := fun e => hc (by rw [e])
    simp only at h
    split at h
    · rename_i hcase
      have h' := Except.ok.inj h
      rcases hcase with rfl | rfl | rfl | rfl
      · have := congrArg List.length h'
        simp [hlen] at this
        omega
      · have := congrArg List.length h'
        simp [hlen] at this
        omega
      · have := congrArg (List.take 3) h'
        rcases hq with rfl | rfl
        · exact absurd this (by simp [tripleS, tripleD])
        · exact hxq rfl
      · have := congrArg (List.take 3) h'
        rcases hq with rfl | rfl
        · exact hxq rfl
        · exact absurd this (by simp [tripleS, tripleD])
    · obtain ⟨q0, h0, -⟩ := textField_ok (Style.v20 maxOut) s
      rw [h0] at h
      have := congrArg List.head? (Except.ok.inj h)
      rcases hq with rfl | rfl <;> simp [semiDelim, tripleS, tripleD] at this

/-- Printable texts within the output limit that are no reserved words are safe, unless triple quotes are asked for. -/
theorem safe20_printable {maxOut : Int} {s : Str} {d : Option Str} (hs : Printable s) (hl : (s.length : Int) ≤ maxOut - 2)
    (hstop : ¬ StartsStop s) (hloop : asciiLower s ≠ "loop_".toList) (hd : d ≠ some tripleS ∧ d ≠ some tripleD) {w : Str}
    (hw : formatString (Style.v20 maxOut) s d = .ok w) : Safe20 (Style.v20 maxOut) s w := by
  have hn : '\n' ∉ s := fun h => absurd (hs _ h) (by decide)
  have hcr : '\r' ∉ s := fun h => absurd (hs _ h) (by decide)
  have hff : '\x0c' ∉ s := fun h => absurd (hs _ h) (by decide)
  have hS := format_triple (.inl rfl) hd.1 hw
  have hD := format_triple (.inr rfl) hd.2 hw
  refine ⟨fun e => ⟨fun c hc => ?_, hstop, hloop⟩, fun _ => ⟨hcr, hff⟩, fun _ => hcr, fun e => (hS e).elim, fun e => (hD e).elim, fun hw' => ?_⟩
  · refine printable_space hs hc fun e' => ?_
    rcases format_cases20 hw with ⟨-, hnd⟩ | ⟨e2, -⟩ | ⟨e2, -⟩ | e2 | e2 | ht
    · subst e'
      simp only [needsDelimiter, Bool.or_eq_false_iff, List.any_eq_false] at hnd
      exact absurd (hnd.1.1.1.1.1.2 ' ' hc) (by simp)
    · have := congrArg List.length (e.symm.trans e2)
      simp at this
      omega
    · have := congrArg List.length (e.symm.trans e2)
      simp at this
      omega
    · exact hS e2
    · exact hD e2
    · obtain ⟨q, hq, -⟩ := textField_ok (Style.v20 maxOut) s
      rw [hq] at ht
      apply hn
      rw [← e, ← Except.ok.inj ht]
      simp [semiDelim]
  · rcases format_cases20 hw with ⟨e, -⟩ | ⟨e, -⟩ | ⟨e, -⟩ | e | e | ht
    · subst e
      cases w with
      | nil => simp at hw'
      | cons c r =>
        simp only [List.head?_cons, Option.some.injEq] at hw'
        exact absurd (by rw [hw']; simp) hn
    · subst e; simp at hw'
    · subst e; simp at hw'
    · exact (hS e).elim
    · exact (hD e).elim
    · exact fieldSafe_printable hs (by simp only [Style.v20]; omega) ht

/-- A printable text that is no reserved word is writable in 2.0. -/
theorem writable20_printable {maxOut : Int} {ds : List (Option Str)} {s : Str} (hs : Printable s) (hl : (s.length : Int) ≤ maxOut - 2) (hstop : ¬ StartsStop s)
    (hloop : asciiLower s ≠ "loop_".toList) (hd : ∀ d ∈ ds, d ≠ some tripleS ∧ d ≠ some tripleD) : Writable20 (Style.v20 maxOut) ds (.str s) :=
  .str fun d hd' _ h => safe20_printable hs hl hstop hloop (hd d hd') h

omit [CaseFold]

/-- A block with a loop of two columns of texts, a loop of one column of lists, a table with a list and a table in it, and a number. -/
def rich : Block := letI := asciiFold
  ({} : Block).run [
    .add "_A".toList (.list [.str "1".toList, .str "it's".toList]) false, .add "_b".toList (.list [.str "b c".toList, .str "".toList]) false,
    .createLoop ["_a".toList, "_B".toList] 0 true,
    .add "_l".toList (.list [.slist [.str "x".toList, .slist []], .slist [.slist [.num "2".toList]]]) false, .createLoop ["_l".toList] 0 true,
    .add "_T".toList (.sdict [("k 1".toList, .slist [.str "1".toList, .str "2".toList]), ("K".toList, .sdict [("".toList, .str "v".toList)])]) false,
    .add "_n".toList (.num "-1.5e3".toList) false]

theorem rich_reachable : letI := asciiFold; Reachable rich := by
  letI := asciiFold
  refine .step _ _ (.step _ _ (.step _ _ (.step _ _ (.step _ _ (.step _ _ (.step _ _ (.fresh _ ⟨rfl, rfl, rfl, rfl⟩) ?_) ?_) ?_) ?_) ?_) ?_) ?_
  · show _ ≠ _; decide +kernel
  · show _ ≠ _; decide +kernel
  · exact ⟨by decide +kernel, .inl rfl⟩
  · show _ ≠ _; decide +kernel
  · exact ⟨by decide +kernel, .inl rfl⟩
  · show _ ≠ _; decide +kernel
  · show _ ≠ _; decide +kernel

/-- The hints of the example. -/
def richHints : List Hint := [{ dataname := "_t".toList, column := 20, namePos := some 1 }, { dataname := "loop".toList, namePos := some 3 },
  { dataname := "_b".toList, delimiter := some ['"'] }]

theorem rich_text {ds : List (Option Str)} (hd : ds = [none] ∨ ds = asked richHints) {s : Str}
    (h : s ∈ ["1".toList, "it's".toList, "b c".toList, "".toList, "x".toList, "2".toList, "v".toList]) :
    letI := asciiFold; Writable20 (Style.v20 2048) ds (.str s) := by
  letI := asciiFold
  have key : ∀ s ∈ ["1".toList, "it's".toList, "b c".toList, "".toList, "x".toList, "2".toList, "v".toList],
      (∀ c ∈ s, 32 ≤ c.toNat ∧ c.toNat ≤ 126) ∧ (s.length : Int) ≤ 2048 - 2 ∧ ¬ (asciiLower (s.take 5) = "stop_".toList) ∧ asciiLower s ≠ "loop_".toList := by
    decide +kernel
  obtain ⟨h1, h2, h3, h4⟩ := key s h
  refine writable20_printable h1 h2 h3 h4 ?_
  rcases hd with rfl | rfl
  · decide +kernel
  · decide +kernel

theorem rich_list {ds : List (Option Str)} {l : List PyVal} : letI := asciiFold
    (∀ v ∈ l, Writable20 (Style.v20 2048) [none] v) → Writable20 (Style.v20 2048) ds (.slist l) := by
  letI := asciiFold
  exact .slist

theorem rich_keys : letI := asciiFold
    rich.keys = ["_a".toList, "_b".toList, "_l".toList, "_t".toList, "_n".toList] := by decide +kernel

theorem rich_loops : letI := asciiFold
    rich.loops = [(1, ["_a".toList, "_b".toList]), (2, ["_l".toList])] := by decide +kernel

theorem rich_writable : letI := asciiFold; WritableBlock20 (Style.v20 2048) richHints rich := by
  letI := asciiFold
  have hk := rich_keys
  have hl := rich_loops
  refine ⟨?_, ?_, ?_, ?_, ?_⟩
  · intro n hn
    rw [hk] at hn
    simp only [List.mem_cons, List.not_mem_nil, or_false] at hn
    have key : ∀ c ∈ "AblTn".toList, NameChar20 c := fun c hc => by
      have : ∀ c ∈ "AblTn".toList, 33 ≤ c.toNat ∧ c.toNat ≤ 126 := by decide +kernel
      exact .inl (this c hc)
    rcases hn with rfl | rfl | rfl | rfl | rfl
    · exact ⟨"_A".toList, by decide +kernel, "A".toList, by decide +kernel, by decide +kernel, fun c hc => key c (by rw [List.mem_singleton.1 hc]; decide)⟩
    · exact ⟨"_b".toList, by decide +kernel, "b".toList, by decide +kernel, by decide +kernel, fun c hc => key c (by rw [List.mem_singleton.1 hc]; decide)⟩
    · exact ⟨"_l".toList, by decide +kernel, "l".toList, by decide +kernel, by decide +kernel, fun c hc => key c (by rw [List.mem_singleton.1 hc]; decide)⟩
    · exact ⟨"_T".toList, by decide +kernel, "T".toList, by decide +kernel, by decide +kernel, fun c hc => key c (by rw [List.mem_singleton.1 hc]; decide)⟩
    · exact ⟨"_n".toList, by decide +kernel, "n".toList, by decide +kernel, by decide +kernel, fun c hc => key c (by rw [List.mem_singleton.1 hc]; decide)⟩
  · intro n hn hl'
    rw [hk] at hn
    simp only [List.mem_cons, List.not_mem_nil, or_false] at hn
    rcases hn with rfl | rfl | rfl | rfl | rfl
    · exact absurd hl' (by decide +kernel)
    · exact absurd hl' (by decide +kernel)
    · exact absurd hl' (by decide +kernel)
    · refine ⟨.sdict [("k 1".toList, .slist [.str "1".toList, .str "2".toList]), ("K".toList, .sdict [("".toList, .str "v".toList)])], by decide +kernel, ?_⟩
      refine .sdict (by decide +kernel) (by show ∀ p ∈ _, _ ∧ _ ∧ _ ∧ _; decide +kernel) ?_
      intro p hp
      simp only [List.mem_cons, List.not_mem_nil, or_false] at hp
      rcases hp with rfl | rfl
      · refine .slist ?_
        intro v hv
        simp only [List.mem_cons, List.not_mem_nil, or_false] at hv
        rcases hv with rfl | rfl <;> exact rich_text (.inl rfl) (by decide +kernel)
      · refine .sdict (by decide +kernel) (by show ∀ p ∈ _, _ ∧ _ ∧ _ ∧ _; decide +kernel) ?_
        intro p hp
        rw [List.mem_singleton.1 hp]
        exact rich_text (.inl rfl) (by decide +kernel)
    · exact ⟨.num "-1.5e3".toList, by decide +kernel, .num (by show _ ∧ _; decide +kernel)⟩
  · intro n hn hl'
    rw [hk] at hn
    simp only [List.mem_cons, List.not_mem_nil, or_false] at hn
    rcases hn with rfl | rfl | rfl | rfl | rfl
    · refine ⟨[.str "1".toList, .str "it's".toList], by decide +kernel, by simp, ?_, by decide +kernel, by decide +kernel⟩
      intro v hv
      simp only [List.mem_cons, List.not_mem_nil, or_false] at hv
      rcases hv with rfl | rfl <;> exact rich_text (.inr rfl) (by decide +kernel)
    · refine ⟨[.str "b c".toList, .str "".toList], by decide +kernel, by simp, ?_, by decide +kernel, by decide +kernel⟩
      intro v hv
      simp only [List.mem_cons, List.not_mem_nil, or_false] at hv
      rcases hv with rfl | rfl <;> exact rich_text (.inr rfl) (by decide +kernel)
    · refine ⟨[.slist [.str "x".toList, .slist []], .slist [.slist [.num "2".toList]]], by decide +kernel, by simp, ?_, by decide +kernel, by decide +kernel⟩
      intro v hv
      simp only [List.mem_cons, List.not_mem_nil, or_false] at hv
      rcases hv with rfl | rfl
      · refine .slist ?_
        intro v hv
        simp only [List.mem_cons, List.not_mem_nil, or_false] at hv
        rcases hv with rfl | rfl
        · exact rich_text (.inl rfl) (by decide +kernel)
        · exact .slist (by simp)
      · refine .slist fun v hv => ?_
        rw [List.mem_singleton.1 hv]
        refine .slist fun v hv => ?_
        rw [List.mem_singleton.1 hv]
        exact .num (by show _ ∧ _; decide +kernel)
    · exact absurd (by decide +kernel) hl'
    · exact absurd (by decide +kernel) hl'
  · intro n l h
    have hm := dget_mem h
    rw [hl] at hm
    simp only [List.mem_cons, List.not_mem_nil, or_false, Prod.mk.injEq] at hm
    rcases hm with ⟨-, rfl⟩ | ⟨-, rfl⟩
    · refine ⟨2, ?_⟩
      intro s hs
      simp only [List.mem_cons, List.not_mem_nil, or_false] at hs
      rcases hs with rfl | rfl
      · exact ⟨[.str "1".toList, .str "it's".toList], by decide +kernel, rfl⟩
      · exact ⟨[.str "b c".toList, .str "".toList], by decide +kernel, rfl⟩
    · refine ⟨2, ?_⟩
      intro s hs
      simp only [List.mem_cons, List.not_mem_nil, or_false] at hs
      subst hs
      exact ⟨[.slist [.str "x".toList, .slist []], .slist [.slist [.num "2".toList]]], by decide +kernel, rfl⟩
  · intro n l h
    have hm := dget_mem h
    rw [hl] at hm
    simp only [List.mem_cons, List.not_mem_nil, or_false, Prod.mk.injEq] at hm
    rcases hm with ⟨-, rfl⟩ | ⟨-, rfl⟩ <;> simp

/-- The text that `WriteOut` makes in 2.0 for one block. -/
def oneBlock20 (hints : List Hint) (b : Block) : Str := letI := asciiFold
  match printSection .v20 hints b with
  | .ok t => "\ndata_x\n".toList ++ t
  | .error _ => []

/-- What is read from that text under a name. -/
def lookup20 (hints : List Hint) (b : Block) (n : Str) : Option PyVal := letI := asciiFold
  match (Reader.input gram20 { overwrite := false } { standard := none } (oneBlock20 hints b)).1.getItem "x".toList with
  | .ok rb => rb.lookup n
  | .error _ => none

theorem rich_apart : letI := asciiFold; StandsApart richHints rich := by
  letI := asciiFold
  refine ⟨?_, ?_⟩
  · intro n hn hl d hd t ht
    have key : ∀ n ∈ ["_a".toList, "_b".toList, "_l".toList, "_t".toList, "_n".toList], ∀ t, dget rich.trueCase n = some t → t.length < 80 ∧
        ∀ h ∈ richHints, CaseFold.lower h.dataname = n → ∀ p, h.namePos = some p → p.toNat + t.length < 80 := by
      intro n hn t ht
      have h1 : ∀ n ∈ ["_a".toList, "_b".toList, "_l".toList, "_t".toList, "_n".toList], (dget rich.trueCase n).all (fun t => decide (t.length = 2)) = true := by
        decide +kernel
      have h2 := h1 n hn
      rw [ht] at h2
      simp only [Option.all_some, decide_eq_true_eq] at h2
      rw [h2]
      refine ⟨by decide, ?_⟩
      have h3 : ∀ h ∈ richHints, h.namePos.all (fun p => decide (p.toNat + 2 < 80)) = true := by decide +kernel
      intro h hh _ p hp
      have := h3 h hh
      rw [hp] at this
      simpa using this
    rw [rich_keys] at hn
    exact key n hn t ht
  · intro n hn l hl hlen
    have key : ∀ n ∈ ["_a".toList, "_b".toList, "_l".toList, "_t".toList, "_n".toList], 1 < (rich.loopOf n).length →
        (rich.lookup n = some (.list [.str "1".toList, .str "it's".toList]) ∨ rich.lookup n = some (.list [.str "b c".toList, .str "".toList])) := by
      decide +kernel
    rw [rich_keys] at hn
    have h2 := key n hn hlen
    rw [hl] at h2
    intro v hv
    rcases h2 with h2 | h2
    · rw [PyVal.list.inj (Option.some.inj h2)] at hv
      simp only [List.mem_cons, List.not_mem_nil, or_false] at hv
      rcases hv with rfl | rfl <;> trivial
    · rw [PyVal.list.inj (Option.some.inj h2)] at hv
      simp only [List.mem_cons, List.not_mem_nil, or_false] at hv
      rcases hv with rfl | rfl <;> trivial

/-- The hypotheses of C70 are met. -/
example : letI := asciiFold
    Reachable rich ∧ WritableBlock20 (Style.v20 2048) richHints rich ∧ Unglued (Style.v20 2048) richHints rich ∧ FitsStandard (some "CIF".toList) rich ∧
    UsableHints richHints ∧ WritableHeading20 "Ab".toList := by
  letI := asciiFold
  refine ⟨rich_reachable, rich_writable, .inl rich_apart, ?_, ?_, ?_⟩
  · intro _ n hn
    rw [rich_keys] at hn
    revert n
    decide +kernel
  · exact ⟨by decide +kernel, by decide +kernel, by decide +kernel, by decide +kernel⟩
  · refine ⟨by decide, fun c hc => .inl ?_, by decide⟩
    revert c
    decide +kernel

/-- The text, and what is read from it. -/
example : letI := asciiFold
    oneBlock20 richHints rich = "\ndata_x\n\n _T                 {'k 1':[1  2]  'K':{'':v}}\n   loop_\n  _b\n  _A\n         \"b c\"     1         \n         \"\"        \"it's\" \n   loop_\n  _l\n[x  \n []] \n[[2]] \n_n                                      -1.5e3".toList ∧
    lookup20 [] rich "_l".toList = some (.list [.slist [.str "x".toList, .slist []], .slist [.slist [.str "2".toList]]]) ∧
    lookup20 richHints rich "_t".toList = some (.sdict [("k 1".toList, .slist [.str "1".toList, .str "2".toList]), ("K".toList, .sdict [("".toList, .str "v".toList)])]) := by
  letI := asciiFold
  refine ⟨?_, ?_, ?_⟩
  all_goals decide +kernel

/-! ## Counterexamples -/

/-- A loop with a list and two texts. -/
def gluedSample : Block := letI := asciiFold
  ({} : Block).run [.add "_a".toList (.list [.slist []]) false, .add "_b".toList (.list [.str (List.replicate 76 'x')]) false,
    .add "_c".toList (.list [.str "b".toList]) false, .createLoop ["_a".toList, "_b".toList, "_c".toList] 0 true]

/-- In a loop with lists and texts, two texts run together when a line is full, and the loop cannot be read. -/
theorem C70_glued_fails : letI := asciiFold
    Reachable gluedSample ∧ gluedSample.lookup "_b".toList = some (.list [.str (List.replicate 76 'x')]) ∧
      oneBlock20 [] gluedSample = "\ndata_x\n\nloop_\n  _a\n  _b\n  _c\n[] ".toList ++ List.replicate 76 'x' ++ "b".toList ∧
      (Reader.input gram20 { overwrite := false } { standard := none } (oneBlock20 [] gluedSample)).2 ≠ .ok () := by
  letI := asciiFold
  refine ⟨.step _ _ (.step _ _ (.step _ _ (.step _ _ (.fresh _ ⟨rfl, rfl, rfl, rfl⟩) ?_) ?_) ?_) ?_, ?_, ?_, ?_⟩
  · show _ ≠ _; decide +kernel
  · show _ ≠ _; decide +kernel
  · show _ ≠ _; decide +kernel
  · exact ⟨by decide +kernel, .inl rfl⟩
  all_goals decide +kernel

/-- A long name. -/
def longName20 : Str := '_' :: List.replicate 79 'x'

/-- A table under a long name. -/
def nameGlued : Block := letI := asciiFold
  ({} : Block).run [.add longName20 (.sdict [("k".toList, .str "v".toList)]) false]

/-- The name of an item that fills a line and the table after it run together, and the text cannot be read. -/
theorem C70_name_glued_fails : letI := asciiFold
    Reachable nameGlued ∧ nameGlued.lookup longName20 = some (.sdict [("k".toList, .str "v".toList)]) ∧
      (longName20 ++ "{".toList) <+: (oneBlock20 [] nameGlued).drop 9 ∧
      (Reader.input gram20 { overwrite := false } { standard := none } (oneBlock20 [] nameGlued)).2 ≠ .ok () := by
  letI := asciiFold
  refine ⟨.step _ _ (.fresh _ ⟨rfl, rfl, rfl, rfl⟩) ?_, ?_, ?_, ?_⟩
  · show _ ≠ _; decide +kernel
  all_goals decide +kernel

/-- A table with a key that holds quotes. -/
def keySample : Block := letI := asciiFold
  ({} : Block).run [.add "_t".toList (.sdict [("a':b 'c".toList, .str "v".toList)]) false]

/-- Keys are always written between single quotes: a key that holds them is read as another table. -/
theorem C70_key_fails : letI := asciiFold
    Reachable keySample ∧ keySample.lookup "_t".toList = some (.sdict [("a':b 'c".toList, .str "v".toList)]) ∧
      oneBlock20 [] keySample = "\ndata_x\n\n_t {'a':b 'c':v}".toList ∧
      lookup20 [] keySample "_t".toList = some (.sdict [("a".toList, .str "b".toList), ("c".toList, .str "v".toList)]) := by
  letI := asciiFold
  refine ⟨.step _ _ (.fresh _ ⟨rfl, rfl, rfl, rfl⟩) ?_, ?_, ?_, ?_⟩
  · show _ ≠ _; decide +kernel
  all_goals decide +kernel

/-- A loop that ends in an empty list. -/
def lastSample : Block := letI := asciiFold
  ({} : Block).run [.add "_a".toList (.list [.str "1".toList, .slist []]) false, .createLoop ["_a".toList] 0 true]

/-- An empty list at the end of a loop is lost when the text is read. -/
theorem C70_last_fails : letI := asciiFold
    Reachable lastSample ∧ lastSample.lookup "_a".toList = some (.list [.str "1".toList, .slist []]) ∧
      oneBlock20 [] lastSample = "\ndata_x\n\nloop_\n  _a\n         1         \n[] ".toList ∧
      lookup20 [] lastSample "_a".toList = some (.list [.str "1".toList]) := by
  letI := asciiFold
  refine ⟨.step _ _ (.step _ _ (.fresh _ ⟨rfl, rfl, rfl, rfl⟩) ?_) ?_, ?_, ?_, ?_⟩
  · show _ ≠ _; decide +kernel
  · exact ⟨by decide +kernel, .inl rfl⟩
  all_goals decide +kernel

/-- A text with three quotes. -/
def tripleSample : Block := letI := asciiFold
  ({} : Block).run [.add "_t".toList (.str "a'''\n_b 'c' #".toList) false]

/-- When triple quotes are asked for, a text that holds them is read as a shorter text and another item. -/
theorem C70_triple_fails : letI := asciiFold
    Reachable tripleSample ∧ tripleSample.keys = ["_t".toList] ∧
      oneBlock20 [{ dataname := "_t".toList, delimiter := some tripleS }] tripleSample =
        "\ndata_x\n\n_t                                      '''a'''\n_b 'c' #'''".toList ∧
      lookup20 [{ dataname := "_t".toList, delimiter := some tripleS }] tripleSample "_t".toList = some (.str "a".toList) ∧
      lookup20 [{ dataname := "_t".toList, delimiter := some tripleS }] tripleSample "_b".toList = some (.str "c".toList) := by
  letI := asciiFold
  refine ⟨.step _ _ (.fresh _ ⟨rfl, rfl, rfl, rfl⟩) ?_, ?_, ?_, ?_, ?_⟩
  · show _ ≠ _; decide +kernel
  all_goals decide +kernel

/-- A collection of two blocks as the file form of C70 needs it. -/
def twoBlocks20 : Coll := letI := asciiFold
  let c := (({ standard := some "CIF".toList } : Coll).newBlock "First".toList rich true none).1
  (c.newBlock "second".toList keySample true none).1

/-- The hypotheses about the collection in the file form of C70 are met. -/
example : letI := asciiFold
    Coll.Reachable twoBlocks20 ∧ twoBlocks20.lowerKeys = ["first".toList, "second".toList] ∧
      Coll.printedName twoBlocks20 "first".toList = "First".toList ∧
      twoBlocks20.childTable = [("first".toList, ⟨"First".toList, none⟩), ("second".toList, ⟨"second".toList, none⟩)] ∧
      (WriteText.writeOut .v20 richHints "#\\#CIF_2.0\n".toList twoBlocks20).toOption.isSome = true := by
  letI := asciiFold
  refine ⟨?_, ?_, ?_, ?_, ?_⟩
  · refine .step (.new _ _ _ none) (.step (.new _ _ _ none) (.start _ _ _) ?_) ?_ <;>
      exact ⟨(fun q hq => by cases hq), fun h => absurd h (by decide +kernel)⟩
  all_goals decide +kernel

end Verif.RoundTrip
