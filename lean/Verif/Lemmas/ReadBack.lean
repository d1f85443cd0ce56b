import Verif.Lemmas.RoundTrip
import Verif.Lemmas.ReadFile
import Verif.Lemmas.Print
/-! # From printed entries to entries that are read -/
set_option linter.unusedSectionVars false
namespace Verif.RoundTrip
open Print Reader Lex Block
variable [CaseFold]

theorem nameChar_of {c : Char} (h : 33 ≤ c.toNat ∧ c.toNat ≤ 126) : Pat.nameChar1 c = true := by
  have key : ∀ n, n < 127 → 33 ≤ n → Pat.nameChar1 (Char.ofNat n) = true := by decide +kernel
  have := key c.toNat (by omega) h.1
  rwa [Char.ofNat_toNat] at this

theorem WritableName.word {n : Str} (h : WritableName n) : NameWord dialect11 n := by
  obtain ⟨t, e, h1, h2⟩ := h
  exact ⟨t, e, h1, fun c hc => nameChar_of (h2 c hc)⟩

theorem WritableName.ascii {n : Str} (h : WritableName n) : ∀ c ∈ n, c.toNat < 128 := by
  obtain ⟨t, rfl, h1, h2⟩ := h
  intro c hc
  rcases List.mem_cons.1 hc with rfl | hc
  · decide
  · have := h2 c hc; omega

theorem WritableName.lower {n : Str} (h : WritableName n) : CaseFold.lower n = asciiLower n := CaseFold.lower_ascii n h.ascii

theorem WritableName.noSaves {n : Str} (h : WritableName n) : CaseFold.lower n ≠ saves := by
  rw [h.lower]
  obtain ⟨t, rfl, h1, h2⟩ := h
  intro e
  have := congrArg List.head? e
  simp only [asciiLower, List.map_cons, List.head?_cons] at this
  exact absurd this (by decide)

theorem WritableHeading.word {n : Str} (h : WritableHeading n) : HeadingWord dialect11 n :=
  ⟨h.1, fun c hc => nameChar_of (h.2.1 c hc), h.2.2⟩

theorem number_bare {t : Str} (h : IsNumber t) : Bare t := by
  obtain ⟨h1, h2⟩ := h
  have key : ∀ c ∈ "0123456789+-.e".toList, isSpace c = false ∧ Pat.bareStart11 c = true ∧ c ≠ ';' ∧ c ≠ '_' ∧ asciiLowerChar c ≠ '_' := by decide +kernel
  have hu : '_' ∉ t := fun h => (key _ (h2 _ h)).2.2.2.1 rfl
  have hw : ∀ ws, ¬ StartsWord ws t := by
    rintro ws ⟨a, r, e, -⟩
    exact hu (by rw [e]; simp)
  refine ⟨?_, fun c hc => (key c (h2 c hc)).1, ?_, ?_⟩
  · cases t with
    | nil => exact absurd rfl h1
    | cons c t => exact ⟨c, t, rfl, (key c (h2 c (by simp))).2.1, (key c (h2 c (by simp))).2.2.1⟩
  · rintro (h | h | h | h) <;> exact hw _ h
  · intro e
    have : '_' ∈ asciiLower t := by rw [e]; decide
    obtain ⟨c, hc, hc'⟩ := List.mem_map.1 this
    exact (key c (h2 c hc)).2.2.2.2 hc'

theorem reads_value {maxOut : Int} {v : PyVal} {w : Str} (h : Formatted (Style.v11 maxOut) v w) (hv : WritableValue (Style.v11 maxOut) v) :
    ReadsAs w (asRead v) ∧ w ≠ [] := by
  rcases h with ⟨s, d, rfl, h⟩ | rfl
  · refine ⟨format_reads h (hv d w h), ?_⟩
    rcases format_cases h with ⟨rfl, hn⟩ | ⟨rfl, -, -⟩ | ⟨rfl, -, -⟩ | ht
    · rintro rfl
      simp [needsDelimiter] at hn
    · simp
    · simp
    · obtain ⟨q, hq, -⟩ := textField_ok (Style.v11 maxOut) s
      rw [hq] at ht
      simp only [Except.ok.injEq] at ht
      rw [← ht]
      simp [semiDelim]
  · exact ⟨reads_bare (number_bare hv), hv.1⟩

theorem reads_values {maxOut : Int} : ∀ {vs : List PyVal} {ws : List Str}, FormattedAll (Style.v11 maxOut) vs ws →
    (∀ v ∈ vs, WritableValue (Style.v11 maxOut) v) → ReadsAll dialect11 (vs.map asRead) ws
  | [], [], _, _ => trivial
  | v :: vs, w :: ws, h, hv => ⟨reads_value h.1 (hv v (by simp)), reads_values h.2 fun x hx => hv x (by simp [hx])⟩

theorem reads_entry {maxOut : Int} {e : Entry} {ws : List Str} (h : EntryWords (Style.v11 maxOut) e ws) (he : WritableEntry (Style.v11 maxOut) e) :
    EntryReads dialect11 (asReadEntry e) ws := by
  cases e with
  | item n v =>
    obtain ⟨w, rfl, h⟩ := h
    exact ⟨he.1.word, w, rfl, reads_value h he.2⟩
  | loop ns vs =>
    obtain ⟨ws', rfl, h⟩ := h
    exact ⟨fun n hn => (he.1 n hn).word, by simpa using he.2.1, ws', rfl, reads_values h he.2.2⟩

theorem reads_doc {maxOut : Int} : ∀ {es : List Entry} {ws : List Str}, DocWords (Style.v11 maxOut) es ws →
    (∀ e ∈ es, WritableEntry (Style.v11 maxOut) e) → DocReads dialect11 (es.map asReadEntry) ws
  | [], ws, h, _ => h
  | e :: es, ws, ⟨a, c, h1, h2, h3⟩, he => ⟨a, c, h1, reads_entry h2 (he e (by simp)), reads_doc h3 fun x hx => he x (by simp [hx])⟩

theorem names_asRead (e : Entry) : (asReadEntry e).names = e.names := by cases e <;> rfl

theorem allNames_asRead (es : List Entry) : Entry.allNames (es.map asReadEntry) = Entry.allNames es := by
  simp [Entry.allNames, List.flatMap_map, names_asRead]

theorem writable_names {st : Style} {e : Entry} (h : WritableEntry st e) : ∀ n ∈ e.names, WritableName n := by
  cases e with
  | item n v => simpa [Entry.names] using h.1
  | loop ns vs => exact h.1

theorem asRead_str {st : Style} {v : PyVal} (h : WritableValue st v) : ∃ s, asRead v = .str s := by
  cases v with
  | str s => exact ⟨s, rfl⟩
  | num t => exact ⟨t, rfl⟩
  | _ => exact absurd h (by simp [WritableValue])

/-- Entries that can be written give entries that can be stored. -/
theorem entriesOk_of {st : Style} {std : Option Str} {es : List Entry} (hd : Entry.Distinct es) (he : ∀ e ∈ es, WritableEntry st e)
    (hf : ∀ e ∈ es, e.Filled) (hs : std = some "CIF".toList → ∀ n ∈ Entry.allNames es, (CaseFold.lower n).length ≤ 75) : EntriesOk std (es.map asReadEntry) := by
  refine ⟨?_, ?_, ?_, ?_⟩
  · unfold Entry.Distinct
    rw [allNames_asRead]
    exact hd
  · intro e' h
    obtain ⟨e, hm, rfl⟩ := List.mem_map.1 h
    have hw := he e hm
    refine ⟨?_, ?_, ?_, ?_⟩
    · intro n hn
      rw [names_asRead] at hn
      obtain ⟨t, rfl, -⟩ := writable_names hw n hn
      intro e
      have := congrArg List.head? e
      simp only [List.head?_cons] at this
      exact absurd this (by decide)
    · cases e with
      | item n v => obtain ⟨s, hs⟩ := asRead_str hw.2; simp [asReadEntry, Entry.Plain, hs, notNone]
      | loop ns vs =>
        intro v hv
        obtain ⟨u, hu, rfl⟩ := List.mem_map.1 hv
        obtain ⟨s, hs⟩ := asRead_str (hw.2.2 u hu)
        simp [hs, notNone]
    · cases e with
      | item n v => trivial
      | loop ns vs =>
        have : ∀ x, (vs.map asRead).getLast? = some x → ∃ s, x = .str s := by
          intro x hx
          obtain ⟨u, hu, rfl⟩ := List.mem_map.1 (List.mem_of_getLast? hx)
          exact asRead_str (hw.2.2 u hu)
        constructor
        · intro h; obtain ⟨s, hs⟩ := this _ h; cases hs
        · intro h; obtain ⟨s, hs⟩ := this _ h; cases hs
    · cases e with
      | item n v => trivial
      | loop ns vs =>
        have := hf _ hm
        exact ⟨this.1, by simpa using this.2.1, by simpa using this.2.2⟩
  · intro e' h n hn
    obtain ⟨e, hm, rfl⟩ := List.mem_map.1 h
    rw [names_asRead] at hn
    exact (writable_names (he e hm) n hn).noSaves
  · intro hc n hn
    rw [allNames_asRead] at hn
    exact hs hc n hn

/-! ## Same contents -/

theorem isColumn_length {n i m : Nat} {vs col : List PyVal} (h : Entry.IsColumn n i vs col) (hi : i < n) (hm : vs.length = m * n) : col.length = m := by
  apply Nat.le_antisymm
  · apply Classical.byContradiction
    intro hlt
    have h1 := h m
    rw [if_pos hi, List.getElem?_eq_getElem (by omega), List.getElem?_eq_none (by omega)] at h1
    cases h1
  · cases m with
    | zero => omega
    | succ m =>
      have h1 := h m
      rw [if_pos hi, List.getElem?_eq_getElem (l := vs) (by rw [hm, Nat.succ_mul]; omega)] at h1
      apply Classical.byContradiction
      intro hlt
      rw [List.getElem?_eq_none (by omega)] at h1
      cases h1

theorem isColumn_map {n i : Nat} {vs col col' : List PyVal} (f : PyVal → PyVal) (h : Entry.IsColumn n i vs col)
    (h' : Entry.IsColumn n i (vs.map f) col') : col' = col.map f := by
  apply List.ext_getElem?
  intro r
  rw [h' r, List.getElem?_map, List.getElem?_map, h r]
  split <;> rfl

theorem docOf_mem {b : Block} : ∀ {rs : List Ref} {es : List Entry}, docOf b rs = some es → ∀ r ∈ rs, ∃ e ∈ es, entryOf b r = some e
  | [], _, _, r, h => by simp at h
  | r' :: rs, es, h, r, hr => by
    rw [docOf] at h
    split at h
    · rename_i e es' h1 h2
      simp only [Option.some.injEq] at h
      subst h
      rcases List.mem_cons.1 hr with rfl | hr
      · exact ⟨e, by simp, h1⟩
      · obtain ⟨e', g1, g2⟩ := docOf_mem h2 r hr
        exact ⟨e', by simp [g1], g2⟩
    · cases h

theorem printed_keys {b : Block} (hw : WF b) (hf : Full b) {n : Str} : n ∈ b.printed ↔ n ∈ b.keys := by
  rw [mem_printed hw]
  constructor
  · rintro (h | h)
    · exact hf n h
    · exact h.1
  · intro h
    by_cases e : n ∈ allLooped b.loops
    · exact .inl e
    · exact .inr ⟨h, e⟩

end Verif.RoundTrip
