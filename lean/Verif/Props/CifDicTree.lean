import Verif.Lemmas.CifDicTree
import Verif.Props.CifDic
/-! # C56: the tree of categories -/
set_option linter.unusedSectionVars false
namespace Verif.CifDic
open Validate
variable [CaseFold]

/-- C56: the immediate children of a category are exactly the definitions that name it as their category, in any
capitalisation, each once. -/
theorem C56_immediate {d : CifDic} (h : Readable d) {c : Str} (hc : lower c ≠ []) :
    ∃ l, immediateChildren d c = .ok l ∧ l.Nodup ∧ ∀ x, x ∈ l ↔ x ∈ d.keys ∧ InCategory d c x := by
  refine ⟨_, immediate_eq h c, ?_, fun x => ?_⟩
  · unfold kids
    split
    · exact h.nodup.filter _
    · simp
  · rw [mem_kids h (CaseFold.lower_lower c) hc]
    simp only [InCategory, CaseFold.lower_lower]

/-- C56: all children of a category are exactly the definitions that reach it through category links, each once, followed by
the category itself. -/
theorem C56_children {d : CifDic} (h : Readable d) (ha : Acyclic d) {c : Str} (hc : lower c ≠ []) :
    ∃ l, allChildren d c = .ok (l ++ [c]) ∧ l.Nodup ∧ ∀ x, x ∈ l ↔ Below d c x := by
  obtain ⟨l, h1, h2, h3⟩ := all_eq h ha hc
  exact ⟨l, h1, h2, fun x => by rw [h3, below_lower]⟩

/-- C56: the test for being below a category, for a child given in lower case.
Missing: children in other capitals, which are not recognised (`C56_case_fails`). -/
theorem C56_semantic_partial {d : CifDic} (h : Readable d) (ha : Acyclic d) {p : Str} (hp : lower p ≠ []) (x : Str) :
    ∃ r, isSemanticChild d p x = .ok r ∧ (r = true ↔ x = p ∨ Below d p x) := by
  obtain ⟨l, h1, _, h3⟩ := C56_children h ha hp
  refine ⟨decide (x ∈ l ++ [p]), by simp only [isSemanticChild, h1], ?_⟩
  rw [decide_eq_true_eq, List.mem_append, List.mem_singleton, h3]
  exact Or.comm

/-- C56: expanding a category gives exactly the items below it, each once. -/
theorem C56_expand {d : CifDic} (h : Readable d) (ha : Acyclic d) {c : Str} (hk : c ∈ d.keys) (hc : IsCategory d c) :
    ∃ l, expandCategory d [c] = .ok l ∧ l.Nodup ∧ ∀ x, x ∈ l ↔ Below d c x ∧ ¬ IsCategory d x := by
  obtain ⟨E, h1, h2⟩ := expandFuel_eq h ha (d.table.length + 1)
  have hs : Forest.size (kids d) (isCat d) d.keys c < d.table.length + 1 := by
    have := Forest.size_le (kids := kids d) (open_ := isCat d) (K := d.keys) c
    unfold keys dkeys at this
    rw [List.length_map] at this
    unfold keys dkeys
    omega
  obtain ⟨b, hb, hp⟩ := h.found c hk
  have hco := (isCategory_iff hb hp).1 hc
  obtain ⟨hn, hm⟩ := h2 c hk (fun _ => hs)
  refine ⟨E c, ?_, hn, fun x => ?_⟩
  · rw [expandCategory, h1 [c] (by simpa using hk) (by intro a hm _; rw [List.mem_singleton] at hm; subst hm; exact hs)]
    simp
  · rw [hm]
    constructor
    · rintro ⟨hx, rfl | ⟨_, hd⟩⟩
      · rw [hco] at hx; cases hx
      · have hb' := (below_iff h (h.low c hk) (h.named c hk)).1 hd
        obtain ⟨b', hb'', hp'⟩ := h.found x hb'.key
        exact ⟨hb', fun hh => by rw [(isCategory_iff hb'' hp').1 hh] at hx; cases hx⟩
    · rintro ⟨hd, hx⟩
      obtain ⟨b', hb'', hp'⟩ := h.found x hd.key
      refine ⟨?_, .inr ⟨hco, (below_iff h (h.low c hk) (h.named c hk)).2 hd⟩⟩
      cases ho : isCat d x with
      | false => rfl
      | true => exact absurd ((isCategory_iff hb'' hp').2 ho) hx

/-- C56: a name that is not in the dictionary, or an item, is not expanded. -/
theorem C56_expand_item {d : CifDic} (h : Readable d) {a : Str} (hc : ¬ IsCategory d a) (hk : lower a ∈ d.keys → a ∈ d.keys) :
    expandCategory d [a] = .ok [a] := by
  unfold expandCategory
  rw [expandCategoryFuel, mapE_ok (g := fun a => [a])]
  · simp
  · intro x hx
    rw [List.mem_singleton] at hx
    subst hx
    by_cases hd : d.contains x = true
    · have hx := hk (by simpa [contains] using hd)
      obtain ⟨b, hb, hp⟩ := h.found x hx
      have : isCat d x = false := by
        cases ho : isCat d x with
        | false => rfl
        | true => exact absurd ((isCategory_iff hb hp).2 ho) hc
      rw [if_pos hd, isScope_cat hb hp, this]
    · rw [if_neg hd]

/-- C56: when the dictionary has one `Head`, the danglers are exactly the definitions that do not reach it. -/
theorem C56_danglers {d : CifDic} (h : Readable d) (ha : Acyclic d) {r : Str} (hr : ∀ a, IsHead d a ↔ a = r) :
    ∃ l, danglers d = .ok l ∧ l.Nodup ∧ ∀ x, x ∈ l ↔ x ∈ d.keys ∧ x ≠ r ∧ ¬ Below d r x := by
  have hrk : r ∈ d.keys := ((hr r).2 rfl).1
  obtain ⟨l, h1, h2, h3⟩ := C56_children h ha (c := r) (by rw [h.low r hrk]; exact h.named r hrk)
  refine ⟨d.keys.filter fun k => decide (k ∉ l ++ [r]), ?_, h.nodup.filter _, fun x => ?_⟩
  · simp only [danglers, rootCategory, root_eq h hr, h1]
  · rw [List.mem_filter, decide_eq_true_eq, List.mem_append, List.mem_singleton, h3]
    constructor
    · rintro ⟨hk, hn⟩; exact ⟨hk, fun e => hn (.inr e), fun e => hn (.inl e)⟩
    · rintro ⟨hk, h1, h2⟩; exact ⟨hk, fun e => e.elim h2 h1⟩

theorem rootless_cat {d : CifDic} (h : Readable d) (ha : Acyclic d) {r : Str} : ∀ (n : Nat) (x : Str),
    d.keys.length - Forest.size (kids d) (isCat d) d.keys x < n → x ∈ d.keys → IsCategory d x → x ≠ r → ¬ Below d r x →
    ∃ a, Rootless d r a ∧ (x = a ∨ Below d a x)
  | 0, _, hs, _, _, _, _ => by omega
  | n + 1, x, hs, hk, hc, hne, hb => by
    by_cases hx : ∃ p ∈ d.keys, (p = r ∨ IsCategory d p) ∧ InCategory d p x
    · obtain ⟨p, hp, hor, hin⟩ := hx
      have hpr : p ≠ r := by rintro rfl; exact hb (.child hk hin)
      have hpc : IsCategory d p := hor.resolve_left hpr
      obtain ⟨b, hgb, hpl⟩ := h.found x hk
      have hsz := Forest.size_lt (forest h ha) ((mem_kids h (h.low p hp) (h.named p hp)).2 ⟨hk, hin⟩) ((isCategory_iff hgb hpl).1 hc)
      have hle := Forest.size_le (kids := kids d) (open_ := isCat d) (K := d.keys) p
      obtain ⟨a, h1, h2⟩ := rootless_cat h ha n p (by omega) hp hpc hpr (fun hh => hb (.deeper hh hpc hk hin))
      refine ⟨a, h1, .inr ?_⟩
      rcases h2 with rfl | h2
      · exact .child hk hin
      · exact .deeper h2 hpc hk hin
    · exact ⟨x, ⟨hk, hne, hx⟩, .inl rfl⟩

/-- C56: when the `Head` is not itself in a category of the dictionary, a definition does not reach it exactly when it, or a
definition above it, has no category defined in this dictionary. -/
theorem C56_rootless {d : CifDic} (h : Readable d) (ha : Acyclic d) {r x : Str} (hr : r ∈ d.keys) (hx : x ∈ d.keys)
    (ht : ∀ p ∈ d.keys, ¬ InCategory d p r) :
    (x ≠ r ∧ ¬ Below d r x) ↔ ∃ a, Rootless d r a ∧ (x = a ∨ Below d a x) := by
  constructor
  · rintro ⟨hne, hb⟩
    by_cases hp : ∃ p ∈ d.keys, (p = r ∨ IsCategory d p) ∧ InCategory d p x
    · obtain ⟨p, hp, hor, hin⟩ := hp
      have hpr : p ≠ r := by rintro rfl; exact hb (.child hx hin)
      have hpc : IsCategory d p := hor.resolve_left hpr
      obtain ⟨a, h1, h2⟩ := rootless_cat h ha (r := r) _ p (Nat.lt_succ_self _) hp hpc hpr (fun hh => hb (.deeper hh hpc hx hin))
      refine ⟨a, h1, .inr ?_⟩
      rcases h2 with rfl | h2
      · exact .child hx hin
      · exact .deeper h2 hpc hx hin
    · exact ⟨x, ⟨hx, hne, hp⟩, .inl rfl⟩
  · rintro ⟨a, ⟨hak, hne, hno⟩, hor⟩
    have hra : ¬ Below d r a := by
      intro hh
      cases hh with
      | child _ hin => exact hno ⟨r, hr, .inl rfl, hin⟩
      | @deeper y _ hy hyc _ hin => exact hno ⟨y, hy.key, .inr hyc, hin⟩
    have har : ¬ Below d a r := by
      intro hh
      cases hh with
      | child _ hin => exact ht a hak hin
      | @deeper y _ hy hyc _ hin => exact ht y hy.key hin
    rcases hor with rfl | hb
    · exact ⟨hne, hra⟩
    · refine ⟨by rintro rfl; exact har hb, fun hb' => ?_⟩
      have e1 := (below_iff h (h.low a hak) (h.named a hak)).2 hb
      have e2 := (below_iff h (h.low r hr) (h.named r hr)).2 hb'
      rcases Forest.desc_linear (forest h ha) e1 e2 with e | ⟨_, e⟩ | ⟨_, e⟩
      · exact hne e
      · exact hra ((below_iff h (h.low r hr) (h.named r hr)).1 e)
      · exact har ((below_iff h (h.low a hak) (h.named a hak)).1 e)

/-! ## Samples -/

/-- A test of `Readable`. -/
def readableCheck (d : CifDic) : Bool :=
  decide d.keys.Nodup && d.keys.all fun a => decide (lower a = a) && decide (a ≠ []) && match d.getItem a with
    | .error _ => false
    | .ok b =>
      (!b.contains catAttr || match b.getItem catAttr with | .ok (.str _) => true | _ => false) &&
      (!b.contains scopeAttr || match b.getItem scopeAttr with | .ok _ => true | _ => false) &&
      (!b.contains classAttr || match b.getItem classAttr with | .ok _ => true | _ => false)

theorem readable_of_check {d : CifDic} (h : readableCheck d = true) : Readable d := by
  unfold readableCheck at h
  rw [Bool.and_eq_true, decide_eq_true_eq, List.all_eq_true] at h
  have h2 := h.2
  refine ⟨h.1, fun a ha => ?_, fun a ha => ?_, fun a ha => ?_⟩
  · have := h2 a ha
    simp only [Bool.and_eq_true, decide_eq_true_eq] at this
    exact this.1.1
  · have := h2 a ha
    simp only [Bool.and_eq_true, decide_eq_true_eq] at this
    exact this.1.2
  · have := (Bool.and_eq_true _ _ ▸ h2 a ha).2
    cases hb : d.getItem a with
    | error e => rw [hb] at this; cases this
    | ok b =>
      rw [hb] at this
      simp only [Bool.and_eq_true, Bool.or_eq_true, Bool.not_eq_true'] at this
      obtain ⟨⟨h1, h3⟩, h4⟩ := this
      refine ⟨b, rfl, fun hc => ?_, fun hc => ?_, fun hc => ?_⟩
      · rw [hc] at h1
        cases hv : b.getItem catAttr with
        | error e => rw [hv] at h1; simp at h1
        | ok v => rw [hv] at h1; cases v <;> simp at h1 ⊢
      · rw [hc] at h3
        cases hv : b.getItem scopeAttr with
        | error e => rw [hv] at h3; simp at h3
        | ok v => exact ⟨v, rfl⟩
      · rw [hc] at h4
        cases hv : b.getItem classAttr with
        | error e => rw [hv] at h4; simp at h4
        | ok v => exact ⟨v, rfl⟩

/-- A dictionary whose categories can be given ranks is acyclic. -/
theorem acyclic_of_rank {d : CifDic} (h : Readable d) (rank : Str → Nat) (hr : ∀ a ∈ d.keys, rank (catOf d a) < rank a) : Acyclic d := by
  have key : ∀ c x, lower c = c → c ≠ [] → Below d c x → rank c < rank x := by
    intro c x hl hc hb
    induction hb with
    | @child x h1 h2 =>
      obtain ⟨b, hb, hp⟩ := h.found x h1
      have := hr x h1
      rwa [(inCategory_iff hb hp (by rw [hl]; exact hc)).1 h2, hl] at this
    | @deeper y x hy _ h1 h2 ih =>
      obtain ⟨b, hb, hp⟩ := h.found x h1
      have := hr x h1
      have hyl := h.low y hy.key
      rw [(inCategory_iff hb hp (by rw [hyl]; exact h.named y hy.key)).1 h2, hyl] at this
      omega
  intro x hx
  exact absurd (key x x (h.low x hx.key) (h.named x hx.key) hx) (by omega)

end Verif.CifDic

namespace Verif.CifDic

/-- The dictionary of `cellFrames`. -/
def cellDic : CifDic :=
  letI := asciiFold
  { coll := cellColl, table := match defTable cellColl .ddlm with | .ok t => t | .error _ => [] }

theorem cellDic_readable : letI := asciiFold; Readable cellDic := by
  letI := asciiFold
  exact readable_of_check (by decide +kernel)

theorem cellDic_acyclic : letI := asciiFold; Acyclic cellDic := by
  letI := asciiFold
  exact acyclic_of_rank cellDic_readable
    (fun a => if a = "head".toList then 1 else if a = "cell".toList then 2 else if a ∈ cellDic.keys then 3 else 0) (by decide +kernel)

/-- The hypotheses are met, and the functions find what the theorems say. -/
example : letI := asciiFold
    Readable cellDic ∧ Acyclic cellDic ∧
    allChildren cellDic "Head".toList = .ok ["_cell.length_a".toList, "_cell.length_b".toList, "angle".toList, "cell".toList, "Head".toList] ∧
    danglers cellDic = .ok [] ∧ expandCategory cellDic ["cell".toList] = .ok ["_cell.length_a".toList, "_cell.length_b".toList] :=
  letI := asciiFold
  ⟨cellDic_readable, cellDic_acyclic, by decide +kernel, by decide +kernel, by decide +kernel⟩

/-- The dictionary with the given frames. -/
def framesDic (l : List (String × List (String × String))) : CifDic :=
  letI := asciiFold
  { coll := frames l, table := match defTable (frames l) .ddlm with | .ok t => t | .error _ => [] }

/-- C56 fails for a child that is not given in lower case, although names are otherwise compared ignoring case. -/
theorem C56_case_fails : letI := asciiFold
    isSemanticChild cellDic "HEAD".toList "_cell.length_b".toList = .ok true ∧
    isSemanticChild cellDic "HEAD".toList "_Cell.Length_B".toList = .ok false := by
  decide +kernel

/-- C56 needs acyclic categories: otherwise the search never ends. -/
theorem C56_cycle_fails : letI := asciiFold
    allChildren (framesDic [("A", [("_definition.id", "A"), ("_definition.scope", "Category"), ("_name.category_id", "B")]),
      ("B", [("_definition.id", "B"), ("_definition.scope", "Category"), ("_name.category_id", "A")])]) "a".toList = .error .depth := by
  decide +kernel

/-- C56: without a single `Head`, asking for danglers ends in a `TypeError` (the message of the `CifError` cannot be
formatted). -/
theorem C56_no_head_fails : letI := asciiFold
    danglers (framesDic [("A", [("_definition.id", "A"), ("_definition.scope", "Category"), ("_name.category_id", "B")])]) = .error .type := by
  decide +kernel

/-- A definition that names a category outside the dictionary is a dangler. -/
example : letI := asciiFold
    danglers (framesDic (cellFrames ++ [("x", [("_definition.id", "_x.y"), ("_name.category_id", "x")])])) = .ok ["_x.y".toList] := by
  decide +kernel

end Verif.CifDic
