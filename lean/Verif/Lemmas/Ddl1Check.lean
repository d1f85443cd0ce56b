import Verif.Lemmas.Ddl1Cat
/-! A check, by computation, that a file is regular; used for the examples. -/
set_option linter.unusedSectionVars false
namespace Verif.Ddl1
open CifDic Validate Spec
variable [CaseFold]

instance (b : Block) (a : Str) (v : PyVal) : Decidable (Has b a v) := by unfold Has; infer_instance
instance (b : Block) : Decidable (Overview b) := by unfold Overview; infer_instance

/-- The texts in a list. -/
def textsIn : List PyVal → List Str
  | [] => []
  | .str s :: r => s :: textsIn r
  | _ :: r => textsIn r

/-- The names of a block. -/
def namesIn (b : Block) : List Str :=
  if b.contains nameAttr then
    match b.getItem nameAttr with
    | .ok (.str n) => [n]
    | .ok (.list l) => textsIn l
    | _ => []
  else []

theorem textsIn_map (ns : List Str) : textsIn (ns.map .str) = ns := by
  induction ns with
  | nil => rfl
  | cons n r ih => rw [List.map_cons, textsIn, ih]

theorem NamesOf.eq {b : Block} {ns : List Str} (h : NamesOf b ns) : namesIn b = ns := by
  cases h with
  | one h => unfold namesIn; rw [if_pos h.1, h.2]
  | many h => unfold namesIn; rw [if_pos h.1, h.2]; exact textsIn_map ns

/-- The definitions: key, block and name. -/
def rows (c : Coll) : List (Str × Block × Str) :=
  c.dict.flatMap fun e => if e.1 = dicBlock then [] else (namesIn e.2).map fun n => (e.1, e.2, n)

/-- What a definition is found as. -/
def foundName (b : Block) (n : Str) : Str :=
  if Overview b then
    match middle n with
    | .ok i => i
    | .error _ => n
  else n

theorem FoundAs.eq {b : Block} {n i : Str} (h : FoundAs b n i) : foundName b n = i := by
  unfold foundName
  rcases h with ⟨ho, t, e, ht⟩ | ⟨ho, e⟩
  · rw [if_pos ho, e, middle_eq ht]
  · rw [if_neg ho, e]

/-- The category of a block. -/
def catIn (b : Block) : List Str :=
  if b.contains categoryAttr then
    match b.getItem categoryAttr with
    | .ok (.str s) => [s]
    | _ => []
  else []

/-- The categories definitions belong to, and those that are defined. -/
def usedCats (c : Coll) : List Str := (rows c).flatMap fun r => catIn r.2.1
def declaredCats (c : Coll) : List Str := (rows c).flatMap fun r => if Overview r.2.1 then [foundName r.2.1 r.2.2] else []

/-- What is checked. -/
def Checks (c : Coll) : Prop :=
  (∀ r ∈ rows c, lower r.2.2 ∉ c.lowerKeys) ∧
  (∀ r ∈ rows c, ∀ r' ∈ rows c, lower r.2.2 = lower r'.2.2 → r.1 = r'.1 ∧ r.2.2 = r'.2.2) ∧
  (∀ r ∈ rows c, ∀ r' ∈ rows c, lower (foundName r.2.1 r.2.2) = lower (foundName r'.2.1 r'.2.2) → r.1 = r'.1 ∧ r.2.2 = r'.2.2) ∧
  (∀ r ∈ rows c, lower (foundName r.2.1 r.2.2) ≠ dicBlock) ∧
  (∀ cat ∈ usedCats c, ∀ cat' ∈ usedCats c ++ declaredCats c, lower cat = lower cat' → cat = cat') ∧
  (∀ cat ∈ usedCats c, ∀ r ∈ rows c, ¬ Overview r.2.1 → lower cat ≠ lower r.2.2) ∧
  ∀ cat ∈ usedCats c, cat ∉ declaredCats c → lower cat ≠ dicBlock ∧ ∀ r ∈ rows c, lower (madeName cat) ≠ lower r.2.2

instance (c : Coll) : Decidable (Checks c) := by unfold Checks; infer_instance

theorem regular_of {c : Coll} (cons : c.Consistent) (flat : ∀ k, Coll.parentOf c k = none) (shows : c.scoping = .dictionary)
    (dic : ∃ m, dget c.dict dicBlock = some m ∧ m.Reachable ∧ (∀ l, m.maxName = some l → 75 ≤ l) ∧
      ∀ a ∈ [nameAttr, categoryAttr, rangeAttr, constructAttr, catIdAttr, codeAttr, codeConstructAttr, primitiveAttr], m.contains a = false)
    (defs : ∀ e ∈ c.dict, e.1 ≠ dicBlock → DefOk e.2) (h : Checks c) : Regular c := by
  obtain ⟨h1, h2, h3, h4, h5, h6, h7⟩ := h
  have hdef : ∀ k b, DefBlock c k b → DefOk b := fun k b hd => defs (k, b) (dget_mem hd.1) hd.2
  have row : ∀ {k b n}, Defines c k b n → (k, b, n) ∈ rows c := by
    rintro k b n ⟨⟨hb, hk⟩, ns, hn, hm⟩
    refine List.mem_flatMap.2 ⟨(k, b), dget_mem hb, ?_⟩
    rw [if_neg hk, hn.eq]
    exact List.mem_map.2 ⟨n, hm, rfl⟩
  have back : ∀ {r}, r ∈ rows c → Defines c r.1 r.2.1 r.2.2 := by
    intro r hr
    obtain ⟨⟨k, b⟩, he, hr⟩ := List.mem_flatMap.1 hr
    simp only at hr
    split at hr
    · cases hr
    · rename_i hk
      obtain ⟨n, hn, rfl⟩ := List.mem_map.1 hr
      have hb : DefBlock c k b := ⟨dget_of_mem cons.nd_dict he, hk⟩
      obtain ⟨ns, h1, _⟩ := (hdef k b hb).named
      exact ⟨hb, ns, h1, by rw [← h1.eq]; exact hn⟩
  have used : ∀ {cat}, Uses c cat → cat ∈ usedCats c := by
    rintro cat ⟨k, b, n, hd, hc⟩
    refine List.mem_flatMap.2 ⟨_, row hd, ?_⟩
    unfold catIn
    rw [if_pos hc.1, hc.2]
    simp
  have decl : ∀ {cat}, Declares c cat → cat ∈ declaredCats c := by
    rintro cat ⟨k, b, n, hd, ho, hf⟩
    refine List.mem_flatMap.2 ⟨_, row hd, ?_⟩
    simp [ho, hf.eq]
  have decl' : ∀ {cat}, cat ∈ declaredCats c → Declares c cat := by
    intro cat hc
    obtain ⟨r, hr, hc⟩ := List.mem_flatMap.1 hc
    split at hc
    · rename_i ho
      rw [List.mem_singleton] at hc
      have hd := back hr
      obtain ⟨ns, q1, _, q3⟩ := (hdef _ _ hd.1).named
      obtain ⟨_, ns', q4, q5⟩ := hd
      rw [q4.unique q1] at q5
      obtain ⟨_, _, i, hi⟩ := q3 _ q5
      rw [hi.eq] at hc
      subst hc
      exact ⟨_, _, _, back hr, ho, hi⟩
    · cases hc
  refine ⟨cons, flat, shows, dic, hdef, ?_, ?_, ?_, ?_, ?_, ?_, ?_⟩
  · exact fun k b n hd => h1 _ (row hd)
  · exact fun k b n k' b' n' hd hd' e => h2 _ (row hd) _ (row hd') e
  · intro k b n i k' b' n' i' hd hf hd' hf' e
    exact h3 _ (row hd) _ (row hd') (by simp only [hf.eq, hf'.eq]; exact e)
  · intro k b n i hd hf
    have := h4 _ (row hd)
    simp only [hf.eq] at this
    exact this
  · intro cat cat' hu hu' e
    refine h5 _ (used hu) _ ?_ e
    rcases hu' with hu' | hu'
    · exact List.mem_append.2 (.inl (used hu'))
    · exact List.mem_append.2 (.inr (decl hu'))
  · exact fun cat k b n hu hd ho => h6 _ (used hu) _ (row hd) ho
  · intro cat hm
    obtain ⟨q1, q2⟩ := h7 cat (used hm.1) (fun h => hm.2 (decl' h))
    exact ⟨q1, fun k b n hd => q2 _ (row hd)⟩

end Verif.Ddl1
