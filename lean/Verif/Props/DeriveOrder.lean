import Verif.Props.DeriveJoin
import Verif.Lemmas.BlockValue
/-! # C59 and C61: where derived values come from -/
set_option linter.unusedSectionVars false
namespace Verif.Derive
open Validate
variable [CaseFold]

/-! ## The table of aliases -/

/-- Whether a definition has aliases. -/
def listed (d : CifDic) (k : Str) : Bool :=
  match d.getItem k with
  | .ok b => b.contains aliasAttr
  | .error _ => false

/-- The aliases of a definition. -/
def listedVal (d : CifDic) (k : Str) : PyVal :=
  match d.attrI k aliasAttr with
  | .ok v => v
  | .error _ => .none

theorem aliasTable_eq {d : CifDic} (h : AliasLoops d) : ∃ t, aliasTable d = .ok t ∧ (dkeys t).Nodup ∧
    ∀ k v, (k, v) ∈ t ↔ k ∈ d.keys ∧ ∃ b l, d.getItem k = .ok b ∧ b.getItem aliasAttr = .ok (.list l) ∧ v = .list l := by
  have h1 : select (hasAliases d) d.keys = .ok (d.keys.filter (listed d)) := select_ok fun k hk => by
    obtain ⟨b, hb, _⟩ := h.found k hk
    simp only [hasAliases, listed, hb]
  have hval : ∀ k ∈ d.keys.filter (listed d), ∃ b l, d.getItem k = .ok b ∧ b.getItem aliasAttr = .ok (.list l) ∧
      d.attrI k aliasAttr = .ok (.list l) := fun k hk => by
    obtain ⟨hk, hl⟩ := List.mem_filter.1 hk
    obtain ⟨b, hb, hc⟩ := h.found k hk
    rw [listed, hb] at hl
    obtain ⟨l, hl⟩ := hc hl
    exact ⟨b, l, hb, hl, by rw [CifDic.attrI, hb]; exact hl⟩
  have h2 : mapE (aliasEntry d) (d.keys.filter (listed d)) = .ok ((d.keys.filter (listed d)).map fun k => (k, listedVal d k)) :=
    mapE_ok fun k hk => by
      obtain ⟨b, l, _, _, e⟩ := hval k hk
      simp only [aliasEntry, listedVal, e]
  have hk : dkeys ((d.keys.filter (listed d)).map fun k => (k, listedVal d k)) = d.keys.filter (listed d) := by
    unfold dkeys
    rw [List.map_map]
    exact List.map_id _
  have hn : (dkeys ((d.keys.filter (listed d)).map fun k => (k, listedVal d k))).Nodup := by
    rw [hk]
    exact h.once.filter _
  refine ⟨_, by simp only [aliasTable, h1, h2]; rfl, nodup_dkeys_dupdate _ [] List.nodup_nil, fun k v => ?_⟩
  have hm : (k, v) ∈ dupdate [] ((d.keys.filter (listed d)).map fun k => (k, listedVal d k)) ↔
      (k, v) ∈ (d.keys.filter (listed d)).map fun k => (k, listedVal d k) := by
    constructor
    · intro hm
      have := dget_of_mem (nodup_dkeys_dupdate _ [] List.nodup_nil) hm
      rw [dget_dupdate _ _ hn] at this
      simp only [dget, Option.or_none] at this
      exact dget_mem this
    · intro hm
      refine dget_mem ?_
      rw [dget_dupdate _ _ hn, dget_of_mem hn hm]
      rfl
  rw [hm]
  constructor
  · intro hm
    obtain ⟨k', hk', e⟩ := List.mem_map.1 hm
    injection e with e1 e2
    subst e1 e2
    obtain ⟨b, l, hb, hl, e⟩ := hval k' hk'
    exact ⟨(List.mem_filter.1 hk').1, b, l, hb, hl, by simp only [listedVal, e]⟩
  · rintro ⟨hk', b, l, hb, hl, rfl⟩
    have hc : b.contains aliasAttr = true := contains_of_ok hl
    refine List.mem_map.2 ⟨k, List.mem_filter.2 ⟨hk', by rw [listed, hb]; exact hc⟩, ?_⟩
    simp only [listedVal, CifDic.attrI, hb, hl]

/-- C61: the table of aliases can always be built, and looking for a name among the aliases finds exactly the definitions that
list it. Missing from the full claim: a single alias given outside a loop (C61_single_fails) and names in other capitals
(C61_case_fails). -/
theorem C61_reverse_partial {d : CifDic} (h : AliasLoops d) : ∃ t, aliasTable d = .ok t ∧ ∀ (E : Engine), E.aliases = t → ∀ a,
    ∃ l, aliasOf E a = .ok l ∧ (dkeys l).Nodup ∧ ∀ k, k ∈ dkeys l ↔ Lists d k a := by
  obtain ⟨t, ht, hn, hm⟩ := aliasTable_eq h
  refine ⟨t, ht, fun E hE a => ?_⟩
  have hs : aliasOf E a = .ok (t.filter fun p => match p.2 with | .list l => decide (PyVal.str a ∈ l) | _ => false) := by
    unfold aliasOf
    rw [hE]
    refine select_ok fun p hp => ?_
    obtain ⟨k, v⟩ := p
    obtain ⟨_, b, l, _, _, rfl⟩ := (hm k v).1 hp
    rfl
  refine ⟨_, hs, ?_, fun k => ?_⟩
  · unfold dkeys at hn ⊢
    exact (List.filter_sublist.map _).nodup hn
  · unfold dkeys
    rw [List.mem_map]
    constructor
    · rintro ⟨⟨k', v⟩, hp, rfl⟩
      obtain ⟨hp, hc⟩ := List.mem_filter.1 hp
      obtain ⟨hk, b, l, hb, hl, rfl⟩ := (hm k' v).1 hp
      exact ⟨hk, b, l, hb, hl, by simpa using hc⟩
    · rintro ⟨hk, b, l, hb, hl, hc⟩
      exact ⟨(k, .list l), List.mem_filter.2 ⟨(hm k _).2 ⟨hk, b, l, hb, hl, rfl⟩, by simpa using hc⟩, rfl⟩

/-- C61: the aliases of a definition are the ones it lists. Missing from the full claim: as for `C61_reverse_partial`. -/
theorem C61_forward_partial {d : CifDic} (h : AliasLoops d) : ∃ t, aliasTable d = .ok t ∧ ∀ (E : Engine), E.aliases = t → ∀ k,
    ∃ l, aliasesOf E k = .ok l ∧ ∀ a, PyVal.str a ∈ l ↔ Lists d k a := by
  obtain ⟨t, ht, hn, hm⟩ := aliasTable_eq h
  refine ⟨t, ht, fun E hE k => ?_⟩
  unfold aliasesOf
  rw [hE]
  cases hg : dget t k with
  | none =>
    refine ⟨[], rfl, fun a => ⟨(fun h => by cases h), ?_⟩⟩
    rintro ⟨hk, b, l, hb, hl, _⟩
    have := dget_of_mem hn ((hm k _).2 ⟨hk, b, l, hb, hl, rfl⟩)
    rw [hg] at this
    cases this
  | some v =>
    obtain ⟨hk, b, l, hb, hl, rfl⟩ := (hm k v).1 (dget_mem hg)
    refine ⟨l, rfl, fun a => ⟨fun h => ⟨hk, b, l, hb, hl, h⟩, ?_⟩⟩
    rintro ⟨_, b', l', hb', hl', hc⟩
    rw [hb] at hb'
    injection hb' with hb'
    subst hb'
    rw [hl] at hl'
    injection hl' with hl'
    injection hl' with hl'
    subst hl'
    exact hc

/-! ## Derivations -/

theorem derive_run {E : Engine} {n : Nat} {key : Str} {store : Bool} {allow : Option Bool} {s s2 : St} {r : Except PyErr PyVal}
    (hk : key ∉ s.called) (h : run (getItem E (derive E n)) (fun c => derive E n c true none) (deriveBody E key store (uses allow s))
      (enter key allow s) = some (s2, r)) :
    derive E (n + 1) key store allow s =
      some ({ s2 with called := s.called }, if r = .error .derivation ∧ s.called = [] then .error .failure else r) := by
  have hs := run_keeps (getItem_keeps fun k st a => derive_keeps E n k st a) (fun c => derive_keeps E n c true none) _ _ _ _ h
  have hc : s2.called = s.called ++ [key] := hs.1
  rw [derive]
  dsimp only
  unfold track
  rw [if_neg hk]
  dsimp only
  rw [h]
  simp only [leave, hc, List.dropLast_concat, List.length_append, List.length_cons, List.length_nil]
  congr 2
  have : (s.called.length + (0 + 1) = 1) ↔ s.called = [] := by
    rw [← List.length_eq_zero_iff]
    omega
  simp only [this]

theorem aliasesOf_mem {E : Engine} (hA : AliasLists E) {k : Str} {l : List Str} (h : (k, PyVal.list (l.map .str)) ∈ E.aliases) :
    aliasesOf E k = .ok (l.map .str) := by
  unfold aliasesOf
  rw [dget_of_mem hA.once h]
  rfl

theorem uses_iff {allow : Option Bool} {s : St} : uses allow s = true ↔ Allowed allow s := by
  unfold uses Allowed
  by_cases h : s.called = []
  · simp only [h, if_true, ne_eq, not_true_eq_false, false_and, or_false, true_and]
    cases allow with
    | none => simp [given]
    | some a => cases a <;> simp [given]
  · simp [h]

/-- C59: an outermost call that says whether defaults are allowed decides it for every call made during it: whatever has been read and
derived since it began, a further call may use defaults exactly when the outermost one may. -/
theorem C59_choice {E : Engine} {n : Nat} {key : Str} {a : Bool} {s s2 : St} {p : Prog} {r : Except PyErr PyVal} (hs : s.called = [])
    (h : run (getItem E (derive E n)) (fun c => derive E n c true none) p (enter key (some a) s) = some (s2, r)) (allow : Option Bool) :
    (Allowed allow s2 ↔ a = true) ∧ (Allowed (some a) s ↔ a = true) := by
  obtain ⟨h1, -, h3⟩ := run_keeps (getItem_keeps fun k st a => derive_keeps E n k st a) (fun c => derive_keeps E n c true none) _ _ _ _ h
  have h1 : s2.called = s.called ++ [key] := h1
  have h3 : s2.useDefaults = (enter key (some a) s).useDefaults := h3 (by simp [enter])
  have h4 : (enter key (some a) s).useDefaults = a := by simp [enter, hs, given]
  rw [h4] at h3
  constructor
  · simp [Allowed, h1, h3]
  · simp [Allowed, hs]

/-- Where the claim fails: when the outermost call does not say, it may use defaults and the calls made during it may not. -/
theorem C59_unsaid_fails {E : Engine} {n : Nat} {key : Str} {s s2 : St} {p : Prog} {r : Except PyErr PyVal} (hs : s.called = [])
    (h : run (getItem E (derive E n)) (fun c => derive E n c true none) p (enter key none s) = some (s2, r)) (allow : Option Bool) :
    ¬ Allowed allow s2 ∧ Allowed none s := by
  obtain ⟨h1, -, h3⟩ := run_keeps (getItem_keeps fun k st a => derive_keeps E n k st a) (fun c => derive_keeps E n c true none) _ _ _ _ h
  have h1 : s2.called = s.called ++ [key] := h1
  have h3 : s2.useDefaults = (enter key none s).useDefaults := h3 (by simp [enter])
  have h4 : (enter key none s).useDefaults = false := by simp [enter, hs, given]
  rw [h4] at h3
  constructor
  · simp [Allowed, h1, h3]
  · simp [Allowed, hs]

theorem filter_first' {b : Block} {pre post : List Str} {a : Str} (ha : b.contains a = true) (hp : ∀ x ∈ pre, b.contains x = false) :
    ∃ r, ((pre ++ a :: post).map PyVal.str).filter (inBlock b) = .str a :: r := by
  refine ⟨(post.map PyVal.str).filter (inBlock b), ?_⟩
  have : (pre.map PyVal.str).filter (inBlock b) = [] := by
    rw [List.filter_eq_nil_iff]
    intro x hx
    obtain ⟨y, hy, rfl⟩ := List.mem_map.1 hx
    simp only [inBlock, hp y hy]
    exact Bool.false_ne_true
  rw [List.map_append, List.filter_append, this, List.nil_append, List.map_cons, List.filter_cons]
  simp only [inBlock, ha, if_true]

theorem filter_first {E : Engine} (hA : AliasLists E) {b : Block} {k a : Str} (h : FirstAlias E b k a) :
    ∃ l r, aliasesOf E k = .ok l ∧ l.filter (inBlock b) = .str a :: r := by
  obtain ⟨pre, post, hm, ha, hp⟩ := h
  obtain ⟨r, hr⟩ := filter_first' (post := post) ha hp
  exact ⟨_, r, aliasesOf_mem hA hm, hr⟩

theorem filter_none {E : Engine} (hA : AliasLists E) {b : Block} {k : Str} (h : NoAlias E b k) :
    ∃ l, aliasesOf E k = .ok l ∧ l.filter (inBlock b) = [] := by
  cases hg : dget E.aliases k with
  | none => exact ⟨[], by simp only [aliasesOf, hg], rfl⟩
  | some v =>
    obtain ⟨l, rfl⟩ := hA.lists k v (dget_mem hg)
    refine ⟨_, aliasesOf_mem hA (dget_mem hg), ?_⟩
    rw [List.filter_eq_nil_iff]
    intro x hx
    obtain ⟨y, hy, rfl⟩ := List.mem_map.1 hx
    simp only [inBlock, h y ⟨l, dget_mem hg, hy⟩]
    exact Bool.false_ne_true

theorem aliasOf_ok {E : Engine} (hA : AliasLists E) (a : Str) :
    ∃ l, aliasOf E a = .ok l ∧ (dkeys l).Nodup ∧ ∀ p, p ∈ l ↔ p ∈ E.aliases ∧ IsAlias E p.1 a := by
  refine ⟨E.aliases.filter fun p => match p.2 with | .list l => decide (PyVal.str a ∈ l) | _ => false, select_ok fun p hp => ?_, ?_,
    fun p => ?_⟩
  · obtain ⟨k, v⟩ := p
    obtain ⟨l, rfl⟩ := hA.lists k v hp
    rfl
  · unfold dkeys
    exact (List.filter_sublist.map _).nodup hA.once
  · obtain ⟨k, v⟩ := p
    rw [List.mem_filter]
    constructor
    · rintro ⟨hp, hc⟩
      obtain ⟨l, rfl⟩ := hA.lists k v hp
      exact ⟨hp, l, hp, by simpa using hc⟩
    · rintro ⟨hp, l, hl, hc⟩
      have e1 := dget_of_mem hA.once hp
      rw [dget_of_mem hA.once hl] at e1
      injection e1 with e1
      subst e1
      exact ⟨hp, by simpa using hc⟩

/-- C59: an item that is in the block under one of its aliases has the value of the first of them that is there, converted as the
definition of the item says; methods and defaults are not used. -/
theorem C59_alias {E : Engine} {n : Nat} {key a : Str} {store : Bool} {allow : Option Bool} {s s1 : St} {w v : PyVal}
    (hA : AliasLists E) (hk : key ∉ s.called) (hf : FirstAlias E s.block key a)
    (hr : getItem E (derive E n) a (enter key allow s) = some (s1, .ok w)) (hv : changeType E key w = .ok v) :
    derive E (n + 1) key store allow s = some ({ s1 with called := s.called }, .ok v) := by
  obtain ⟨l, r, h1, h2⟩ := filter_first hA hf
  have h2' : l.filter (inBlock (enter key allow s).block) = .str a :: r := h2
  have := derive_run (E := E) (n := n) (store := store) (allow := allow) (s2 := s1) (r := .ok v) hk (by
    unfold deriveBody
    rw [run]
    simp only [lift, h1, h2', get, run, hr, andThen, hv])
  rw [this]
  simp

/-- C59: with values read as they stand, the block is left as it is: the value of the alias is not stored under the name asked
for. -/
theorem C59_alias_unchanged {E : Engine} {n : Nat} {key a : Str} {store : Bool} {allow : Option Bool} {s : St} {w v : PyVal}
    (hA : AliasLists E) (hk : key ∉ s.called) (hf : FirstAlias E s.block key a) (hp : s.provide = false)
    (hr : s.block.getItem a = .ok w) (hv : changeType E key w = .ok v) :
    ∃ s', derive E (n + 1) key store allow s = some (s', .ok v) ∧ s'.block = s.block := by
  have hg : getItem E (derive E n) a (enter key allow s) = some (enter key allow s, .ok w) := by
    unfold Block.getItem at hr
    split at hr
    · cases hr
    · rename_i hne
      split at hr
      · cases hr
      · rename_i v f he
        simp only [Except.ok.injEq] at hr
        subst hr
        exact getItem_raw hne he hp
  exact ⟨_, C59_alias hA hk hf hg hv, rfl⟩

theorem aliasOf_single {E : Engine} (hA : AliasLists E) {k a : Str} (hk : IsAlias E k a) (hu : ∀ k', IsAlias E k' a → k' = k) :
    ∃ l : List Str, (k, PyVal.list (l.map .str)) ∈ E.aliases ∧ aliasOf E a = .ok [(k, .list (l.map .str))] := by
  obtain ⟨l, h1, h2, h3⟩ := aliasOf_ok hA a
  obtain ⟨al, hm, hc⟩ := hk
  refine ⟨al, hm, ?_⟩
  rw [h1]
  have hin : (k, PyVal.list (al.map .str)) ∈ l := (h3 _).2 ⟨hm, al, hm, hc⟩
  have hall : ∀ p ∈ l, p.1 = k := fun p hp => hu _ ((h3 p).1 hp).2
  match l, hin, hall, h2 with
  | [p], hin, _, _ => rw [List.mem_singleton.1 hin]
  | p :: q :: r, _, hall, h2 =>
    exfalso
    simp only [dkeys, List.map_cons, List.nodup_cons, List.mem_cons] at h2
    exact h2.1 (.inl ((hall p (by simp)).trans (hall q (by simp)).symm))

/-- C59: a name that is an alias in exactly one definition is looked up under the name of the definition. -/
theorem C59_definition {E : Engine} {n : Nat} {key k : Str} {store : Bool} {allow : Option Bool} {s s1 : St} {w v : PyVal}
    (hA : AliasLists E) (hk : key ∉ s.called) (hno : NoAlias E s.block key) (hal : IsAlias E k key)
    (hu : ∀ k', IsAlias E k' key → k' = k) (hin : s.block.contains k = true)
    (hr : getItem E (derive E n) k (enter key allow s) = some (s1, .ok w)) (hv : changeType E k w = .ok v) :
    derive E (n + 1) key store allow s = some ({ s1 with called := s.called }, .ok v) := by
  obtain ⟨l, h1, h2⟩ := filter_none hA hno
  obtain ⟨al, hm, ha⟩ := aliasOf_single hA hal hu
  have h2' : l.filter (inBlock (enter key allow s).block) = [] := h2
  have hin' : (enter key allow s).block.contains k = true := hin
  have := derive_run (E := E) (n := n) (store := store) (allow := allow) (s2 := s1) (r := .ok v) hk (by
    unfold deriveBody
    rw [run]
    simp only [lift, h1, h2', ha, viaDefinition, hin', if_true, get, run, hr, andThen, hv])
  rw [this]
  simp

/-- C59: or, if it is not there, under the first of the other aliases that is. -/
theorem C59_other_alias {E : Engine} {n : Nat} {key k a : Str} {store : Bool} {allow : Option Bool} {s s1 : St} {w v : PyVal}
    (hA : AliasLists E) (hk : key ∉ s.called) (hno : NoAlias E s.block key) (hal : IsAlias E k key)
    (hu : ∀ k', IsAlias E k' key → k' = k) (hin : s.block.contains k = false) (hf : FirstAlias E s.block k a)
    (hr : getItem E (derive E n) a (enter key allow s) = some (s1, .ok w)) (hv : changeType E k w = .ok v) :
    derive E (n + 1) key store allow s = some ({ s1 with called := s.called }, .ok v) := by
  obtain ⟨l, h1, h2⟩ := filter_none hA hno
  obtain ⟨al, hm, ha⟩ := aliasOf_single hA hal hu
  have h2' : l.filter (inBlock (enter key allow s).block) = [] := h2
  have hin' : (enter key allow s).block.contains k = false := hin
  obtain ⟨l', r, g1, g2⟩ := filter_first hA hf
  rw [aliasesOf_mem hA hm] at g1
  injection g1 with g1
  subst g1
  have g2' : (al.map PyVal.str).filter (inBlock (enter key allow s).block) = .str a :: r := g2
  have := derive_run (E := E) (n := n) (store := store) (allow := allow) (s2 := s1) (r := .ok v) hk (by
    unfold deriveBody
    rw [run]
    simp only [lift, h1, h2', ha, viaDefinition, hin', Bool.false_eq_true, if_false, Block.pyIter, g2', get, run, hr, andThen, hv])
  rw [this]
  simp

/-- C59: a name that is an alias in several definitions is refused, and nothing is changed. -/
theorem C59_ambiguous {E : Engine} {n : Nat} {key k1 k2 : Str} {store : Bool} {allow : Option Bool} {s : St}
    (hA : AliasLists E) (hk : key ∉ s.called) (hno : NoAlias E s.block key) (h1 : IsAlias E k1 key) (h2 : IsAlias E k2 key)
    (hne : k1 ≠ k2) :
    ∃ s', derive E (n + 1) key store allow s = some (s', .error .cif) ∧ s'.block = s.block ∧ s'.called = s.called := by
  obtain ⟨l, e1, e2⟩ := filter_none hA hno
  have e2' : l.filter (inBlock (enter key allow s).block) = [] := e2
  obtain ⟨al, e3, _, e4⟩ := aliasOf_ok hA key
  have m1 : ∃ v, (k1, v) ∈ al := by
    obtain ⟨x, hx, hc⟩ := h1
    exact ⟨_, (e4 (k1, _)).2 ⟨hx, x, hx, hc⟩⟩
  have m2 : ∃ v, (k2, v) ∈ al := by
    obtain ⟨x, hx, hc⟩ := h2
    exact ⟨_, (e4 (k2, _)).2 ⟨hx, x, hx, hc⟩⟩
  have hrun : run (getItem E (derive E n)) (fun c => derive E n c true none) (deriveBody E key store (uses allow s))
      (enter key allow s) = some (enter key allow s, .error .cif) := by
    unfold deriveBody
    rw [run]
    simp only [lift, e1, e2', e3]
    obtain ⟨v1, m1⟩ := m1
    obtain ⟨v2, m2⟩ := m2
    match al, m1, m2 with
    | [p], m1, m2 =>
      rw [List.mem_singleton] at m1 m2
      rw [← m1] at m2
      injection m2 with m2
      exact absurd m2.symm hne
    | p :: q :: r, _, _ => rfl
  have := derive_run (E := E) (n := n) (store := store) (allow := allow) hk hrun
  rw [this]
  exact ⟨{ enter key allow s with called := s.called }, by simp, rfl, rfl⟩

/-! ## Methods and defaults -/

theorem tryMethods_run {ask der : Str → St → Res} {E : Engine} {fs : List PyVal} {s s' : St} {o : Option PyVal}
    (h : Tried ask der E.exec fs s s' o) (k : PyVal → Prog) : run ask der (tryMethods E fs k) s = run ask der (k (o.getD .none)) s' := by
  induction h with
  | none s => rfl
  | found h1 h2 =>
    rw [tryMethods, run]
    simp only [Bool.true_or, h1, h2, if_false, Option.getD_some]
  | next h1 h2 _ ih =>
    rw [tryMethods, run]
    simp only [Bool.true_or, h1]
    rcases h2 with rfl | rfl | rfl
    · simp only [if_true]; exact ih
    · simp only [quiet, if_true]; exact ih
    · simp only [quiet, if_true]; exact ih

theorem body_run {ask der : Str → St → Res} {E : Engine} {s : St} {key cat : Str} {cb : Block} {has : List Str} {fs : List PyVal}
    {dflt idx : PyVal} {store allow : Bool} (hA : AliasLists E) (hU : Underived E s.block key cat cb has fs dflt idx) :
    run ask der (deriveBody E key store allow) s =
      run ask der (tryMethods E fs (orDefault E key (.str cat) has dflt idx store allow)) s := by
  obtain ⟨l, e1, e2⟩ := filter_none hA hU.alias_
  obtain ⟨al, e3, _, e4⟩ := aliasOf_ok hA key
  have e3' : al = [] := List.eq_nil_iff_forall_not_mem.2 fun p hp => hU.noAlias p.1 ((e4 p).1 hp).2
  subst e3'
  obtain ⟨names, e5, e6⟩ := hU.items
  have hcomp : run ask der (compute E key (.str cat) names dflt idx store allow) s =
      run ask der (tryMethods E fs (orDefault E key (.str cat) has dflt idx store allow)) s := by
    unfold compute
    rw [run]
    rcases hU.methods with ⟨rfl, h⟩ | ⟨hne, h⟩
    · simp only [lift, e6, h]
      rfl
    · simp only [lift, e6, h]
      have : truthy (.list fs) = true := by simp [truthy, hne]
      rw [if_pos this]
      rfl
  unfold deriveBody
  rw [run]
  simp only [lift, e1, e2, e3]
  unfold deriveRest
  simp only [lift, hU.cat_, e5]
  rw [run]
  simp only [e6, hU.default_, hU.index_]
  split
  · rename_i h0
    obtain ⟨c1, c2, c3⟩ := hU.empty h0
    have hdef : defn E (.str cat) = .ok cb := hU.def_
    unfold populate
    simp only [lift, c3, hdef, c1, Bool.false_eq_true, if_false]
    unfold fromPulled
    rw [if_neg (by simp)]
    unfold catMethod
    rw [c2]
    unfold fromCat
    simp only [lift, pyIn, dkeys, List.map_nil, List.not_mem_nil, decide_false, Bool.false_eq_true, if_false]
    exact hcomp
  · exact hcomp

/-- Storing a value that is not an empty list. -/
theorem save_run {ask der : Str → St → Res} {E : Engine} {key : Str} {cat v : PyVal} {looped dflt : Bool} {s : St} {b' : Block} {w : PyVal}
    (hi : E.dic.attrD key CifDic.scopeAttr itemScope = .ok itemScope) (h1 : v ≠ .list []) (h2 : v ≠ .slist [])
    (h : (if looped then storeLooped E key v dflt else storeUnlooped key v) s.block = (b', .ok w)) :
    run ask der (save E key cat looped true dflt v) s = some ({ s with block := b' }, .ok w) := by
  unfold save
  rw [if_pos (by simp [h1, h2])]
  simp only [lift, hi, if_true]
  cases looped with
  | true =>
    simp only [if_true] at h ⊢
    rw [run, h]
    rfl
  | false =>
    simp only [Bool.false_eq_true, if_false] at h ⊢
    rw [run, h]
    rfl

theorem storeUnlooped_ok {key : Str} {v : PyVal} {b b' : Block} (h : b.setItem key v = (b', .ok ())) :
    storeUnlooped key v b = (b', .ok v) := by
  simp only [storeUnlooped, h]

/-- C59: without aliases, the value is that of the first method that has one, even when there is a default. An item outside loops
is stored under its name. -/
theorem C59_method {E : Engine} {n : Nat} {key cat : Str} {allow : Option Bool} {s s1 : St} {cb b' : Block} {has : List Str}
    {fs : List PyVal} {dflt v c : PyVal} (hA : AliasLists E) (hk : key ∉ s.called)
    (hU : Underived E s.block key cat cb has fs dflt (.str [])) (hc : CifDic.getD cb CifDic.classAttr (.str "Set".toList) = .ok c)
    (hset : c ≠ loopClass) (ht : Tried (getItem E (derive E n)) (fun c => derive E n c true none) E.exec fs (enter key allow s) s1 (some v))
    (hv : v ≠ .none) (h1 : v ≠ .list []) (h2 : v ≠ .slist []) (hs : s1.block.setItem key v = (b', .ok ())) :
    derive E (n + 1) key true allow s = some ({ s1 with block := b', called := s.called }, .ok v) ∧ b'.getItem key = .ok v := by
  have hdef : defn E (.str cat) = .ok cb := hU.def_
  have hrun : run (getItem E (derive E n)) (fun c => derive E n c true none) (deriveBody E key true (uses allow s))
      (enter key allow s) = some ({ s1 with block := b' }, .ok v) := by
    rw [body_run hA (s := enter key allow s) hU, tryMethods_run ht]
    unfold orDefault conclude adjust
    simp only [Option.getD_some, decide_eq_false hv, Bool.false_and, Bool.false_eq_true, if_false, hv, lift, hdef, hc, hset]
    exact save_run hU.item h1 h2 (by simpa using storeUnlooped_ok hs)
  have := derive_run hk hrun
  refine ⟨by rw [this]; simp, ?_⟩
  have hkey := (Block.setItem_ok hs).1
  exact Block.lookup_some.1 (by rw [Block.lookup_val _ _ hkey, Block.val_setItem hs, if_pos rfl])

/-- C59: if the value is not to be stored, the block is left as the methods leave it. -/
theorem C59_method_unstored {E : Engine} {n : Nat} {key cat : Str} {allow : Option Bool} {s s1 : St} {cb : Block} {has : List Str}
    {fs : List PyVal} {dflt v c : PyVal} (hA : AliasLists E) (hk : key ∉ s.called)
    (hU : Underived E s.block key cat cb has fs dflt (.str [])) (hc : CifDic.getD cb CifDic.classAttr (.str "Set".toList) = .ok c)
    (hset : c ≠ loopClass) (ht : Tried (getItem E (derive E n)) (fun c => derive E n c true none) E.exec fs (enter key allow s) s1 (some v))
    (hv : v ≠ .none) :
    derive E (n + 1) key false allow s = some ({ s1 with called := s.called }, .ok v) := by
  have hdef : defn E (.str cat) = .ok cb := hU.def_
  have hrun : run (getItem E (derive E n)) (fun c => derive E n c true none) (deriveBody E key false (uses allow s))
      (enter key allow s) = some (s1, .ok v) := by
    rw [body_run hA (s := enter key allow s) hU, tryMethods_run ht]
    unfold orDefault conclude adjust
    simp only [Option.getD_some, decide_eq_false hv, Bool.false_and, Bool.false_eq_true, if_false, hv, lift, hdef, hc, hset]
    unfold save
    rw [Bool.and_false, if_neg Bool.false_ne_true]
    rfl
  rw [derive_run hk hrun]
  simp

/-- C59: when no method has a value and defaults are allowed, the value is the default, converted, and it is stored. -/
theorem C59_default {E : Engine} {n : Nat} {key cat : Str} {allow : Option Bool} {s s1 : St} {cb b' : Block} {has : List Str}
    {fs : List PyVal} {dflt v c : PyVal} (hA : AliasLists E) (hk : key ∉ s.called) (hu : Allowed allow s)
    (hU : Underived E s.block key cat cb has fs dflt (.str [])) (hc : CifDic.getD cb CifDic.classAttr (.str "Set".toList) = .ok c)
    (hset : c ≠ loopClass) (ht : Tried (getItem E (derive E n)) (fun c => derive E n c true none) E.exec fs (enter key allow s) s1 none)
    (hd : truthy dflt = true) (hcv : changeType E key dflt = .ok v)
    (hv : v ≠ .none) (h1 : v ≠ .list []) (h2 : v ≠ .slist []) (hs : s1.block.setItem key v = (b', .ok ())) :
    derive E (n + 1) key true allow s = some ({ s1 with block := b', called := s.called }, .ok v) ∧ b'.getItem key = .ok v := by
  have hdef : defn E (.str cat) = .ok cb := hU.def_
  have hrun : run (getItem E (derive E n)) (fun c => derive E n c true none) (deriveBody E key true (uses allow s))
      (enter key allow s) = some ({ s1 with block := b' }, .ok v) := by
    rw [body_run hA (s := enter key allow s) hU, tryMethods_run ht, uses_iff.2 hu]
    unfold orDefault defaultValue conclude adjust
    simp only [Option.getD_none, decide_true, Bool.true_and, if_true, hd, hcv, hv, if_false, lift, hdef, hc, hset]
    exact save_run hU.item h1 h2 (by simpa using storeUnlooped_ok hs)
  have := derive_run hk hrun
  refine ⟨by rw [this]; simp, ?_⟩
  have hkey := (Block.setItem_ok hs).1
  exact Block.lookup_some.1 (by rw [Block.lookup_val _ _ hkey, Block.val_setItem hs, if_pos rfl])

/-- C59: when no method has a value, and defaults are not allowed or there is none, the derivation fails and stores nothing. -/
theorem C59_underivable {E : Engine} {n : Nat} {key cat : Str} {store : Bool} {allow : Option Bool} {s s1 : St} {cb : Block} {has : List Str}
    {fs : List PyVal} {dflt : PyVal} (hA : AliasLists E) (hk : key ∉ s.called)
    (hU : Underived E s.block key cat cb has fs dflt (.str []))
    (ht : Tried (getItem E (derive E n)) (fun c => derive E n c true none) E.exec fs (enter key allow s) s1 none)
    (hd : ¬ Allowed allow s ∨ truthy dflt = false) :
    derive E (n + 1) key store allow s =
      some ({ s1 with called := s.called }, .error (if s.called = [] then .failure else .derivation)) := by
  have hrun : run (getItem E (derive E n)) (fun c => derive E n c true none) (deriveBody E key store (uses allow s))
      (enter key allow s) = some (s1, .error .derivation) := by
    rw [body_run hA (s := enter key allow s) hU, tryMethods_run ht]
    unfold orDefault
    cases hu : uses allow s with
    | false =>
      simp only [Option.getD_none, Bool.and_false, Bool.false_eq_true, if_false]
      rfl
    | true =>
      have hd : truthy dflt = false := by
        rcases hd with h | h
        · exact absurd (uses_iff.1 hu) h
        · exact h
      have he : truthy (.str []) = false := rfl
      simp only [Option.getD_none, decide_true, Bool.true_and, if_true, defaultValue, hd, he, Bool.false_eq_true, if_false]
      rfl
  rw [derive_run hk hrun]
  by_cases h : s.called = [] <;> simp [h]

theorem lowerAll_str (l : List Str) : lowerAll (l.map .str) = .ok ((l.map lower).map .str) := by
  unfold lowerAll
  induction l with
  | nil => rfl
  | cons a r ih => simp only [List.map_cons, mapE, lowerVal, CifDic.lowered, ih]

theorem indexOf_first {pre post : List Str} {a s : Str} (h : lower a = lower s) (hp : ∀ x ∈ pre, lower x ≠ lower s) :
    indexOf ((((pre ++ a :: post).map lower)).map .str) (.str (lower s)) = .ok pre.length := by
  unfold indexOf
  have hm : PyVal.str (lower s) ∈ ((pre ++ a :: post).map lower).map PyVal.str := by
    simp only [List.map_append, List.map_cons, h]
    simp
  rw [if_pos hm]
  congr 1
  induction pre with
  | nil => simp [h]
  | cons x r ih =>
    have hx : (PyVal.str (lower x) == PyVal.str (lower s)) = false := by
      rw [beq_eq_false_iff_ne]
      intro e
      injection e with e
      exact hp x (by simp) e
    have hr : PyVal.str (lower s) ∈ ((r ++ a :: post).map lower).map PyVal.str := by
      simp only [List.map_append, List.map_cons, h]
      simp
    rw [List.cons_append, List.map_cons, List.map_cons, List.idxOf_cons, hx]
    simp only [cond_false, List.length_cons]
    rw [ih (fun y hy => hp y (by simp [hy])) hr]

/-- C59: a default may depend on the value of another item, by a table whose index is compared ignoring case. -/
theorem C59_index_default {E : Engine} {n : Nat} {key cat : Str} {allow : Option Bool} {s s1 s2 : St} {cb b' : Block} {has : List Str}
    {fs : List PyVal} {dflt v w c contents : PyVal} {idx at_ : Str} {index vals : List PyVal} (hA : AliasLists E) (hk : key ∉ s.called)
    (hu : Allowed allow s) (hU : Underived E s.block key cat cb has fs dflt (.str idx))
    (hc : CifDic.getD cb CifDic.classAttr (.str "Set".toList) = .ok c) (hset : c ≠ loopClass)
    (ht : Tried (getItem E (derive E n)) (fun c => derive E n c true none) E.exec fs (enter key allow s) s1 none)
    (hd : truthy dflt = false) (hi : idx ≠ []) (hix : E.dic.attrI key indexAttr = .ok (.list index))
    (hvs : E.dic.attrI key indexValueAttr = .ok (.list vals))
    (hr : getItem E (derive E n) idx s1 = some (s2, .ok (.str at_)))
    (hct : E.dic.attrI idx contentsAttr = .ok contents) (hcl : contents ∈ caseless)
    (hf : FirstIndex index vals at_ w) (hcv : changeType E key w = .ok v)
    (hv : v ≠ .none) (h1 : v ≠ .list []) (h2 : v ≠ .slist []) (hs : s2.block.setItem key v = (b', .ok ())) :
    derive E (n + 1) key true allow s = some ({ s2 with block := b', called := s.called }, .ok v) ∧ b'.getItem key = .ok v := by
  have hdef : defn E (.str cat) = .ok cb := hU.def_
  have hct' : attrOf E (.str idx) contentsAttr = .ok contents := hct
  have htr : truthy (.str idx) = true := by simp [truthy, hi]
  obtain ⟨pre, post, a, rfl, e1, e2, e3⟩ := hf
  have hnth : nth vals pre.length = .ok w := by simp only [nth, e3]
  have hrun : run (getItem E (derive E n)) (fun c => derive E n c true none) (deriveBody E key true (uses allow s))
      (enter key allow s) = some ({ s2 with block := b' }, .ok v) := by
    rw [body_run hA (s := enter key allow s) hU, tryMethods_run ht, uses_iff.2 hu]
    unfold orDefault defaultValue
    simp only [Option.getD_none, decide_true, Bool.true_and, if_true, hd, Bool.false_eq_true, if_false, htr, lift, hix, get]
    rw [run, hr]
    simp only [andThen, hct', hcl, if_true, Block.pyIter, lowerAll_str, indexOf_first e1 e2, hvs, hnth, hcv]
    unfold conclude adjust
    simp only [hv, if_false, lift, hdef, hc, hset]
    exact save_run hU.item h1 h2 (by simpa using storeUnlooped_ok hs)
  have := derive_run hk hrun
  refine ⟨by rw [this]; simp, ?_⟩
  have hkey := (Block.setItem_ok hs).1
  exact Block.lookup_some.1 (by rw [Block.lookup_val _ _ hkey, Block.val_setItem hs, if_pos rfl])

/-! ## Items of loops -/

/-- C59: in a loop that is present, the column computed is stored beside the columns that are there. Missing from the
full claim: loops that are absent (C59_empty_loop_fails, C59_no_loop_fails). -/
theorem C59_column_partial {E : Engine} {n : Nat} {key cat h : Str} {allow : Option Bool} {s s1 : St} {cb b' : Block} {t : List Str}
    {fs : List PyVal} {dflt : PyVal} {l : List PyVal} (hA : AliasLists E) (hk : key ∉ s.called)
    (hU : Underived E s.block key cat cb (h :: t) fs dflt (.str []))
    (hc : CifDic.getD cb CifDic.classAttr (.str "Set".toList) = .ok loopClass)
    (ht : Tried (getItem E (derive E n)) (fun c => derive E n c true none) E.exec fs (enter key allow s) s1 (some (.list l)))
    (hl : l ≠ []) (hs : storeLooped E key (.list l) false s1.block = (b', .ok (.list (l.map fromNumpy)))) :
    derive E (n + 1) key true allow s = some ({ s1 with block := b', called := s.called }, .ok (.list (l.map fromNumpy))) := by
  have hdef : defn E (.str cat) = .ok cb := hU.def_
  have hrun : run (getItem E (derive E n)) (fun c => derive E n c true none) (deriveBody E key true (uses allow s))
      (enter key allow s) = some ({ s1 with block := b' }, .ok (.list (l.map fromNumpy))) := by
    rw [body_run hA (s := enter key allow s) hU, tryMethods_run ht]
    unfold orDefault conclude adjust
    have hv : PyVal.list l ≠ .none := by simp
    simp only [Option.getD_some, decide_eq_false hv, Bool.false_and, Bool.false_eq_true, if_false, hv, lift, hdef, hc, if_true]
    exact save_run hU.item (by simpa using hl) (by simp) (by simpa using hs)
  rw [derive_run hk hrun]
  simp

/-- C59: in a loop that is present, the default is repeated once for each row. -/
theorem C59_column_default {E : Engine} {n : Nat} {key cat h : Str} {allow : Option Bool} {s s1 s2 : St} {cb b' : Block} {t : List Str}
    {fs : List PyVal} {dflt v : PyVal} {l : List PyVal} (hA : AliasLists E) (hk : key ∉ s.called) (hu : Allowed allow s)
    (hU : Underived E s.block key cat cb (h :: t) fs dflt (.str []))
    (hc : CifDic.getD cb CifDic.classAttr (.str "Set".toList) = .ok loopClass)
    (ht : Tried (getItem E (derive E n)) (fun c => derive E n c true none) E.exec fs (enter key allow s) s1 none)
    (hd : truthy dflt = true) (hcv : changeType E key dflt = .ok v) (hv : v ≠ .none)
    (hcol : getItem E (derive E n) h s1 = some (s2, .ok (.list l))) (hl : l ≠ [])
    (hs : storeLooped E key (.list (List.replicate l.length v)) true s2.block = (b', .ok (.list (List.replicate l.length v)))) :
    derive E (n + 1) key true allow s =
      some ({ s2 with block := b', called := s.called }, .ok (.list (List.replicate l.length v))) := by
  have hdef : defn E (.str cat) = .ok cb := hU.def_
  have hrun : run (getItem E (derive E n)) (fun c => derive E n c true none) (deriveBody E key true (uses allow s))
      (enter key allow s) = some ({ s2 with block := b' }, .ok (.list (List.replicate l.length v))) := by
    rw [body_run hA (s := enter key allow s) hU, tryMethods_run ht, uses_iff.2 hu]
    unfold orDefault defaultValue conclude adjust
    simp only [Option.getD_none, decide_true, Bool.true_and, if_true, hd, hcv, hv, if_false, lift, hdef, hc, get]
    rw [run, hcol]
    simp only [andThen, PyVal.pyLen]
    exact save_run hU.item (by simpa using hl) (by simp) (by simpa using hs)
  rw [derive_run hk hrun]
  simp

/-- Storing a column beside a column that is there: the block then has it under its name, and no other value is changed. -/
theorem C59_column_stored {E : Engine} {key cat x : Str} {names : List Str} {out : PyVal} {v : PyVal} {dflt : Bool} {b b' : Block}
    (hcat : E.dic.attrI key CifDic.catAttr = .ok (.str cat)) (hn : catNames E (.str cat) = .ok names) (hx : x ∈ names)
    (hb : b.contains x = true) (h : storeLooped E key v dflt b = (b', .ok out)) :
    b'.getItem key = .ok out ∧ ∀ x, x ≠ lower key → b'.val x = b.val x := by
  unfold storeLooped at h
  simp only [hcat, hn] at h
  split at h
  · simp at h
  have main : ∀ (g : Block → Block × Except PyErr Unit) (hg : ∀ c : Block, (g c).1.block = c.block),
      ∀ {b1 : Block} {o : PyVal}, chain (fun b => b.setItem key o) g b = (b1, .ok ()) →
      b1.getItem key = .ok o ∧ ∀ x, x ≠ lower key → b1.val x = b.val x := by
    intro g hg b1 o hch
    unfold chain at hch
    split at hch
    · simp at hch
    · rename_i b2 he
      have hb : b1.block = b2.block := by
        have := hg b2
        rw [hch] at this
        exact this
      have hval : ∀ x, b1.val x = b2.val x := fun x => by unfold Block.val; rw [hb]
      have hkey := (Block.setItem_ok he).1
      refine ⟨Block.lookup_some.1 ?_, fun x hx => ?_⟩
      · rw [Block.lookup_val _ _ hkey, hval, Block.val_setItem he, if_pos rfl]
      · rw [hval, Block.val_setItem he, if_neg hx]
  split at h
  · split at h
    · simp at h
    · rename_i he
      simp only [Prod.mk.injEq, Except.ok.injEq] at h
      obtain ⟨rfl, rfl⟩ := h
      exact main _ (fun c => Block.addLoopName_block ..) he
  · rename_i he
    have : x ∈ names.filter b.contains := List.mem_filter.2 ⟨hx, hb⟩
    rw [he] at this
    cases this

/-! ## Samples -/

/-- The texts of a list. -/
def texts : PyVal → Option (List Str)
  | .list l => l.mapM fun v => match v with | .str s => some s | _ => none
  | _ => none

theorem mapM_texts : ∀ {l : List PyVal} {m : List Str},
    (l.mapM fun v => match v with | .str s => some s | _ => none) = some m → l = m.map .str
  | [], m, h => by simp at h; subst h; rfl
  | a :: r, m, h => by
    rw [List.mapM_cons] at h
    cases a with
    | str s =>
      cases hr : (r.mapM fun v => match v with | PyVal.str s => some s | _ => none) with
      | none => rw [hr] at h; cases h
      | some m' =>
        rw [hr] at h
        simp only [Option.pure_def, Option.bind_eq_bind, Option.bind_some, Option.some.injEq] at h
        subst h
        rw [List.map_cons, mapM_texts hr]
    | _ => cases h

theorem aliasLists_of {E : Engine} (h1 : (dkeys E.aliases).Nodup) (h2 : E.aliases.all (fun p => (texts p.2).isSome) = true) :
    AliasLists E := by
  refine ⟨h1, fun k v hm => ?_⟩
  have := List.all_eq_true.1 h2 _ hm
  obtain ⟨m, hm⟩ := Option.isSome_iff_exists.1 this
  cases v <;> try (cases hm; done)
  rename_i l
  exact ⟨m, by rw [mapM_texts hm]⟩

/-- Whether the aliases of a definition in the table contain a name. -/
def tableHas (E : Engine) (k a : Str) : Bool := E.aliases.any fun p => p.1 == k && match p.2 with | .list l => decide (PyVal.str a ∈ l) | _ => false

theorem isAlias_has {E : Engine} {k a : Str} (h : IsAlias E k a) : tableHas E k a = true := by
  obtain ⟨l, hm, ha⟩ := h
  exact List.any_eq_true.2 ⟨_, hm, by simp [ha]⟩

theorem has_isAlias {E : Engine} (hA : AliasLists E) {k a : Str} (h : tableHas E k a = true) : IsAlias E k a := by
  obtain ⟨⟨k', v⟩, hm, g⟩ := List.any_eq_true.1 h
  obtain ⟨l, rfl⟩ := hA.lists k' v hm
  simp only [Bool.and_eq_true, beq_iff_eq, decide_eq_true_eq] at g
  obtain ⟨e, g⟩ := g
  subst e
  exact ⟨l, hm, by simpa using g⟩

theorem noAlias_of {E : Engine} {b : Block} {k : Str}
    (h : E.aliases.all (fun p => !(p.1 == k) || match p.2 with | .list l => l.all fun v => !inBlock b v | _ => true) = true) :
    NoAlias E b k := by
  rintro a ⟨l, hm, ha⟩
  have := List.all_eq_true.1 h _ hm
  simp only [beq_self_eq_true, Bool.not_true, Bool.false_or, List.all_eq_true] at this
  have := this (.str a) (List.mem_map.2 ⟨a, ha, rfl⟩)
  simpa [inBlock] using this

section Samples
attribute [local instance] asciiFold

/-- A category `c` outside loops and a looped category `l`. -/
def orderDic : CifDic := defs
  [("c", [("_definition.id", txt "c"), ("_definition.class", txt "Set")]),
   ("_c.t", [("_name.category_id", txt "c"), ("_alias.definition_id", .list [txt "_c_t_old", txt "_c_t"]), ("_enumeration.default", txt "none")]),
   ("_c.v", [("_name.category_id", txt "c"), ("_alias.definition_id", .list [txt "_c_v", txt "_c_both"])]),
   ("_c.w", [("_name.category_id", txt "c"), ("_alias.definition_id", .list [txt "_c_both"])]),
   ("_c.m", [("_name.category_id", txt "c"), ("_method.py_expression", .list [txt "stuck", txt "nothing", txt "seven"]),
      ("_enumeration.default", txt "none")]),
   ("_c.s", [("_name.category_id", txt "c"), ("_method.py_expression", .list [txt "stuck", txt "nothing"]), ("_enumeration.default", txt "none")]),
   ("_c.z", [("_name.category_id", txt "c"), ("_method.py_expression", .list [txt "stuck"])]),
   ("_c.k", [("_name.category_id", txt "c"), ("_type.contents", txt "Code")]),
   ("_c.q", [("_name.category_id", txt "c"), ("_enumeration.def_index_id", txt "_c.k"),
      ("_enumeration_default.index", .list [txt "Fe", txt "Cu"]), ("_enumeration_default.value", .list [txt "26", txt "29"])]),
   ("l", [("_definition.id", txt "l"), ("_definition.class", txt "Loop")]),
   ("_l.id", [("_name.category_id", txt "l")]),
   ("_l.x", [("_name.category_id", txt "l"), ("_method.py_expression", .list [txt "stuck", txt "column"])]),
   ("_l.y", [("_name.category_id", txt "l"), ("_enumeration.default", txt "none")])]

/-- Its methods. -/
def orderExec (f : PyVal) : Prog :=
  if f = txt "stuck" then .ask "_c.z".toList (andThen .ret)
  else if f = txt "seven" then .ret (txt "7")
  else if f = txt "column" then .ret (.list [txt "p", txt "q"])
  else .ret .none

/-- The engine of `orderDic`. -/
def orderEngine : Engine :=
  { dic := orderDic, conv := fun _ v => .ok v, toInt := .ok, exec := orderExec, pick := id,
    aliases := [("_c.t".toList, .list [txt "_c_t_old", txt "_c_t"]), ("_c.v".toList, .list [txt "_c_v", txt "_c_both"]),
      ("_c.w".toList, .list [txt "_c_both"])] }

/-- A block with an alias. -/
def orderState : St :=
  { block := ((valuesBlock [("_c_t", txt "old"), ("_l.id", .list [txt "1", txt "2"])]).createLoop ["_l.id".toList]).1 }

/-- The same without a loop. -/
def columnState : St := { block := valuesBlock [("_l.id", .list [txt "1", txt "2"])] }

/-- A block with a defined name. -/
def otherState : St := { block := valuesBlock [("_c.t", txt "new"), ("_c_v", txt "five")] }

/-- A block with an item that another depends on. -/
def indexState : St := { block := valuesBlock [("_c.k", txt "CU")] }

/-- An empty block. -/
def emptyState : St := { block := {} }

end Samples

deriving instance DecidableEq for St

theorem order_lists : AliasLists orderEngine := aliasLists_of (by decide +kernel) (by decide +kernel)

/-- Reading and deriving with up to two nested calls. -/
abbrev orderAsk : letI := asciiFold; Str → St → Res := letI := asciiFold; getItem orderEngine (derive orderEngine 2)
abbrev orderDer : letI := asciiFold; Str → St → Res := letI := asciiFold; fun c => derive orderEngine 2 c true none

/-- The methods before the one that has a value. -/
theorem order_tried (allow : Option Bool) : letI := asciiFold
    let s := enter "_c.m".toList allow orderState
    Tried orderAsk orderDer orderEngine.exec [txt "stuck", txt "nothing", txt "seven"] s s (some (txt "7")) := by
  letI := asciiFold
  rcases allow with _ | _ | _ <;> intro s
  all_goals
    refine .next (s1 := { s with provide := true }) (r := .error .derivation) (by decide +kernel) (by simp) ?_
    refine .next (s1 := { s with provide := true }) (r := .ok .none) (by decide +kernel) (by simp) ?_
    exact .found (s1 := { s with provide := true }) (by decide +kernel) (by decide)

/-- No method has a value. -/
theorem order_untried (allow : Option Bool) : letI := asciiFold
    let s := enter "_c.s".toList allow orderState
    Tried orderAsk orderDer orderEngine.exec [txt "stuck", txt "nothing"] s s none := by
  letI := asciiFold
  intro s
  have h1 : ∀ allow, run orderAsk orderDer (orderEngine.exec (txt "stuck")) { enter "_c.s".toList allow orderState with provide := true } =
      some ({ enter "_c.s".toList allow orderState with provide := true }, .error .derivation)
    | none => by decide +kernel
    | some true => by decide +kernel
    | some false => by decide +kernel
  have h2 : orderEngine.exec (txt "nothing") = .ret .none := rfl
  refine .next (s1 := { s with provide := true }) (r := .error .derivation) (h1 allow) (by simp) ?_
  refine .next (s1 := { s with provide := true }) (r := .ok .none) (by rw [h2]; rfl) (by simp) ?_
  exact .none _

/-- Columns. -/
theorem order_column : letI := asciiFold
    let s := enter "_l.x".toList none orderState
    Tried orderAsk orderDer orderEngine.exec [txt "stuck", txt "column"] s s (some (.list [txt "p", txt "q"])) := by
  letI := asciiFold
  intro s
  refine .next (s1 := { s with provide := true }) (r := .error .derivation) (by decide +kernel) (by simp) ?_
  exact .found (s1 := { s with provide := true }) (by decide +kernel) (by decide)

section Samples
attribute [local instance] asciiFold

/-- The block of category `c`. -/
def orderC : Block := valuesBlock [("_definition.id", txt "c"), ("_definition.class", txt "Set")]

/-- The block of category `l`. -/
def orderL : Block := valuesBlock [("_definition.id", txt "l"), ("_definition.class", txt "Loop")]

theorem noAlias_all {k : Str} (h : orderEngine.aliases.all (fun p => !tableHas orderEngine p.1 k) = true) (k' : Str) :
    ¬ IsAlias orderEngine k' k := by
  rintro ⟨l, hm, ha⟩
  have := List.all_eq_true.1 h _ hm
  rw [isAlias_has ⟨l, hm, ha⟩] at this
  cases this

/-- The names of category `c` and of `l`. -/
def namesC : List Str := ["_c.t".toList, "_c.v".toList, "_c.w".toList, "_c.m".toList, "_c.s".toList, "_c.z".toList, "_c.k".toList, "_c.q".toList]
def namesL : List Str := ["_l.id".toList, "_l.x".toList, "_l.y".toList]

theorem order_m : letI := asciiFold
    Underived orderEngine orderState.block "_c.m".toList "c".toList orderC ["_c.t".toList]
    [txt "stuck", txt "nothing", txt "seven"] (txt "none") (.str []) := by
  letI := asciiFold
  exact ⟨noAlias_of (by decide +kernel), noAlias_all (by decide +kernel), by decide +kernel, by decide +kernel,
    ⟨namesC, by decide +kernel, by decide +kernel⟩, by simp, .inr ⟨by simp, by decide +kernel⟩, by decide +kernel,
    by decide +kernel, by decide +kernel⟩

theorem order_s : letI := asciiFold
    Underived orderEngine orderState.block "_c.s".toList "c".toList orderC ["_c.t".toList]
    [txt "stuck", txt "nothing"] (txt "none") (.str []) := by
  letI := asciiFold
  exact ⟨noAlias_of (by decide +kernel), noAlias_all (by decide +kernel), by decide +kernel, by decide +kernel,
    ⟨namesC, by decide +kernel, by decide +kernel⟩, by simp, .inr ⟨by simp, by decide +kernel⟩, by decide +kernel,
    by decide +kernel, by decide +kernel⟩

theorem order_q : letI := asciiFold
    Underived orderEngine indexState.block "_c.q".toList "c".toList orderC ["_c.k".toList] [] (.str []) (txt "_c.k") := by
  letI := asciiFold
  exact ⟨noAlias_of (by decide +kernel), noAlias_all (by decide +kernel), by decide +kernel, by decide +kernel,
    ⟨namesC, by decide +kernel, by decide +kernel⟩, by simp, .inl ⟨rfl, by decide +kernel⟩, by decide +kernel,
    by decide +kernel, by decide +kernel⟩

theorem order_x : letI := asciiFold
    Underived orderEngine orderState.block "_l.x".toList "l".toList orderL ["_l.id".toList]
    [txt "stuck", txt "column"] (.str []) (.str []) := by
  letI := asciiFold
  exact ⟨noAlias_of (by decide +kernel), noAlias_all (by decide +kernel), by decide +kernel, by decide +kernel,
    ⟨namesL, by decide +kernel, by decide +kernel⟩, by simp, .inr ⟨by simp, by decide +kernel⟩, by decide +kernel,
    by decide +kernel, by decide +kernel⟩

theorem order_y : letI := asciiFold
    Underived orderEngine orderState.block "_l.y".toList "l".toList orderL ["_l.id".toList] [] (txt "none") (.str []) := by
  letI := asciiFold
  exact ⟨noAlias_of (by decide +kernel), noAlias_all (by decide +kernel), by decide +kernel, by decide +kernel,
    ⟨namesL, by decide +kernel, by decide +kernel⟩, by simp, .inl ⟨rfl, by decide +kernel⟩, by decide +kernel,
    by decide +kernel, by decide +kernel⟩

end Samples

/-- The table of this engine is the one made from the dictionary. -/
example : letI := asciiFold
    aliasTable orderDic = .ok orderEngine.aliases ∧ AliasLoops orderDic := by
  letI := asciiFold
  refine ⟨by decide +kernel, by decide +kernel, fun k hk => ?_⟩
  have : orderDic.keys.all (fun k => match orderDic.getItem k with
      | .ok b => !b.contains aliasAttr || match b.getItem aliasAttr with | .ok (.list _) => true | _ => false
      | .error _ => false) = true := by decide +kernel
  have := List.all_eq_true.1 this k hk
  split at this
  · rename_i b hb
    refine ⟨b, hb, fun hc => ?_⟩
    rw [hc] at this
    simp only [Bool.not_true, Bool.false_or] at this
    split at this
    · exact ⟨_, by assumption⟩
    · cases this
  · cases this

/-- `C59_alias` on a block with the second alias only. -/
example : letI := asciiFold
    ∃ s', derive orderEngine 3 "_c.t".toList true none orderState = some (s', .ok (txt "old")) ∧ s'.block = orderState.block := by
  letI := asciiFold
  exact C59_alias_unchanged (a := "_c_t".toList) (w := txt "old") order_lists (by decide) ⟨["_c_t_old".toList], [], by decide +kernel, by decide +kernel, by decide +kernel⟩
    rfl (by decide +kernel) (by decide +kernel)

/-- `C59_definition`: an alias is asked for and the defined name is there. -/
example : letI := asciiFold
    derive orderEngine 3 "_c_t_old".toList true none otherState =
      some ({ otherState with called := [], useDefaults := false }, .ok (txt "new")) := by
  letI := asciiFold
  refine C59_definition (k := "_c.t".toList) (s1 := enter "_c_t_old".toList none otherState) order_lists (by decide)
    (noAlias_of (by decide +kernel)) (has_isAlias order_lists (by decide +kernel)) (fun k' h => ?_) (by decide +kernel)
    (getItem_raw (raw := txt "new") (f := false) (by decide) (by decide +kernel) rfl) (by decide +kernel)
  obtain ⟨l, hm, ha⟩ := h
  have : orderEngine.aliases.all (fun p => !tableHas orderEngine p.1 "_c_t_old".toList || p.1 == "_c.t".toList) = true := by decide +kernel
  have := List.all_eq_true.1 this _ hm
  rw [isAlias_has ⟨l, hm, ha⟩] at this
  simpa using this

/-- `C59_ambiguous`. -/
example : letI := asciiFold
    ∃ s', derive orderEngine 3 "_c_both".toList true none otherState = some (s', .error .cif) ∧ s'.block = otherState.block ∧
      s'.called = [] := by
  letI := asciiFold
  exact C59_ambiguous (k1 := "_c.v".toList) (k2 := "_c.w".toList) order_lists (by decide) (noAlias_of (by decide +kernel))
    (has_isAlias order_lists (by decide +kernel)) (has_isAlias order_lists (by decide +kernel)) (by decide)

/-- `C59_other_alias`: an alias is asked for and another one is there. -/
example : letI := asciiFold
    derive orderEngine 3 "_c_t_old".toList true none orderState =
      some ({ orderState with called := [], useDefaults := false }, .ok (txt "old")) := by
  letI := asciiFold
  refine C59_other_alias (k := "_c.t".toList) (a := "_c_t".toList) (s1 := enter "_c_t_old".toList none orderState) order_lists (by decide)
    (noAlias_of (by decide +kernel)) (has_isAlias order_lists (by decide +kernel)) (fun k' h => ?_) (by decide +kernel)
    ⟨["_c_t_old".toList], [], by decide +kernel, by decide +kernel, by decide +kernel⟩
    (getItem_raw (raw := txt "old") (f := false) (by decide) (by decide +kernel) rfl) (by decide +kernel)
  obtain ⟨l, hm, ha⟩ := h
  have : orderEngine.aliases.all (fun p => !tableHas orderEngine p.1 "_c_t_old".toList || p.1 == "_c.t".toList) = true := by decide +kernel
  have := List.all_eq_true.1 this _ hm
  rw [isAlias_has ⟨l, hm, ha⟩] at this
  simpa using this

/-- `C59_method`: the third method has a value. -/
example : letI := asciiFold
    ∃ s', derive orderEngine 3 "_c.m".toList true none orderState = some (s', .ok (txt "7")) ∧
      s'.block.getItem "_c.m".toList = .ok (txt "7") := by
  letI := asciiFold
  obtain ⟨h1, h2⟩ := C59_method (b' := (orderState.block.setItem "_c.m".toList (txt "7")).1) (c := txt "Set") order_lists (by decide) order_m
    (by decide +kernel) (by decide +kernel) (order_tried none) (by decide) (by decide) (by decide) (by decide +kernel)
  exact ⟨_, h1, h2⟩

/-- `C59_method_unstored`. -/
example : letI := asciiFold
    ∃ s', derive orderEngine 3 "_c.m".toList false none orderState = some (s', .ok (txt "7")) ∧ s'.block = orderState.block := by
  letI := asciiFold
  exact ⟨_, C59_method_unstored (c := txt "Set") order_lists (by decide) order_m
    (by decide +kernel) (by decide +kernel) (order_tried none) (by decide), rfl⟩

/-- `C59_default`. -/
example : letI := asciiFold
    ∃ s', derive orderEngine 3 "_c.s".toList true none orderState = some (s', .ok (txt "none")) ∧
      s'.block.getItem "_c.s".toList = .ok (txt "none") := by
  letI := asciiFold
  obtain ⟨h1, h2⟩ := C59_default (v := txt "none") (b' := (orderState.block.setItem "_c.s".toList (txt "none")).1) (c := txt "Set") order_lists (by decide)
    (by decide) order_s (by decide +kernel) (by decide +kernel) (order_untried none) (by decide) (by decide +kernel) (by decide) (by decide)
    (by decide) (by decide +kernel)
  exact ⟨_, h1, h2⟩

/-- `C59_index_default`: the second value of the table. -/
example : letI := asciiFold
    ∃ s', derive orderEngine 3 "_c.q".toList true none indexState = some (s', .ok (txt "29")) ∧
      s'.block.getItem "_c.q".toList = .ok (txt "29") := by
  letI := asciiFold
  obtain ⟨h1, h2⟩ := C59_index_default (allow := none) (v := txt "29") (w := txt "29") (at_ := "CU".toList) (index := [txt "Fe", txt "Cu"])
    (vals := [txt "26", txt "29"]) (contents := txt "Code")
    (b' := (indexState.block.setItem "_c.q".toList (txt "29")).1) (c := txt "Set") order_lists (by decide)
    (by decide) order_q (by decide +kernel) (by decide +kernel) (.none _) (by decide) (by decide) (by decide +kernel) (by decide +kernel)
    (getItem_raw (raw := txt "CU") (f := false) (by decide) (by decide +kernel) rfl) (by decide +kernel) (by decide)
    ⟨["Fe".toList], [], "Cu".toList, by decide, by decide +kernel, by decide +kernel, by decide⟩ (by decide +kernel) (by decide) (by decide)
    (by decide) (by decide +kernel)
  exact ⟨_, h1, h2⟩

/-- Reading an item from a method. -/
def orderRead : Prog := .ask "_c.s".toList fun r => lift r .ret

/-- `C59_choice` and `C59_unsaid_fails`: the item is read during another call, and its default is used in the second case only. -/
example : letI := asciiFold
    (∃ s2 : St, run (getItem orderEngine (derive orderEngine 3)) (fun c => derive orderEngine 3 c true none) orderRead
      (enter "_c.m".toList (some false) orderState) = some (s2, .error .derivation) ∧ ¬ Allowed none s2) ∧
    (∃ s2 : St, run (getItem orderEngine (derive orderEngine 3)) (fun c => derive orderEngine 3 c true none) orderRead
      (enter "_c.m".toList (some true) orderState) = some (s2, .ok (txt "none")) ∧ Allowed none s2) ∧
    ∃ s2 : St, run (getItem orderEngine (derive orderEngine 3)) (fun c => derive orderEngine 3 c true none) orderRead
      (enter "_c.m".toList none orderState) = some (s2, .error .derivation) ∧ ¬ Allowed none s2 := by
  letI := asciiFold
  have get : ∀ {x : Res} {r : Except PyErr PyVal}, x.map (·.2) = some r → ∃ s2, x = some (s2, r) := by
    intro x r h
    cases x with
    | none => cases h
    | some x => cases h; exact ⟨x.1, rfl⟩
  obtain ⟨s2, h2⟩ := get (x := run (getItem orderEngine (derive orderEngine 3)) (fun c => derive orderEngine 3 c true none) orderRead
      (enter "_c.m".toList (some false) orderState)) (r := .error .derivation) (by decide +kernel)
  obtain ⟨s3, h3⟩ := get (x := run (getItem orderEngine (derive orderEngine 3)) (fun c => derive orderEngine 3 c true none) orderRead
      (enter "_c.m".toList (some true) orderState)) (r := .ok (txt "none")) (by decide +kernel)
  obtain ⟨s4, h4⟩ := get (x := run (getItem orderEngine (derive orderEngine 3)) (fun c => derive orderEngine 3 c true none) orderRead
      (enter "_c.m".toList none orderState)) (r := .error .derivation) (by decide +kernel)
  exact ⟨⟨s2, h2, fun h => Bool.false_ne_true ((C59_choice (by decide) h2 none).1.1 h)⟩,
    ⟨s3, h3, (C59_choice (by decide) h3 none).1.2 rfl⟩, ⟨s4, h4, (C59_unsaid_fails (by decide) h4 none).1⟩⟩

/-- `C59_underivable`: the default is not allowed. -/
example : letI := asciiFold
    ∃ s', derive orderEngine 3 "_c.s".toList true (some false) orderState = some (s', .error .failure) ∧ s'.block = orderState.block := by
  letI := asciiFold
  exact ⟨_, C59_underivable order_lists (by decide) order_s (order_untried (some false)) (.inl (by decide)), rfl⟩

/-- `C59_column_partial`. -/
example : letI := asciiFold
    ∃ s', derive orderEngine 3 "_l.x".toList true none orderState = some (s', .ok (.list [txt "p", txt "q"])) ∧
      s'.block.getItem "_l.x".toList = .ok (.list [txt "p", txt "q"]) := by
  letI := asciiFold
  have hs : storeLooped orderEngine "_l.x".toList (.list [txt "p", txt "q"]) false orderState.block =
    ((storeLooped orderEngine "_l.x".toList (.list [txt "p", txt "q"]) false orderState.block).1, .ok (.list [txt "p", txt "q"])) := by
    decide +kernel
  exact ⟨_, C59_column_partial order_lists (by decide) order_x (by decide +kernel) order_column (by simp) hs,
    (C59_column_stored (cat := "l".toList) (x := "_l.id".toList) (names := namesL) (by decide +kernel) (by decide +kernel)
      (by decide +kernel) (by decide +kernel) hs).1⟩

/-- `C59_column_default`: two rows. -/
example : letI := asciiFold
    ∃ s', derive orderEngine 3 "_l.y".toList true none orderState = some (s', .ok (.list [txt "none", txt "none"])) ∧
      s'.block.getItem "_l.y".toList = .ok (.list [txt "none", txt "none"]) := by
  letI := asciiFold
  have hs : storeLooped orderEngine "_l.y".toList (.list [txt "none", txt "none"]) true orderState.block =
    ((storeLooped orderEngine "_l.y".toList (.list [txt "none", txt "none"]) true orderState.block).1, .ok (.list [txt "none", txt "none"])) := by
    decide +kernel
  exact ⟨_, C59_column_default (l := [txt "1", txt "2"]) (v := txt "none") order_lists (by decide) (by decide) order_y (by decide +kernel)
      (.none _) (by decide) (by decide +kernel) (by decide) (getItem_raw (f := false) (by decide) (by decide +kernel) rfl) (by simp) hs,
    (C59_column_stored (cat := "l".toList) (x := "_l.id".toList) (names := namesL) (by decide +kernel) (by decide +kernel)
      (by decide +kernel) (by decide +kernel) hs).1⟩

/-! ## Cases where the claims fail -/

/-- The value computed for an item of a loop that is not in the block is dropped: an empty list is returned and nothing is
stored. -/
theorem C59_empty_loop_fails : letI := asciiFold
    run orderAsk orderDer (orderExec (txt "column")) emptyState = some (emptyState, .ok (.list [txt "p", txt "q"])) ∧
    derive orderEngine 3 "_l.x".toList true none emptyState = some (emptyState, .ok (.list [])) := by
  letI := asciiFold
  decide +kernel

/-- When the column present is not in a loop, a `KeyError` is raised although the new column has been stored. -/
theorem C59_no_loop_fails : letI := asciiFold
    ∃ s', derive orderEngine 3 "_l.x".toList true none columnState = some (s', .error .key) ∧
      s'.block.getItem "_l.x".toList = .ok (.list [txt "p", txt "q"]) := by
  letI := asciiFold
  exact ⟨{ block := (columnState.block.setItem "_l.x".toList (.list [txt "p", txt "q"])).1 }, by decide +kernel, by decide +kernel⟩

section Samples
attribute [local instance] asciiFold

/-- A definition with one alias that is not in a loop, and one whose alias has capitals. -/
def singleDic : CifDic := defs
  [("_c.t", [("_name.category_id", txt "c"), ("_alias.definition_id", txt "_c_t_old")]),
   ("_c.u", [("_name.category_id", txt "c"), ("_alias.definition_id", .list [txt "_C_U"])])]

/-- Its engine. -/
def singleEngine : Engine :=
  { dic := singleDic, conv := fun _ v => .ok v, toInt := .ok, exec := fun _ => .fail .derivation, pick := id,
    aliases := [("_c.t".toList, txt "_c_t_old"), ("_c.u".toList, .list [txt "_C_U"])] }

end Samples

/-- A single alias that is not in a loop is taken apart into its letters, so that a value stored under it is not found; and part
of it counts as an alias. -/
theorem C61_single_fails : letI := asciiFold
    aliasTable singleDic = .ok singleEngine.aliases ∧
    aliasesOf singleEngine "_c.t".toList = .ok ("_c_t_old".toList.map fun c => .str [c]) ∧
    hasKeyOrAlias singleEngine (valuesBlock [("_c_t_old", txt "x")]) "_c.t".toList = .ok false ∧
    aliasOf singleEngine "_c_t".toList = .ok [("_c.t".toList, txt "_c_t_old")] := by
  letI := asciiFold
  decide +kernel

/-- Names are compared with aliases letter by letter, although data names do not depend on case. -/
theorem C61_case_fails : letI := asciiFold
    aliasOf singleEngine "_C_U".toList = .ok [("_c.u".toList, .list [txt "_C_U"])] ∧ aliasOf singleEngine "_c_u".toList = .ok [] := by
  letI := asciiFold
  decide +kernel

end Verif.Derive
