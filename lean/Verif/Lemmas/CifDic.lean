import Verif.Spec.CifDic
import Verif.Lemmas.Forest
import Verif.Lemmas.Validate
import Verif.Lemmas.CollectionOps
import Verif.Lemmas.CollectionMerge
import Verif.Lemmas.CollectionTree
/-! Helper lemmas about dictionaries. -/
set_option linter.unusedSectionVars false
namespace Verif
open Validate

theorem dget_dupdate_last {β : Type} {k : Str} {v : β} : ∀ (es d : Dict Str β), (∀ p ∈ es, p.1 = k → p.2 = v) →
    dget (dupdate d es) k = if k ∈ dkeys es then some v else dget d k
  | [], d, _ => by simp [dupdate, dkeys]
  | (a, b) :: r, d, h => by
    have ih := dget_dupdate_last (k := k) (v := v) r (dset d a b) (fun p hp => h p (List.mem_cons_of_mem _ hp))
    have e : dupdate d ((a, b) :: r) = dupdate (dset d a b) r := rfl
    rw [e, ih]
    by_cases hr : k ∈ dkeys r
    · rw [if_pos hr, if_pos (by unfold dkeys at *; simp [hr])]
    · rw [if_neg hr, dget_dset]
      by_cases ha : a = k
      · have : b = v := h (a, b) (by simp) ha
        subst ha this
        rw [if_pos rfl, if_pos (by simp [dkeys])]
      · rw [if_neg (by first | exact ha | exact fun e => ha e.symm), if_neg (by
          unfold dkeys at *
          simp only [List.map_cons, List.mem_cons, not_or]
          exact ⟨fun e => ha e.symm, hr⟩)]

namespace CifDic
variable [CaseFold]

theorem getD_has {b : Block} {a : Str} {v d : PyVal} (h : Has b a v) : getD b a d = .ok v := by
  rw [getD, if_pos h.1, h.2]

theorem getD_not {b : Block} {a : Str} {d : PyVal} (h : b.contains a = false) : getD b a d = .ok d := by
  rw [getD, h]; rfl

/-- The identifier is well defined. -/
theorem defId_eq {L : Lang} {b : Block} {k : Str}
    (h : ∀ a, a = catIdSpec L ∨ a = defIdSpec L → b.contains a = true → ∃ s, b.getItem a = .ok (.str s)) :
    ∃ s, defId L b k = .ok (.str s) ∧ ∀ v, Identifier L b k v ↔ v = .str s := by
  have hd : ∃ s, getD b (defIdSpec L) (.str k) = .ok (.str s) ∧
      ∀ v, (Has b (defIdSpec L) v ∨ (b.contains (defIdSpec L) = false ∧ v = .str k)) ↔ v = .str s := by
    cases hc : b.contains (defIdSpec L) with
    | false => exact ⟨k, getD_not hc, fun v => by simp [Has, hc]⟩
    | true =>
      obtain ⟨s, hs⟩ := h _ (.inr rfl) hc
      refine ⟨s, getD_has ⟨hc, hs⟩, fun v => ?_⟩
      simp only [Has, hc, hs, true_and, Except.ok.injEq, Bool.true_eq_false, false_and, or_false]
      exact eq_comm
  obtain ⟨s, h1, h2⟩ := hd
  cases hc : b.contains (catIdSpec L) with
  | false =>
    refine ⟨s, by simp only [defId, h1, getD_not hc], fun v => ?_⟩
    rw [Identifier, ← h2]
    simp [Has, hc]
  | true =>
    obtain ⟨s', hs'⟩ := h _ (.inl rfl) hc
    refine ⟨s', by simp only [defId, h1, getD_has ⟨hc, hs'⟩], fun v => ?_⟩
    simp only [Identifier, Has, hc, hs', true_and, Except.ok.injEq, Bool.true_eq_false, false_and, or_false]
    exact eq_comm

/-- The identifier of block `k`. -/
def idOf (c : Coll) (L : Lang) (k : Str) : Str :=
  match c.getItem k with
  | .error _ => []
  | .ok b =>
    match defId L b k with
    | .ok (.str s) => s
    | _ => []

theorem idOf_spec {c : Coll} {L : Lang} (h : Texts c L) {k : Str} (hk : k ∈ c.keys) :
    ∃ b, c.getItem k = .ok b ∧ defId L b k = .ok (.str (idOf c L k)) ∧ ∀ s, Names c L k s ↔ s = idOf c L k := by
  obtain ⟨b, hb, ha⟩ := h k hk
  obtain ⟨s, h1, h2⟩ := defId_eq (k := k) ha
  have hs : idOf c L k = s := by simp only [idOf, hb, h1]
  refine ⟨b, hb, by rw [hs]; exact h1, fun x => ?_⟩
  rw [hs]
  constructor
  · rintro ⟨_, b', hb', hi⟩
    rw [hb] at hb'
    injection hb' with hb'
    subst hb'
    have := (h2 _).1 hi
    injection this
  · rintro rfl
    exact ⟨hk, b, hb, (h2 _).2 rfl⟩

theorem protoTable_eq {c : Coll} {L : Lang} (h : Texts c L) :
    protoTable c L = .ok (c.keys.map fun k => (PyVal.str (idOf c L k), k)) := by
  unfold protoTable
  apply mapE_ok
  intro k hk
  obtain ⟨b, hb, hd, _⟩ := idOf_spec h hk
  simp only [hb, hd]

theorem nodup_map_iff {α β : Type} {f : α → β} : ∀ {l : List α}, l.Nodup → ((l.map f).Nodup ↔ ∀ a ∈ l, ∀ b ∈ l, f a = f b → a = b)
  | [], _ => by simp
  | x :: r, h => by
    rw [List.nodup_cons] at h
    rw [List.map_cons, List.nodup_cons, nodup_map_iff h.2, List.mem_map]
    constructor
    · rintro ⟨h1, h2⟩ a ha b hb e
      rcases List.mem_cons.1 ha with ea | ha'
      · rcases List.mem_cons.1 hb with eb | hb'
        · rw [ea, eb]
        · exact absurd ⟨b, hb', by rw [← e, ea]⟩ h1
      · rcases List.mem_cons.1 hb with eb | hb'
        · exact absurd ⟨a, ha', by rw [e, eb]⟩ h1
        · exact h2 a ha' b hb' e
    · intro hh
      refine ⟨?_, fun a ha b hb => hh a (List.mem_cons_of_mem _ ha) b (List.mem_cons_of_mem _ hb)⟩
      rintro ⟨a, ha, e⟩
      have := hh a (List.mem_cons_of_mem _ ha) x (by simp) e
      subst this
      exact h.1 ha

/-- The table built from a collection. -/
def entries (c : Coll) (L : Lang) : List (Str × Str) :=
  (c.keys.filter fun k => decide (lower k ∉ topBlocks c L)).map fun k => (lower (idOf c L k), lower k)

theorem defTable_eq {c : Coll} {L : Lang} (h : Texts c L) :
    defTable c L = if (c.keys.map (idOf c L)).Nodup then .ok (dupdate [] (entries c L)) else .error .cif := by
  unfold defTable
  rw [protoTable_eq h]
  simp only
  have h1 : ((c.keys.map fun k => (PyVal.str (idOf c L k), k)).any fun a => !hashable a.1) = false := by
    rw [List.any_eq_false]
    intro a ha
    obtain ⟨k, _, rfl⟩ := List.mem_map.1 ha
    simp [hashable]
  have h2 : ((c.keys.map fun k => (PyVal.str (idOf c L k), k)).map (·.1)) = (c.keys.map (idOf c L)).map PyVal.str := by
    simp [List.map_map, Function.comp_def]
  have h3 : ((c.keys.map (idOf c L)).map PyVal.str).Nodup ↔ (c.keys.map (idOf c L)).Nodup := by
    rw [List.Nodup, List.pairwise_map, List.Nodup]
    simp
  rw [h1, h2]
  simp only [Bool.false_eq_true, if_false, h3]
  have h4 : tableEntries (topBlocks c L) (c.keys.map fun k => (PyVal.str (idOf c L k), k)) = .ok (entries c L) := by
    unfold tableEntries entries
    rw [List.filter_map]
    rw [mapE_ok (g := fun a : PyVal × Str => (match a.1 with | .str s => lower s | _ => [], lower a.2))]
    · simp [List.map_map, Function.comp_def]
    · intro a ha
      obtain ⟨k, _, rfl⟩ := List.mem_map.1 ha
      rfl
  by_cases hn : (c.keys.map (idOf c L)).Nodup
  · rw [if_neg (not_not_intro hn), if_pos hn, h4]
  · rw [if_pos hn, if_neg hn]

theorem keys_low {c : Coll} (h : c.Consistent) {k : Str} (hk : k ∈ c.keys) : k ∈ c.lowerKeys ∧ lower k = k :=
  ⟨Coll.visible_mem h hk, h.lower_keys _ (Coll.visible_mem h hk)⟩

theorem outer_iff {c : Coll} {L : Lang} (h : c.Consistent) {k : Str} (hk : k ∈ c.keys) : lower k ∈ topBlocks c L ↔ Outer c L k := by
  have hl := keys_low h hk
  have key : lower k ∈ c.topLevel.map lower ↔ k ∈ c.keys ∧ Coll.parentOf c k = none := by
    rw [List.mem_map]
    constructor
    · rintro ⟨j, hj, e⟩
      have hj' := (Coll.mem_topLevel h.nd_table).1 hj
      have hjl := h.lower_keys j ((h.mem_table j).1 hj'.1)
      rw [hjl, hl.2] at e
      subst e
      exact ⟨hk, hj'.2⟩
    · rintro ⟨_, hp⟩
      exact ⟨k, (Coll.mem_topLevel h.nd_table).2 ⟨(h.mem_table k).2 hl.1, hp⟩, rfl⟩
  cases L with
  | ddl1 => simp only [topBlocks, Outer, List.mem_singleton, hl.2]
  | ddl2 => exact key
  | ddlm => exact key

end CifDic
end Verif
