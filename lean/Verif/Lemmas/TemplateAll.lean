import Verif.Lemmas.TemplateHeader
import Verif.Lemmas.Block
import Verif.Model.TemplateAll
/-! # Whole templates -/
namespace Verif
namespace Template

theorem allPieces_names : ∀ (ns : List Str) (ps : List (Str × List Piece)), allPieces ns = some ps → ps.map (·.1) = ns
  | [], ps, h => by
    simp only [allPieces, Option.some.injEq] at h
    subst h
    rfl
  | n :: r, ps, h => by
    rw [allPieces] at h
    split at h
    · rename_i p qs h1 h2
      simp only [Option.some.injEq] at h
      subst h
      simp [allPieces_names r qs h2]
    · cases h

theorem placeNamed_names (text : Str) : ∀ (ps : List (Str × List Piece)) (vs : List (Nat × Option Str)) (st : Nat × Nat × List Nat) (hs : List Hint),
    placeNamed text ps vs st = .ok hs → hs.map (·.dataname) = ps.map (·.1)
  | [], vs, st, hs, h => by
    simp only [placeNamed, Except.ok.injEq] at h
    subst h
    rfl
  | (n, p) :: ps, vs, (last, next, ends), hs, h => by
    unfold placeNamed at h
    split at h
    · cases h
    · cases h
    · rename_i k v vs hk
      simp only at h
      split at h
      · cases h
      · rename_i hs' h'
        simp only [Except.ok.injEq] at h
        subst h
        simp [placeNamed_names text ps _ _ _ h']

theorem templateLoop_names {names : List Str} {text : Str} {hs : List Hint} (h : templateLoop names text = some (.ok hs)) : hs.map (·.dataname) = Block.loopMark :: names := by
  unfold templateLoop at h
  split at h
  · cases h
  · cases h
  · rename_i n p ps hp
    split at h
    · cases h
    · rename_i k rest hk
      split at h
      · cases h
      · rename_i hs' h'
        simp only [Option.some.injEq, Except.ok.injEq] at h
        subst h
        simp [placeNamed_names _ _ _ _ _ h', ← allPieces_names _ _ hp]

theorem itemHint_name {item text : Str} {h : Hint} (hh : itemHint item text = some (.ok h)) : h.dataname = item := by
  unfold itemHint at hh
  simp only [Option.map_eq_some_iff] at hh
  obtain ⟨ps, _, hh⟩ := hh
  split at hh
  · cases hh
  · simp only [Except.ok.injEq] at hh
    subst hh
    rfl

/-- The names for which there are hints. -/
def namesOf (loops : Dict Nat (List Str)) : Ref → List Str
  | .name s => [s]
  | .loop n => match dget loops n with
    | some l => Block.loopMark :: l
    | none => []

theorem hintsOf_names {loops : Dict Nat (List Str)} {text : Str} {r : Ref} {hs : List Hint} (h : hintsOf loops text r = some (.ok hs)) : hs.map (·.dataname) = namesOf loops r := by
  cases r with
  | name s =>
    rw [hintsOf] at h
    split at h
    · cases h
    · cases h
    · rename_i x hx
      simp only [Option.some.injEq, Except.ok.injEq] at h
      subst h
      simp [namesOf, itemHint_name hx]
  | loop n =>
    rw [hintsOf] at h
    simp only [namesOf]
    split at h
    · cases h
    · rename_i names hn
      rw [hn]
      exact templateLoop_names h

theorem allHints_cons {loops : Dict Nat (List Str)} {text : Str} {r : Ref} {rs : List Ref} {hs : List Hint} (h : allHints loops text (r :: rs) = some (.ok hs)) :
    ∃ h1 h2, hintsOf loops text r = some (.ok h1) ∧ allHints loops text rs = some (.ok h2) ∧ hs = h1 ++ h2 := by
  rw [allHints] at h
  split at h
  · cases h
  · cases h
  · rename_i h1 e1
    split at h
    · cases h
    · cases h
    · rename_i h2 e2
      simp only [Option.some.injEq, Except.ok.injEq] at h
      exact ⟨h1, h2, e1, e2, h.symm⟩

theorem allHints_names (loops : Dict Nat (List Str)) (text : Str) : ∀ (rs : List Ref) (hs : List Hint), allHints loops text rs = some (.ok hs) → hs.map (·.dataname) = rs.flatMap (namesOf loops)
  | [], hs, h => by
    simp only [allHints, Option.some.injEq, Except.ok.injEq] at h
    subst h
    rfl
  | r :: rs, hs, h => by
    obtain ⟨h1, h2, e1, e2, rfl⟩ := allHints_cons h
    simp [hintsOf_names e1, allHints_names loops text rs h2 e2]

theorem allHints_split (loops : Dict Nat (List Str)) (text : Str) : ∀ (a : List Ref) (r : Ref) (c : List Ref) (hs : List Hint), allHints loops text (a ++ r :: c) = some (.ok hs) →
    ∃ ha hr hc, allHints loops text a = some (.ok ha) ∧ hintsOf loops text r = some (.ok hr) ∧ allHints loops text c = some (.ok hc) ∧ hs = ha ++ (hr ++ hc)
  | [], r, c, hs, h => by
    obtain ⟨h1, h2, e1, e2, rfl⟩ := allHints_cons h
    exact ⟨[], h1, h2, rfl, e1, e2, rfl⟩
  | x :: a, r, c, hs, h => by
    obtain ⟨h1, h2, e1, e2, rfl⟩ := allHints_cons (rs := a ++ r :: c) h
    obtain ⟨ha, hr, hc, g1, g2, g3, rfl⟩ := allHints_split loops text a r c h2 e2
    refine ⟨h1 ++ ha, hr, hc, ?_, g2, g3, by simp⟩
    rw [allHints, e1]
    simp only [g1]

theorem hintNames_eq (t : Block) : Block.hintNames t = t.order.flatMap (namesOf t.loops) := by
  unfold Block.hintNames
  congr 1

section Laws
variable [CaseFold]

theorem lower_loopMark : lower Block.loopMark = Block.loopMark := by
  rw [CaseFold.lower_ascii _ (by decide)]
  decide

/-- Names for which there are hints before those for an item differ from it. -/
theorem before_ne {t : Block} (hw : Block.WF t) {a c : List Ref} {item : Str} (ho : t.order = a ++ .name item :: c) (hp : item.head? = some '_') :
    ∀ x ∈ a.flatMap (namesOf t.loops), lower x ≠ lower item := by
  have hi : lower item = item := hw.keysLower item ((hw.orderName item).mp (by rw [ho]; simp)).1
  have hnd := Block.nodup_printed hw
  intro x hx hxe
  rw [hi] at hxe
  obtain ⟨r, hr, hxr⟩ := List.mem_flatMap.mp hx
  have hcase : x = Block.loopMark ∨ x ∈ ({ t with order := a } : Block).printed := by
    cases r with
    | name s =>
      right
      unfold Block.printed
      exact List.mem_flatMap.mpr ⟨.name s, hr, by simpa [namesOf] using hxr⟩
    | loop n =>
      simp only [namesOf] at hxr
      split at hxr
      · rename_i l hl
        rcases List.mem_cons.mp hxr with h | h
        · exact .inl h
        · right
          unfold Block.printed
          exact List.mem_flatMap.mpr ⟨.loop n, hr, by simpa [hl] using h⟩
      · cases hxr
  rcases hcase with rfl | h
  · rw [lower_loopMark] at hxe
    rw [← hxe] at hp
    revert hp
    decide
  · have hmem : x ∈ t.printed := by
      unfold Block.printed at h ⊢
      rw [ho, List.flatMap_append]
      exact List.mem_append_left _ h
    have hlow : lower x = x := by
      rcases (Block.mem_printed hw).mp hmem with h' | h'
      · exact hw.loopLower x h'
      · exact hw.keysLower x h'.1
    rw [hlow] at hxe
    subst hxe
    unfold Block.printed at h hnd
    rw [ho, List.flatMap_append, List.nodup_append] at hnd
    exact hnd.2.2 x h x (by simp) rfl

end Laws

end Template
end Verif
