import Verif.Props.FullImport
import Verif.Lemmas.Ddl2
/-! # C91: every reference is followed -/
namespace Verif.CifDic
open Validate Import

theorem select_reached {α : Type} {f : α → Except PyErr Bool} : ∀ {l r : List α}, select f l = .ok r → ∀ x ∈ l, f x = .ok true → x ∈ r
  | [], _, _, _, hx, _ => nomatch hx
  | a :: l, r, h, x, hx, hf => by
    simp only [select] at h
    split at h
    · cases h
    · rename_i t ht
      split at h
      · cases h
      · rename_i s hs
        simp only [Except.ok.injEq] at h
        subst h
        rcases List.mem_cons.mp hx with rfl | hx
        · rw [ht] at hf
          simp only [Except.ok.injEq] at hf
          simp [hf]
        · have := select_reached hs x hx hf
          split
          · exact List.mem_cons_of_mem _ this
          · exact this

section
variable [CaseFold]

theorem heavyRefs_every {load : Str → Except PyErr CifDic} {parent : Str} (P : PyVal → Prop) (hP : ∀ d r, ¬P r → ∃ e, (heavyRef load parent d r).2 = .error e) :
    ∀ (rs : List PyVal) (d d' : CifDic), heavyRefs load parent d rs = (d', .ok ()) → ∀ r ∈ rs, P r
  | [], _, _, _, r, hr => nomatch hr
  | x :: rs, d, d', h, r, hr => by
    rw [heavyRefs] at h
    cases hx : heavyRef load parent d x with
    | mk d1 res =>
      rw [hx] at h
      cases res with
      | error e => simp [seq] at h
      | ok u =>
        have hxp : P x := by
          by_cases hc : P x
          · exact hc
          · obtain ⟨e, he⟩ := hP d x hc
            rw [hx] at he
            cases he
        rcases List.mem_cons.mp hr with rfl | hr
        · exact hxp
        · exact heavyRefs_every P hP rs d1 d' h r hr

theorem heavyFrames_every {load : Str → Except PyErr CifDic} (P : PyVal → Prop) (hP : ∀ parent d r, ¬P r → ∃ e, (heavyRef load parent d r).2 = .error e) :
    ∀ (fs : List (Str × List PyVal)) (d d' : CifDic), heavyFrames load d fs = (d', .ok ()) → ∀ p ∈ fs, ∀ r ∈ p.2, P r
  | [], _, _, _, p, hp => nomatch hp
  | x :: fs, d, d', h, p, hp => by
    rw [heavyFrames] at h
    cases hx : heavyRefs load x.1 d x.2 with
    | mk d1 res =>
      rw [hx] at h
      cases res with
      | error e => simp [seq] at h
      | ok u =>
        rcases List.mem_cons.mp hp with rfl | hp
        · exact heavyRefs_every P (hP p.1) p.2 d d1 hx
        · exact heavyFrames_every P hP fs d1 d' h p hp

theorem obtainHeavy_every {load : Str → Except PyErr CifDic} {d d' : CifDic} {i : Str} {b : Block} {refs : List PyVal} (P : PyVal → Prop)
    (hP : ∀ parent d r, ¬P r → ∃ e, (heavyRef load parent d r).2 = .error e)
    (h : obtainHeavy load d = (d', .ok ())) (hi : i ∈ d.keys) (hb : d.getItem i = .ok b) (hc : b.contains importAttr = true)
    (hv : b.getItem importAttr = .ok (.list refs) ∨ b.getItem importAttr = .ok (.slist refs)) : ∀ r ∈ refs, P r := by
  unfold obtainHeavy CifDic.read at h
  split at h
  · cases h
  · rename_i fs hfs
    have hmem : (i, refs) ∈ fs := by
      unfold importFrames at hfs
      split at hfs
      · cases hfs
      · rename_i names hn
        have hin := select_reached hn i hi (by simp only [hb, hc])
        obtain ⟨y, hy, hy'⟩ := Ddl2.mapE_reached hfs i hin
        simp only [attrI, hb] at hy'
        rcases hv with hv | hv <;>
        · simp only [hv, Block.pyIter, Except.ok.injEq] at hy'
          rw [hy']
          exact hy
    exact heavyFrames_every P hP fs d d' h (i, refs) hmem

/-- C91: every reference of every definition is followed, wherever it stands: if imports end without an error, then no reference of any definition asks for a definition that is
missing from its file, unless the reference has another value than `Exit` for `miss`. -/
theorem C91_every {load : Str → Except PyErr CifDic} {d d' imp : CifDic} {i f k : Str} {b : Block} {refs : List PyVal} {r : Dict Str PyVal}
    (h : obtainHeavy load d = (d', .ok ())) (hi : i ∈ d.keys) (hb : d.getItem i = .ok b) (hc : b.contains importAttr = true)
    (hv : b.getItem importAttr = .ok (.list refs) ∨ b.getItem importAttr = .ok (.slist refs)) (hr : PyVal.sdict r ∈ refs)
    (hf : dget r "file".toList = some (.str f)) (hl : load f = .ok imp) (hk : dget r "save".toList = some (.str k)) (hm : imp.getItem k = .error .key) :
    ∃ v, dget r "miss".toList = some v ∧ v ≠ .str "Exit".toList := by
  refine obtainHeavy_every (fun x => x = .sdict r → ∃ v, dget r "miss".toList = some v ∧ v ≠ .str "Exit".toList) ?_ h hi hb hc hv _ hr rfl
  intro parent d x hx
  have hx1 : x = .sdict r := by
    by_cases hc : x = .sdict r
    · exact hc
    · exact absurd (fun h => absurd h hc) hx
  subst hx1
  rw [C91_missing_partial hf hl hk hm]
  refine ⟨.cif, ?_⟩
  simp only
  rw [if_pos]
  cases hmi : dget r "miss".toList with
  | none => exact .inl rfl
  | some v =>
    right
    by_cases he : v = .str "Exit".toList
    · rw [he]
    · exact absurd (fun _ => ⟨v, hmi, he⟩) hx

/-- C91: if imports end without an error, then every reference of every definition names a file, and the file could be read. -/
theorem C91_loaded {load : Str → Except PyErr CifDic} {d d' : CifDic} {i : Str} {b : Block} {refs : List PyVal} {r : Dict Str PyVal}
    (h : obtainHeavy load d = (d', .ok ())) (hi : i ∈ d.keys) (hb : d.getItem i = .ok b) (hc : b.contains importAttr = true)
    (hv : b.getItem importAttr = .ok (.list refs) ∨ b.getItem importAttr = .ok (.slist refs)) (hr : PyVal.sdict r ∈ refs) :
    ∃ f imp, dget r "file".toList = some (.str f) ∧ load f = .ok imp := by
  refine obtainHeavy_every (fun x => x = .sdict r → ∃ f imp, dget r "file".toList = some (.str f) ∧ load f = .ok imp) ?_ h hi hb hc hv _ hr rfl
  intro parent d x hx
  have hx1 : x = .sdict r := by
    by_cases hc : x = .sdict r
    · exact hc
    · exact absurd (fun h => absurd h hc) hx
  subst hx1
  replace hx : ¬∃ f imp, dget r "file".toList = some (.str f) ∧ load f = .ok imp := fun h => hx fun _ => h
  cases hf : dget r "file".toList with
  | none => exact ⟨.key, by simp only [heavyRef, CifDic.read, field, hf]⟩
  | some v =>
    cases ho : openImport load v with
    | error e => exact ⟨e, by simp only [heavyRef, CifDic.read, field, hf, ho]⟩
    | ok imp =>
      unfold openImport at ho
      split at ho
      · exact absurd ⟨_, imp, hf, ho⟩ hx
      · cases ho

end

section Samples
attribute [local instance] asciiFold

/-- Two references. -/
def twoRefs (miss : String) : List PyVal :=
  [.sdict [("file".toList, .str "mag.dic".toList), ("save".toList, .str "_cell.a".toList), ("mode".toList, .str "Full".toList), ("dupl".toList, .str "Ignore".toList)],
   .sdict [("file".toList, .str "mag.dic".toList), ("save".toList, .str "cell".toList), ("miss".toList, .str miss.toList)]]

/-- A dictionary with a definition that has two references. -/
def twoRefsDic (miss : String) : CifDic := (setAttr hostDic "host".toList importAttr (.slist (twoRefs miss))).1

end Samples

/-- The hypotheses are met, and the second reference counts as well. -/
example : letI := asciiFold
    "host".toList ∈ (twoRefsDic "Ignore").keys ∧ (blockOf (twoRefsDic "Ignore") "host").getItem importAttr = .ok (.slist (twoRefs "Ignore")) ∧
    (obtainHeavy (fun _ => .ok magDic) (twoRefsDic "Ignore")).2 = .ok () ∧ (obtainHeavy (fun _ => .ok magDic) (twoRefsDic "Exit")).2 = .error .cif := by
  decide +kernel

end Verif.CifDic
