import Verif.Model.Wrap
import Verif.Spec.Wrap
/-! Helper lemmas for texts laid out anew. -/
namespace Verif
namespace Wrap

theorem isWhite_iff (c : Char) : isWhite c = true ↔ White c := by
  simp only [isWhite, White, Bool.or_eq_true, beq_iff_eq]
  constructor
  · rintro (((((h | h) | h) | h) | h) | h) <;> simp [h]
  · rintro (h | h | h | h | h | h) <;> simp [h]

theorem space_white {c : Char} (h : White c) : isSpace c = true := by
  rcases h with h | h | h | h | h | h <;> subst h <;> decide

/-! ### Solid characters -/

theorem solid_append (a b : Str) : solid (a ++ b) = solid a ++ solid b := List.filter_append ..

theorem solid_nil : solid [] = [] := rfl

theorem solid_replicate (n : Nat) : solid (List.replicate n ' ') = [] := by
  simp only [solid, List.filter_eq_nil_iff, List.mem_replicate]
  rintro c ⟨-, rfl⟩
  decide

theorem solid_cons_space {c : Char} (s : Str) (h : isSpace c = true) : solid (c :: s) = solid s := by simp [solid, h]

theorem solid_cons {c : Char} (s : Str) (h : isSpace c = false) : solid (c :: s) = c :: solid s := by simp [solid, h]

theorem solid_emptied {s : Str} (h : isEmptied s = true) : solid s = [] := by
  simp only [isEmptied, List.all_eq_true] at h
  simp only [solid, List.filter_eq_nil_iff]
  intro c hc
  simp [h c hc]

theorem solid_joinNl : ∀ ls : List Str, solid (joinNl ls) = ls.flatMap solid
  | [] => rfl
  | [l] => by simp [joinNl]
  | l :: m :: ls => by
    rw [joinNl, solid_append, solid_cons_space _ (by decide), solid_joinNl (m :: ls)]
    simp

theorem solid_expandTabs : ∀ (s : Str) (col : Nat), solid (expandTabs col s) = solid s
  | [], _ => rfl
  | c :: r, col => by
    rw [expandTabs]
    split
    · rename_i h
      rw [solid_append, solid_replicate, solid_expandTabs r, List.nil_append, h, solid_cons_space _ (by decide)]
    · split
      · cases hs : isSpace c with
        | true => rw [solid_cons_space _ hs, solid_cons_space _ hs, solid_expandTabs r]
        | false => rw [solid_cons _ hs, solid_cons _ hs, solid_expandTabs r]
      · cases hs : isSpace c with
        | true => rw [solid_cons_space _ hs, solid_cons_space _ hs, solid_expandTabs r]
        | false => rw [solid_cons _ hs, solid_cons _ hs, solid_expandTabs r]

theorem solid_blanks (s : Str) : solid (s.map fun c => if isWhite c then ' ' else c) = solid s := by
  induction s with
  | nil => rfl
  | cons c r ih =>
    rw [List.map_cons]
    by_cases hw : isWhite c = true
    · rw [if_pos hw, solid_cons_space _ (by decide), solid_cons_space _ (space_white ((isWhite_iff c).mp hw)), ih]
    · rw [if_neg hw]
      cases hs : isSpace c with
      | true => rw [solid_cons_space _ hs, solid_cons_space _ hs, ih]
      | false => rw [solid_cons _ hs, solid_cons _ hs, ih]

theorem solid_munge (s : Str) : solid (munge s) = solid s := by rw [munge, solid_blanks, solid_expandTabs]

theorem solid_dropWhile : ∀ s : Str, solid (s.dropWhile isSpace) = solid s
  | [] => rfl
  | c :: r => by
    rw [List.dropWhile_cons]
    split
    · rename_i h
      rw [solid_dropWhile r, solid_cons_space _ h]
    · rfl

theorem solid_reverse (s : Str) : solid s.reverse = (solid s).reverse := by simp [solid, List.filter_reverse]

theorem solid_strip (s : Str) : solid (Number.strip s) = solid s := by
  rw [Number.strip, solid_reverse, solid_dropWhile, solid_reverse, solid_dropWhile, List.reverse_reverse]

theorem solid_splitParas : ∀ s : Str, (splitParas s).flatMap solid = solid s
  | [] => rfl
  | [c] => by simp [splitParas]
  | c :: d :: r => by
    rw [splitParas]
    split
    · rename_i h
      rw [List.flatMap_cons, solid_splitParas r, h.1, h.2, solid_cons_space _ (by decide), solid_cons_space _ (by decide)]
      rfl
    · have ih := solid_splitParas (d :: r)
      cases hs : splitParas (d :: r) with
      | nil =>
        rw [hs] at ih
        simp only [List.flatMap_nil] at ih
        rw [show c :: d :: r = [c] ++ (d :: r) from rfl, solid_append, ← ih]
        simp
      | cons l ls =>
        rw [hs] at ih
        rw [show c :: d :: r = [c] ++ (d :: r) from rfl, solid_append, ← ih]
        rw [List.flatMap_cons, List.flatMap_cons, ← List.append_assoc, ← solid_append]
        rfl

/-! ### Chunks -/

theorem wordLen_pos (K : Kinds) : ∀ (r : Str) (before : Str) (c : Char), 1 ≤ wordLen K before c r
  | [], _, _ => by simp [wordLen]
  | d :: r, before, c => by
    rw [wordLen]
    split
    · omega
    · split
      · omega
      · split <;> omega

theorem chunkLen_pos (K : Kinds) (before : Str) (c : Char) (r : Str) : 1 ≤ chunkLen K before (c :: r) := by
  rw [chunkLen]
  split
  · omega
  · split
    · rename_i h
      rw [Bool.and_eq_true] at h
      have h2 := h.2
      simp only [dashes, Bool.and_eq_true, decide_eq_true_eq] at h2
      exact Nat.le_trans (by omega) h2.1
    · exact wordLen_pos K r before c

theorem chunks_flatten (K : Kinds) : ∀ (fuel : Nat) (before s : Str), (chunks K fuel before s).flatten = s
  | _, _, [] => by simp [chunks]
  | 0, _, c :: r => by simp [chunks]
  | fuel + 1, before, c :: r => by
    rw [chunks, List.flatten_cons, chunks_flatten K fuel, List.take_append_drop]
    simp

theorem chunks_ne (K : Kinds) : ∀ (fuel : Nat) (before s : Str), ∀ x ∈ chunks K fuel before s, x ≠ []
  | _, _, [] => by simp [chunks]
  | 0, _, c :: r => by simp [chunks]
  | fuel + 1, before, c :: r => by
    intro x hx
    rw [chunks] at hx
    · rcases List.mem_cons.mp hx with rfl | hx
      · have h := chunkLen_pos K before c r
        obtain ⟨n, hn⟩ : ∃ n, chunkLen K before (c :: r) = n + 1 := ⟨chunkLen K before (c :: r) - 1, by omega⟩
        rw [hn]
        simp
      · exact chunks_ne K fuel _ _ x hx
    · simp

/-! ### One line -/

theorem fillLine_flatten (w : Int) : ∀ (cs : List Str) (cur : Nat), (fillLine w cur cs).1 ++ (fillLine w cur cs).2 = cs
  | [], _ => rfl
  | c :: r, cur => by
    rw [fillLine]
    split
    · simp [fillLine_flatten w r]
    · rfl

theorem fillLine_length (w : Int) : ∀ (cs : List Str) (cur : Nat), (cur : Int) ≤ w →
    ((cur + (fillLine w cur cs).1.flatten.length : Nat) : Int) ≤ w
  | [], _, h => by simpa [fillLine] using h
  | c :: r, cur, h => by
    rw [fillLine]
    split
    · rename_i hc
      have := fillLine_length w r (cur + c.length) (by simpa using hc)
      simp only [List.flatten_cons, List.length_append]
      omega
    · simpa using h

theorem fillLine_next (w : Int) : ∀ (cs : List Str) (cur : Nat) {c : Str} {r : List Str}, (fillLine w cur cs).2 = c :: r →
    w < ((cur + (fillLine w cur cs).1.flatten.length : Nat) : Int) + c.length
  | [], _, _, _, h => by simp [fillLine] at h
  | d :: t, cur, c, r, h => by
    rw [fillLine] at h ⊢
    split
    · rename_i hc
      rw [if_pos hc] at h
      have := fillLine_next w t (cur + d.length) h
      simp only [List.flatten_cons, List.length_append]
      omega
    · rename_i hc
      rw [if_neg hc] at h
      injection h with h1 h2
      subst h1
      simp only [List.flatten_nil, List.length_nil]
      omega

theorem solid_dropEnd (line : List Str) : solid (dropEnd line).flatten = solid line.flatten := by
  unfold dropEnd
  split
  · rfl
  · rename_i c hc
    split
    · rename_i he
      obtain ⟨l, rfl⟩ := List.getLast?_eq_some_iff.mp hc
      rw [List.dropLast_concat, List.flatten_append, solid_append]
      simp [solid_emptied he]
    · rfl

theorem solid_dropStart (b : Bool) (cs : List Str) : solid (dropStart b cs).flatten = solid cs.flatten := by
  cases cs with
  | nil => rfl
  | cons c r =>
    rw [dropStart]
    split
    · rename_i h
      rw [Bool.and_eq_true] at h
      rw [List.flatten_cons, solid_append, solid_emptied h.1, List.nil_append]
    · rfl

theorem cutLong_flatten (w : Int) (line cs : List Str) : (cutLong w line cs).1.flatten ++ (cutLong w line cs).2.flatten = line.flatten ++ cs.flatten := by
  cases cs with
  | nil => simp [cutLong]
  | cons c r =>
    rw [cutLong]
    split
    · simp only [List.flatten_append, List.flatten_cons, List.flatten_nil, List.append_nil, List.append_assoc]
      rw [← List.append_assoc (List.take _ c), List.take_append_drop]
    · rfl

theorem solid_nextLine (w : Int) (b : Bool) (cs : List Str) :
    solid (nextLine w b cs).1.flatten ++ solid (nextLine w b cs).2.flatten = solid cs.flatten := by
  unfold nextLine
  simp only
  rw [solid_dropEnd, ← solid_append, cutLong_flatten, ← List.flatten_append, fillLine_flatten, solid_dropStart]

theorem solid_wrapChunks {w : Int} {indent : Str} (hi : solid indent = []) : ∀ {fuel : Nat} {b : Bool} {cs ls : List Str},
    wrapChunks w indent fuel b cs = some ls → ls.flatMap solid = solid cs.flatten
  | _, _, [], ls, h => by
    simp only [wrapChunks] at h
    injection h with h
    subst h
    rfl
  | 0, _, _ :: _, _, h => by simp [wrapChunks] at h
  | fuel + 1, b, c :: r, ls, h => by
    rw [wrapChunks] at h
    have hs := solid_nextLine w b (c :: r)
    split at h
    · rename_i he
      rw [solid_wrapChunks hi h, ← hs, he]
      rfl
    · rw [Option.map_eq_some_iff] at h
      obtain ⟨l, hl, rfl⟩ := h
      rw [List.flatMap_cons, solid_wrapChunks hi hl, solid_append, hi, ← hs]
      rfl

theorem solid_fillIn {K : Kinds} {indent fuel : Nat} {p t : Str} (h : fillIn K indent fuel p = some t) : solid t = solid p := by
  unfold fillIn at h
  rw [Option.map_eq_some_iff] at h
  obtain ⟨ls, hl, rfl⟩ := h
  rw [solid_joinNl, solid_wrapChunks (solid_replicate _) hl, chunks_flatten, solid_munge]

theorem mapO_all {f : Str → Option Str} {g : Str → List α} {g' : Str → List α} : ∀ {ps ts : List Str}, mapO f ps = some ts →
    (∀ p ∈ ps, ∀ t, f p = some t → g t = g' p) → ts.flatMap g = ps.flatMap g'
  | [], _, h, _ => by
    simp only [mapO] at h
    injection h with h
    subst h
    rfl
  | p :: r, ts, h, hg => by
    rw [mapO] at h
    split at h
    · cases h
    · rename_i x hx
      rw [Option.map_eq_some_iff] at h
      obtain ⟨l, hl, rfl⟩ := h
      rw [List.flatMap_cons, List.flatMap_cons, hg p (by simp) x hx, mapO_all hl (fun q hq => hg q (by simp [hq]))]

theorem mapO_mem {f : Str → Option Str} : ∀ {ps ts : List Str}, mapO f ps = some ts → ∀ t ∈ ts, ∃ p ∈ ps, f p = some t
  | [], _, h, t, ht => by
    simp only [mapO] at h
    injection h with h
    subst h
    cases ht
  | p :: r, ts, h, t, ht => by
    rw [mapO] at h
    split at h
    · cases h
    · rename_i x hx
      rw [Option.map_eq_some_iff] at h
      obtain ⟨l, hl, rfl⟩ := h
      rcases List.mem_cons.mp ht with rfl | ht
      · exact ⟨p, by simp, hx⟩
      · obtain ⟨q, hq, he⟩ := mapO_mem hl t ht
        exact ⟨q, by simp [hq], he⟩

theorem mapO_some {f : Str → Option Str} : ∀ {ps : List Str}, (∀ p ∈ ps, ∃ t, f p = some t) → ∃ ts, mapO f ps = some ts
  | [], _ => ⟨[], rfl⟩
  | p :: r, h => by
    obtain ⟨t, ht⟩ := h p (by simp)
    obtain ⟨ts, hts⟩ := mapO_some (ps := r) fun q hq => h q (by simp [hq])
    exact ⟨t :: ts, by simp [mapO, ht, hts]⟩

theorem mapO_none {f : Str → Option Str} : ∀ {ps : List Str}, (∃ p ∈ ps, f p = none) → mapO f ps = none
  | [], h => by simp at h
  | p :: r, ⟨q, hq, hn⟩ => by
    rw [mapO]
    cases hp : f p with
    | none => rfl
    | some x =>
      rcases List.mem_cons.mp hq with rfl | hq
      · rw [hn] at hp
        cases hp
      · simp [mapO_none ⟨q, hq, hn⟩]

theorem contains_iff {t : Str} (ht : t ≠ []) : ∀ s : Str, contains t s = true ↔ Occurs t s
  | [] => by
    constructor
    · intro h
      simp [contains] at h
      exact absurd h ht
    · rintro ⟨a, b, h⟩
      have := congrArg List.length h
      simp only [List.length_nil, List.length_append] at this
      exact absurd (List.length_eq_zero_iff.mp (by omega)) ht
  | c :: r => by
    rw [contains, Bool.or_eq_true, List.isPrefixOf_iff_prefix, contains_iff ht r]
    constructor
    · rintro (⟨b, h⟩ | ⟨a, b, h⟩)
      · exact ⟨[], b, by simpa using h.symm⟩
      · exact ⟨c :: a, b, by simp [h]⟩
    · rintro ⟨a, b, h⟩
      cases a with
      | nil => exact .inl ⟨b, by simpa using h.symm⟩
      | cons x a' =>
        injection h with h1 h2
        exact .inr ⟨a', b, h2⟩

/-! ### The loop ends -/

/-- What is left to do. -/
def cost (cs : List Str) : Nat := (cs.map fun c => c.length + 1).sum

theorem cost_append (a b : List Str) : cost (a ++ b) = cost a + cost b := by simp [cost]

theorem lastHyphen_lt : ∀ {s : Str} {n : Nat}, lastHyphen s = some n → n < s.length
  | [], _, h => by simp [lastHyphen] at h
  | c :: r, n, h => by
    rw [lastHyphen] at h
    split at h
    · rename_i m hm
      injection h with h
      have := lastHyphen_lt hm
      simp
      omega
    · split at h
      · injection h with h
        simp
        omega
      · cases h

theorem cutAt_le (space : Nat) (c : Str) : cutAt space c ≤ space := by
  unfold cutAt
  split
  · split
    · rename_i h hh
      have := lastHyphen_lt hh
      rw [List.length_take] at this
      split <;> omega
    · exact Nat.le_refl _
  · exact Nat.le_refl _

theorem cutAt_pos {space : Nat} (h : 1 ≤ space) (c : Str) : 1 ≤ cutAt space c := by
  unfold cutAt
  split
  · split
    · split <;> omega
    · exact h
  · exact h

theorem cost_dropStart (b : Bool) (cs : List Str) : cost (dropStart b cs) ≤ cost cs := by
  cases cs with
  | nil => exact Nat.le_refl _
  | cons c r =>
    rw [dropStart]
    split
    · simp [cost]
    · exact Nat.le_refl _

theorem cost_nextLine {w : Int} (hw : 0 ≤ w) (b : Bool) (c : Str) (r : List Str) : cost (nextLine w b (c :: r)).2 < cost (c :: r) := by
  unfold nextLine
  simp only
  rw [dropStart]
  split
  · have h1 : cost (cutLong w (fillLine w 0 r).1 (fillLine w 0 r).2).2 ≤ cost (fillLine w 0 r).2 := by
      cases (fillLine w 0 r).2 with
      | nil => simp [cutLong]
      | cons d t =>
        rw [cutLong]
        split
        · simp only [cost, List.map_cons, List.sum_cons, List.length_drop]
          omega
        · exact Nat.le_refl _
    have h2 := congrArg cost (fillLine_flatten w r 0)
    rw [cost_append] at h2
    have h3 : cost (c :: r) = c.length + 1 + cost r := rfl
    omega
  · have h2 := congrArg cost (fillLine_flatten w (c :: r) 0)
    rw [cost_append] at h2
    by_cases hc : ((0 : Nat) + c.length : Int) ≤ w
    · have h1 : cost (cutLong w (fillLine w 0 (c :: r)).1 (fillLine w 0 (c :: r)).2).2 ≤ cost (fillLine w 0 (c :: r)).2 := by
        cases (fillLine w 0 (c :: r)).2 with
        | nil => simp [cutLong]
        | cons d t =>
          rw [cutLong]
          split
          · simp only [cost, List.map_cons, List.sum_cons, List.length_drop]
            omega
          · exact Nat.le_refl _
      have h4 : 1 ≤ cost (fillLine w 0 (c :: r)).1 := by
        rw [fillLine, if_pos hc]
        simp only [cost, List.map_cons, List.sum_cons]
        omega
      omega
    · rw [fillLine, if_neg hc]
      simp only
      have hl : (c.length : Int) > w := by simpa using hc
      rw [cutLong, if_pos hl]
      simp only [List.flatten_nil, List.length_nil]
      have hp : 1 ≤ cutAt (spaceLeft w 0) c := by
        apply cutAt_pos
        unfold spaceLeft
        split <;> omega
      simp only [cost, List.map_cons, List.sum_cons, List.length_drop]
      omega

theorem wrapChunks_ends {w : Int} (hw : 0 ≤ w) (indent : Str) : ∀ {fuel : Nat} {b : Bool} {cs : List Str}, cost cs ≤ fuel →
    ∃ ls, wrapChunks w indent fuel b cs = some ls
  | _, _, [], _ => ⟨[], by simp [wrapChunks]⟩
  | 0, _, c :: r, h => by simp [cost] at h
  | fuel + 1, b, c :: r, h => by
    have hc := cost_nextLine hw b c r
    rw [wrapChunks]
    split
    · exact wrapChunks_ends hw indent (by omega)
    · obtain ⟨ls, hl⟩ := wrapChunks_ends (b := true) hw indent (fuel := fuel) (cs := (nextLine w b (c :: r)).2) (by omega)
      exact ⟨_, by rw [hl]; rfl⟩

theorem cost_le : ∀ {cs : List Str}, (∀ x ∈ cs, x ≠ []) → cost cs ≤ 2 * cs.flatten.length
  | [], _ => by simp [cost]
  | c :: r, h => by
    have ih := cost_le (cs := r) fun x hx => h x (by simp [hx])
    have hc : 1 ≤ c.length := List.length_pos_iff.mpr (h c (by simp))
    have e : cost (c :: r) = c.length + 1 + cost r := rfl
    rw [List.flatten_cons, List.length_append]
    omega

theorem fillIn_ends (K : Kinds) {indent fuel : Nat} (p : Str) (hi : indent ≤ columns) (hf : 2 * (munge p).length ≤ fuel) :
    ∃ t, fillIn K indent fuel p = some t := by
  obtain ⟨ls, hl⟩ := wrapChunks_ends (w := (columns : Int) - indent) (by omega) (List.replicate indent ' ') (b := false)
    (fuel := fuel) (cs := chunks K (munge p).length [] (munge p)) (by
      have := cost_le (chunks_ne K (munge p).length [] (munge p))
      rw [chunks_flatten] at this
      omega)
  exact ⟨joinNl ls, by unfold fillIn; rw [hl]; rfl⟩

/-! ### The lines -/

theorem cutLong_length {w : Int} (hw : 1 ≤ w) (line cs : List Str) (hl : (line.flatten.length : Int) ≤ w) :
    ((cutLong w line cs).1.flatten.length : Int) ≤ w := by
  cases cs with
  | nil => exact hl
  | cons c r =>
    rw [cutLong]
    split
    · simp only [List.flatten_append, List.flatten_cons, List.flatten_nil, List.append_nil, List.length_append, List.length_take]
      have h1 := cutAt_le (spaceLeft w line.flatten.length) c
      have h2 : spaceLeft w line.flatten.length = (w - line.flatten.length).toNat := by
        unfold spaceLeft
        rw [if_neg (by omega)]
      omega
    · exact hl

theorem dropEnd_length (line : List Str) : (dropEnd line).flatten.length ≤ line.flatten.length := by
  unfold dropEnd
  split
  · exact Nat.le_refl _
  · rename_i c hc
    split
    · obtain ⟨l, rfl⟩ := List.getLast?_eq_some_iff.mp hc
      rw [List.dropLast_concat]
      simp
    · exact Nat.le_refl _

theorem nextLine_length {w : Int} (hw : 1 ≤ w) (b : Bool) (cs : List Str) : ((nextLine w b cs).1.flatten.length : Int) ≤ w := by
  unfold nextLine
  simp only
  have h1 := fillLine_length w (dropStart b cs) 0 (by omega)
  have h2 := cutLong_length hw (fillLine w 0 (dropStart b cs)).1 (fillLine w 0 (dropStart b cs)).2 (by simpa using h1)
  have h3 := dropEnd_length (cutLong w (fillLine w 0 (dropStart b cs)).1 (fillLine w 0 (dropStart b cs)).2).1
  omega

theorem dropEnd_sub (line : List Str) : ∀ c ∈ (dropEnd line).flatten, c ∈ line.flatten := by
  intro c hc
  unfold dropEnd at hc
  split at hc
  · exact hc
  · rename_i x hx
    split at hc
    · obtain ⟨l, rfl⟩ := List.getLast?_eq_some_iff.mp hx
      rw [List.dropLast_concat] at hc
      rw [List.flatten_append]
      exact List.mem_append_left _ hc
    · exact hc

theorem dropStart_sub (b : Bool) (cs : List Str) : ∀ c ∈ (dropStart b cs).flatten, c ∈ cs.flatten := by
  intro c hc
  cases cs with
  | nil => exact hc
  | cons x r =>
    rw [dropStart] at hc
    split at hc
    · rw [List.flatten_cons]
      exact List.mem_append_right _ hc
    · exact hc

theorem nextLine_sub (w : Int) (b : Bool) (cs : List Str) :
    ∀ c, c ∈ (nextLine w b cs).1.flatten ∨ c ∈ (nextLine w b cs).2.flatten → c ∈ cs.flatten := by
  intro c hc
  have h : c ∈ (cutLong w (fillLine w 0 (dropStart b cs)).1 (fillLine w 0 (dropStart b cs)).2).1.flatten ++
      (cutLong w (fillLine w 0 (dropStart b cs)).1 (fillLine w 0 (dropStart b cs)).2).2.flatten := by
    rcases hc with hc | hc
    · exact List.mem_append_left _ (dropEnd_sub _ c hc)
    · exact List.mem_append_right _ hc
  rw [cutLong_flatten, ← List.flatten_append, fillLine_flatten] at h
  exact dropStart_sub b cs c h

theorem wrapChunks_lines {w : Int} (hw : 1 ≤ w) {indent : Str} : ∀ {fuel : Nat} {b : Bool} {cs ls : List Str},
    wrapChunks w indent fuel b cs = some ls →
    ∀ l ∈ ls, ∃ t, l = indent ++ t ∧ (t.length : Int) ≤ w ∧ ∀ c ∈ t, c ∈ cs.flatten
  | _, _, [], ls, h => by
    simp only [wrapChunks] at h
    injection h with h
    subst h
    intro l hl
    cases hl
  | 0, _, _ :: _, _, h => by simp [wrapChunks] at h
  | fuel + 1, b, c :: r, ls, h => by
    rw [wrapChunks] at h
    split at h
    · intro l hl
      obtain ⟨t, h1, h2, h3⟩ := wrapChunks_lines hw h l hl
      exact ⟨t, h1, h2, fun x hx => nextLine_sub w b _ x (.inr (h3 x hx))⟩
    · rw [Option.map_eq_some_iff] at h
      obtain ⟨ls', hl', rfl⟩ := h
      intro l hl
      rcases List.mem_cons.mp hl with rfl | hl
      · exact ⟨_, rfl, nextLine_length hw b _, fun x hx => nextLine_sub w b _ x (.inl hx)⟩
      · obtain ⟨t, h1, h2, h3⟩ := wrapChunks_lines hw hl' l hl
        exact ⟨t, h1, h2, fun x hx => nextLine_sub w b _ x (.inr (h3 x hx))⟩

theorem munge_chars (s : Str) : ∀ c ∈ munge s, isWhite c = true → c = ' ' := by
  intro c hc hw
  unfold munge at hc
  obtain ⟨d, -, rfl⟩ := List.mem_map.mp hc
  split
  · rfl
  · rename_i h
    rw [if_neg h] at hw
    exact absurd hw h

theorem linesOf_plain : ∀ {s : Str}, '\n' ∉ s → linesOf s = [s]
  | [], _ => rfl
  | c :: r, h => by
    rw [linesOf, if_neg (fun e => h (by simp [e])), linesOf_plain (fun e => h (by simp [e]))]

theorem linesOf_append : ∀ (a b : Str), linesOf (a ++ '\n' :: b) = linesOf a ++ linesOf b
  | [], b => by simp [linesOf]
  | c :: a, b => by
    rw [List.cons_append, linesOf, linesOf, linesOf_append a b]
    split
    · rfl
    · cases h : linesOf a with
      | nil =>
        exfalso
        cases a with
        | nil => simp [linesOf] at h
        | cons d t =>
          rw [linesOf] at h
          split at h
          · cases h
          · split at h <;> cases h
      | cons l ls => rfl

theorem linesOf_joinNl : ∀ {ls : List Str}, ls ≠ [] → linesOf (joinNl ls) = ls.flatMap linesOf
  | [], h => absurd rfl h
  | [l], _ => by simp [joinNl]
  | l :: m :: ls, _ => by
    rw [joinNl, linesOf_append, linesOf_joinNl (by simp)]
    rfl

theorem fillIn_lines {K : Kinds} {indent fuel : Nat} {p t : Str} (hi : indent < columns) (h : fillIn K indent fuel p = some t) :
    ∀ l ∈ linesOf t, l = [] ∨ ∃ u, l = List.replicate indent ' ' ++ u ∧ l.length ≤ columns := by
  unfold fillIn at h
  rw [Option.map_eq_some_iff] at h
  obtain ⟨ls, hl, rfl⟩ := h
  have hL := wrapChunks_lines (by omega) hl
  intro l hm
  by_cases hn : ls = []
  · subst hn
    simp [joinNl, linesOf] at hm
    exact .inl hm
  · rw [linesOf_joinNl hn] at hm
    obtain ⟨m, hm1, hm2⟩ := List.mem_flatMap.mp hm
    obtain ⟨u, h1, h2, h3⟩ := hL m hm1
    rw [linesOf_plain] at hm2
    · simp only [List.mem_singleton] at hm2
      subst hm2
      refine .inr ⟨u, h1, ?_⟩
      rw [h1, List.length_append, List.length_replicate]
      omega
    · intro hx
      rw [h1] at hx
      rcases List.mem_append.mp hx with hx | hx
      · exact absurd (List.mem_replicate.mp hx).2 (by decide)
      · have := h3 _ hx
        rw [chunks_flatten] at this
        exact absurd (munge_chars p _ this (by decide)) (by decide)

/-! ### Words -/

theorem pieces_ne : ∀ s : Str, pieces s ≠ []
  | [] => by simp [pieces]
  | c :: r => by
    rw [pieces]
    split
    · simp
    · split <;> simp

theorem pieces_append {c : Char} (hc : White c) : ∀ (a b : Str), pieces (a ++ c :: b) = pieces a ++ pieces b
  | [], b => by simp [pieces, hc]
  | d :: a, b => by
    rw [List.cons_append, pieces, pieces, pieces_append hc a b]
    split
    · rfl
    · cases h : pieces a with
      | nil => exact absurd h (pieces_ne a)
      | cons l ls => rfl

theorem words_append {c : Char} (hc : White c) (a b : Str) : words (a ++ c :: b) = words a ++ words b := by
  rw [words, pieces_append hc, List.filter_append]
  rfl

theorem words_nil : words [] = [] := rfl

theorem words_cons {c : Char} (hc : White c) (b : Str) : words (c :: b) = words b := by
  have := words_append hc [] b
  simpa [words_nil] using this

theorem words_whites : ∀ {a : Str} (_ : ∀ c ∈ a, White c) (b : Str), words (a ++ b) = words b
  | [], _, b => rfl
  | c :: a, h, b => by
    rw [List.cons_append, words_cons (h c (by simp)), words_whites (fun d hd => h d (by simp [hd])) b]

theorem words_white {a : Str} (h : ∀ c ∈ a, White c) : words a = [] := by
  have := words_whites h []
  rwa [List.append_nil] at this

theorem words_after {a : Str} (h : ∀ c ∈ a, White c) : ∀ b : Str, words (b ++ a) = words b := by
  intro b
  cases a with
  | nil => rw [List.append_nil]
  | cons c a =>
    rw [words_append (h c (by simp)), words_white (a := a) (fun d hd => h d (by simp [hd])), List.append_nil]

theorem pieces_solid : ∀ {s : Str}, (∀ c ∈ s, ¬ White c) → pieces s = [s]
  | [], _ => rfl
  | c :: r, h => by rw [pieces, if_neg (h c (by simp)), pieces_solid fun d hd => h d (by simp [hd])]

theorem words_solid {s : Str} (h : ∀ c ∈ s, ¬ White c) (hs : s ≠ []) : words s = [s] := by
  rw [words, pieces_solid h]
  cases s with
  | nil => exact absurd rfl hs
  | cons c r => rfl

theorem words_joinNl : ∀ ls : List Str, words (joinNl ls) = ls.flatMap words
  | [] => rfl
  | [l] => by simp [joinNl]
  | l :: m :: ls => by
    rw [joinNl, words_append (by simp [White]), words_joinNl (m :: ls)]
    rfl

theorem words_indent (n : Nat) (s : Str) : words (List.replicate n ' ' ++ s) = words s :=
  words_whites (fun _ hc => .inl (List.mem_replicate.mp hc).2) s

/-- The words are no longer than the text. -/
theorem pieces_length : ∀ {s : Str}, ∀ x ∈ pieces s, x.length ≤ s.length
  | [], x, hx => by
    simp [pieces] at hx
    simp [hx]
  | c :: r, x, hx => by
    rw [pieces] at hx
    split at hx
    · rcases List.mem_cons.mp hx with rfl | hx
      · simp
      · have := pieces_length x hx
        simp
        omega
    · split at hx
      · rename_i h
        exact absurd h (pieces_ne r)
      · rename_i l ls h
        rcases List.mem_cons.mp hx with rfl | hx
        · have := pieces_length (s := r) l (by simp [h])
          simpa using this
        · have := pieces_length (s := r) x (by simp [h, hx])
          simp
          omega

theorem words_length {s : Str} : ∀ x ∈ words s, x.length ≤ s.length := fun x hx => pieces_length x (List.mem_filter.mp hx).1

/-- The texts have the same first piece, and the same words after it. -/
def SamePieces (s t : Str) : Prop :=
  ∃ l ls ls', pieces s = l :: ls ∧ pieces t = l :: ls' ∧ (ls.filter fun w => !w.isEmpty) = ls'.filter fun w => !w.isEmpty

theorem SamePieces.sameWords {s t : Str} (h : SamePieces s t) : words s = words t := by
  obtain ⟨l, ls, ls', h1, h2, h3⟩ := h
  rw [Wrap.words, Wrap.words, h1, h2, List.filter_cons, List.filter_cons, h3]

theorem SamePieces.cons {s t : Str} (c : Char) (h : SamePieces s t) : SamePieces (c :: s) (c :: t) := by
  obtain ⟨l, ls, ls', h1, h2, h3⟩ := h
  by_cases hc : White c
  · refine ⟨[], pieces s, pieces t, by rw [pieces, if_pos hc], by rw [pieces, if_pos hc], ?_⟩
    rw [h1, h2, List.filter_cons, List.filter_cons, h3]
  · refine ⟨c :: l, ls, ls', ?_, ?_, h3⟩
    · rw [pieces, if_neg hc, h1]
    · rw [pieces, if_neg hc, h2]

theorem SamePieces.white {s t : Str} {c d : Char} (hc : White c) (hd : White d) (h : words s = words t) : SamePieces (c :: s) (d :: t) :=
  ⟨[], pieces s, pieces t, by rw [pieces, if_pos hc], by rw [pieces, if_pos hd], h⟩

theorem expandTabs_same : ∀ (s : Str) (col : Nat), SamePieces (expandTabs col s) s
  | [], _ => ⟨[], [], [], rfl, rfl, rfl⟩
  | c :: r, col => by
    rw [expandTabs]
    split
    · rename_i h
      have hm : col % 8 < 8 := Nat.mod_lt _ (by omega)
      obtain ⟨n, hn⟩ : ∃ n, 8 - col % 8 = n + 1 := ⟨8 - col % 8 - 1, by omega⟩
      rw [hn, List.replicate_succ, List.cons_append]
      refine .white (.inl rfl) (h ▸ .inr (.inl rfl)) ?_
      rw [words_indent]
      exact (expandTabs_same r _).sameWords
    · split
      · exact (expandTabs_same r 0).cons c
      · exact (expandTabs_same r _).cons c

theorem blanks_same : ∀ s : Str, SamePieces (s.map fun c => if isWhite c then ' ' else c) s
  | [] => ⟨[], [], [], rfl, rfl, rfl⟩
  | c :: r => by
    rw [List.map_cons]
    split
    · rename_i h
      exact .white (.inl rfl) ((isWhite_iff c).mp h) (blanks_same r).sameWords
    · exact (blanks_same r).cons c

theorem words_munge (s : Str) : words (munge s) = words s :=
  (blanks_same _).sameWords.trans (expandTabs_same s 0).sameWords

theorem dropWhile_split (s : Str) : ∃ a, s = a ++ s.dropWhile isSpace ∧ ∀ c ∈ a, isSpace c = true := by
  refine ⟨s.takeWhile isSpace, List.takeWhile_append_dropWhile.symm, fun c hc => ?_⟩
  induction s with
  | nil => cases hc
  | cons d r ih =>
    rw [List.takeWhile_cons] at hc
    split at hc
    · rename_i h
      rcases List.mem_cons.mp hc with rfl | hc
      · exact h
      · exact ih hc
    · cases hc

theorem strip_split (s : Str) : ∃ a b, s = a ++ Number.strip s ++ b ∧ ∀ c ∈ a ++ b, isSpace c = true := by
  obtain ⟨a, h1, h2⟩ := dropWhile_split s
  obtain ⟨b, h3, h4⟩ := dropWhile_split (s.dropWhile isSpace).reverse
  refine ⟨a, b.reverse, ?_, ?_⟩
  · have h5 := congrArg List.reverse h3
    rw [List.reverse_reverse, List.reverse_append] at h5
    rw [Number.strip, List.append_assoc, ← h5, ← h1]
  · intro c hc
    rcases List.mem_append.mp hc with hc | hc
    · exact h2 c hc
    · exact h4 c (List.mem_reverse.mp hc)

theorem words_strip {s : Str} (hp : Plain s) : words (Number.strip s) = words s := by
  obtain ⟨a, b, h1, h2⟩ := strip_split s
  have ha : ∀ c ∈ a, White c := fun c hc => hp c (by rw [h1]; simp [hc]) (h2 c (by simp [hc]))
  have hb : ∀ c ∈ b, White c := fun c hc => hp c (by rw [h1]; simp [hc]) (h2 c (by simp [hc]))
  conv => rhs; rw [h1, words_after hb, words_whites ha]

theorem strip_mem {s : Str} : ∀ c ∈ Number.strip s, c ∈ s := by
  obtain ⟨a, b, h1, -⟩ := strip_split s
  intro c hc
  rw [h1]
  simp [hc]

theorem words_two (a : Str) : words ('\n' :: '\n' :: a) = words a := by
  rw [words_cons (by simp [White]), words_cons (by simp [White])]

theorem splitParas_join : ∀ s : Str, ∃ l ls, splitParas s = l :: ls ∧ s = l ++ ls.flatMap fun m => '\n' :: '\n' :: m
  | [] => ⟨[], [], rfl, rfl⟩
  | [c] => ⟨[c], [], rfl, rfl⟩
  | c :: d :: r => by
    rw [splitParas]
    split
    · rename_i h
      obtain ⟨l, ls, h1, h2⟩ := splitParas_join r
      refine ⟨[], l :: ls, by rw [h1], ?_⟩
      rw [List.flatMap_cons, h.1, h.2, List.nil_append, List.cons_append, List.cons_append, ← h2]
    · obtain ⟨l, ls, h1, h2⟩ := splitParas_join (d :: r)
      rw [h1]
      exact ⟨c :: l, ls, rfl, by rw [h2]; rfl⟩

theorem words_paras : ∀ (ls : List Str) (l : Str), words (l ++ ls.flatMap fun m => '\n' :: '\n' :: m) = words l ++ ls.flatMap words
  | [], l => by simp
  | m :: ls, l => by
    rw [List.flatMap_cons, List.cons_append, List.cons_append, words_append (by simp [White]), words_cons (by simp [White]),
      words_paras ls m]
    rfl

theorem words_splitParas (s : Str) : (splitParas s).flatMap words = words s := by
  obtain ⟨l, ls, h1, h2⟩ := splitParas_join s
  rw [h1, List.flatMap_cons]
  conv => rhs; rw [h2, words_paras]

theorem splitParas_mem {s p : Str} (hp : p ∈ splitParas s) : ∀ c ∈ p, c ∈ s := by
  obtain ⟨l, ls, h1, h2⟩ := splitParas_join s
  intro c hc
  rw [h1] at hp
  rw [h2]
  rcases List.mem_cons.mp hp with rfl | hp
  · simp [hc]
  · exact List.mem_append_right _ (List.mem_flatMap.mpr ⟨p, hp, by simp [hc]⟩)

/-! ### Words which are kept whole -/

/-- A chunk of whitespace. -/
def Gap (c : Str) : Prop := c ≠ [] ∧ ∀ x ∈ c, White x
/-- A chunk which is a word. -/
def Whole (c : Str) : Prop := c ≠ [] ∧ ∀ x ∈ c, isSpace x = false

/-- Words and gaps, where no two words are neighbours. -/
inductive Alternates : List Str → Prop where
  | nil : Alternates []
  | gap {c : Str} {r : List Str} : Gap c → Alternates r → Alternates (c :: r)
  | last {c : Str} : Whole c → Alternates [c]
  | word {c d : Str} {r : List Str} : Whole c → Gap d → Alternates r → Alternates (c :: d :: r)

/-- The words among the chunks. -/
def kept (cs : List Str) : List Str := cs.filter fun c => !isEmptied c

theorem gap_emptied {c : Str} (h : Gap c) : isEmptied c = true := by
  simp only [isEmptied, List.all_eq_true]
  exact fun x hx => space_white (h.2 x hx)

theorem whole_emptied {c : Str} (h : Whole c) : isEmptied c = false := by
  cases c with
  | nil => exact absurd rfl h.1
  | cons x r => simp [isEmptied, h.2 x (by simp)]

theorem whole_solid {c : Str} (h : Whole c) : ∀ x ∈ c, ¬ White x := fun x hx hw => by
  have := h.2 x hx
  rw [space_white hw] at this
  cases this

theorem words_alternates : ∀ {cs : List Str}, Alternates cs → words cs.flatten = kept cs
  | _, .nil => rfl
  | _, .gap (c := c) (r := r) hg ha => by
    rw [List.flatten_cons, words_whites hg.2, words_alternates ha]
    simp [kept, gap_emptied hg]
  | _, .last (c := c) hw => by
    rw [List.flatten_cons, List.flatten_nil, List.append_nil, words_solid (whole_solid hw) hw.1]
    simp [kept, whole_emptied hw]
  | _, .word (c := c) (d := d) (r := r) hw hg ha => by
    obtain ⟨x, d', rfl⟩ : ∃ x d', d = x :: d' := by
      cases d with
      | nil => exact absurd rfl hg.1
      | cons x d' => exact ⟨x, d', rfl⟩
    rw [List.flatten_cons, List.flatten_cons, List.cons_append, words_append (hg.2 x (by simp)),
      words_solid (whole_solid hw) hw.1, words_whites fun y hy => hg.2 y (by simp [hy]), words_alternates ha]
    simp [kept, whole_emptied hw, gap_emptied hg]

theorem alternates_tail {c : Str} {r : List Str} (h : Alternates (c :: r)) : Alternates r := by
  cases h with
  | gap _ h => exact h
  | last _ => exact .nil
  | word _ hg h => exact .gap hg h

theorem alternates_kind {cs : List Str} (h : Alternates cs) : ∀ c ∈ cs, Gap c ∨ Whole c := by
  induction h with
  | nil => intro c hc; cases hc
  | gap hg _ ih =>
    intro c hc
    rcases List.mem_cons.mp hc with rfl | hc
    · exact .inl hg
    · exact ih c hc
  | last hw =>
    intro c hc
    rw [List.mem_singleton] at hc
    exact .inr (hc ▸ hw)
  | word hw hg _ ih =>
    intro c hc
    rcases List.mem_cons.mp hc with rfl | hc
    · exact .inr hw
    · rcases List.mem_cons.mp hc with rfl | hc
      · exact .inl hg
      · exact ih c hc

theorem alternates_right : ∀ {a b : List Str}, Alternates (a ++ b) → Alternates b
  | [], _, h => h
  | _ :: _, _, h => alternates_right (alternates_tail h)

theorem alternates_left : ∀ {a b : List Str}, Alternates (a ++ b) → Alternates a
  | [], _, _ => .nil
  | [c], b, h => by
    cases h with
    | gap hg _ => exact .gap hg .nil
    | last hw => exact .last hw
    | word hw _ _ => exact .last hw
  | c :: d :: a, b, h => by
    cases h with
    | gap hg h => exact .gap hg (alternates_left h)
    | word hw hg h => exact .word hw hg (alternates_left h)

theorem kept_append (a b : List Str) : kept (a ++ b) = kept a ++ kept b := List.filter_append ..

theorem kept_dropEnd (line : List Str) : kept (dropEnd line) = kept line := by
  unfold dropEnd
  split
  · rfl
  · rename_i c hc
    split
    · rename_i he
      obtain ⟨l, rfl⟩ := List.getLast?_eq_some_iff.mp hc
      rw [List.dropLast_concat, kept_append]
      simp [kept, he]
    · rfl

theorem alternates_dropEnd {line : List Str} (h : Alternates line) : Alternates (dropEnd line) := by
  unfold dropEnd
  split
  · exact h
  · rename_i c hc
    split
    · obtain ⟨l, rfl⟩ := List.getLast?_eq_some_iff.mp hc
      rw [List.dropLast_concat]
      exact alternates_left h
    · exact h

theorem kept_dropStart (b : Bool) (cs : List Str) : kept (dropStart b cs) = kept cs := by
  cases cs with
  | nil => rfl
  | cons c r =>
    rw [dropStart]
    split
    · rename_i h
      rw [Bool.and_eq_true] at h
      simp [kept, h.1]
    · rfl

theorem alternates_dropStart (b : Bool) {cs : List Str} (h : Alternates cs) : Alternates (dropStart b cs) := by
  cases cs with
  | nil => exact h
  | cons c r =>
    rw [dropStart]
    split
    · exact alternates_tail h
    · exact h

/-- All words fit on a line. -/
def Short (w : Int) (cs : List Str) : Prop := ∀ c ∈ cs, Whole c → (c.length : Int) ≤ w

theorem nextLine_keeps {w : Int} (hw : 1 ≤ w) (b : Bool) {cs : List Str} (ha : Alternates cs) (hs : Short w cs) :
    words (nextLine w b cs).1.flatten ++ kept (nextLine w b cs).2 = kept cs ∧ Alternates (nextLine w b cs).2 ∧
    Short w (nextLine w b cs).2 := by
  have hd := alternates_dropStart b ha
  have hs' : Short w (dropStart b cs) := by
    intro c hc
    cases cs with
    | nil => cases hc
    | cons x r =>
      rw [dropStart] at hc
      split at hc
      · exact hs c (by simp [hc])
      · exact hs c hc
  rw [← kept_dropStart b cs]
  unfold nextLine
  simp only
  generalize dropStart b cs = ds at hd hs'
  have hf := fillLine_flatten w ds 0
  have hn := fun c r => fillLine_next w ds 0 (c := c) (r := r)
  have hlen := fillLine_length w ds 0 (by omega)
  generalize (fillLine w 0 ds).1 = line at hf hn hlen
  generalize (fillLine w 0 ds).2 = rest at hf hn
  subst hf
  have hl := alternates_left hd
  have hr := alternates_right hd
  cases rest with
  | nil =>
    refine ⟨?_, hr, fun c hc => absurd hc (by simp [cutLong])⟩
    show words (dropEnd line).flatten ++ kept [] = _
    rw [words_alternates (alternates_dropEnd hl), kept_dropEnd, kept_append]
  | cons c r =>
    rw [cutLong]
    split
    · rename_i hc
      have hg : Gap c := by
        rcases alternates_kind hr c (by simp) with h | h
        · exact h
        · exact absurd (hs' c (by simp) h) (by omega)
      have hk : cutAt (spaceLeft w line.flatten.length) c < c.length := by
        have h1 := cutAt_le (spaceLeft w line.flatten.length) c
        have h2 : spaceLeft w line.flatten.length = (w - line.flatten.length).toNat := by
          unfold spaceLeft
          rw [if_neg (by omega)]
        omega
      have he : isEmptied (c.take (cutAt (spaceLeft w line.flatten.length) c)) = true := by
        simp only [isEmptied, List.all_eq_true]
        exact fun x hx => space_white (hg.2 x (List.mem_of_mem_take hx))
      have hg' : Gap (c.drop (cutAt (spaceLeft w line.flatten.length) c)) := by
        refine ⟨?_, fun x hx => hg.2 x (List.mem_of_mem_drop hx)⟩
        intro h0
        have := congrArg List.length h0
        simp only [List.length_drop, List.length_nil] at this
        omega
      simp only
      refine ⟨?_, .gap hg' (alternates_tail hr), ?_⟩
      · have e : dropEnd (line ++ [c.take (cutAt (spaceLeft w line.flatten.length) c)]) = line := by
          unfold dropEnd
          simp only [List.getLast?_concat, List.dropLast_concat]
          rw [if_pos he]
        rw [e, words_alternates hl, kept_append]
        unfold kept
        rw [List.filter_cons, List.filter_cons, gap_emptied hg, gap_emptied hg']
        rfl
      · intro x hx hwx
        rcases List.mem_cons.mp hx with rfl | hx
        · have := gap_emptied hg'
          rw [whole_emptied hwx] at this
          cases this
        · exact hs' x (by simp [hx]) hwx
    · simp only
      refine ⟨?_, hr, fun x hx => hs' x (List.mem_append_right _ hx)⟩
      rw [words_alternates (alternates_dropEnd hl), kept_dropEnd, kept_append]

theorem words_wrapChunks {w : Int} (hw : 1 ≤ w) {n : Nat} : ∀ {fuel : Nat} {b : Bool} {cs ls : List Str}, Alternates cs → Short w cs →
    wrapChunks w (List.replicate n ' ') fuel b cs = some ls → ls.flatMap words = kept cs
  | _, _, [], ls, _, _, h => by
    simp only [wrapChunks] at h
    injection h with h
    subst h
    rfl
  | 0, _, _ :: _, _, _, _, h => by simp [wrapChunks] at h
  | fuel + 1, b, c :: r, ls, ha, hs, h => by
    rw [wrapChunks] at h
    obtain ⟨h1, h2, h3⟩ := nextLine_keeps hw b ha hs
    split at h
    · rename_i he
      rw [words_wrapChunks hw h2 h3 h, ← h1, he]
      rfl
    · rw [Option.map_eq_some_iff] at h
      obtain ⟨l, hl, rfl⟩ := h
      rw [List.flatMap_cons, words_wrapChunks hw h2 h3 hl, words_indent, h1]

/-- Without hyphens the chunks are the words and the gaps. -/
theorem wordLen_run (K : Kinds) : ∀ (r : Str) (before : Str) (c : Char), '-' ∉ r →
    wordLen K before c r = 1 + (r.takeWhile fun x => !isWhite x).length
  | [], _, _, _ => rfl
  | d :: r, before, c, h => by
    have hd : d ≠ '-' := fun e => h (by simp [e])
    rw [wordLen, if_neg (fun e => hd e.1)]
    by_cases hw : isWhite d = true
    · rw [if_pos hw]
      simp [hw]
    · rw [if_neg hw, if_neg]
      · rw [wordLen_run K r _ d fun e => h (by simp [e])]
        simp only [Bool.not_eq_true] at hw
        simp [hw]
        omega
      · rintro ⟨-, e⟩
        simp [dashes, hd] at e

theorem takeWhile_split (p : Char → Bool) (s : Str) :
    s.take (s.takeWhile p).length = s.takeWhile p ∧ s.drop (s.takeWhile p).length = s.dropWhile p := by
  have h := List.takeWhile_append_dropWhile (p := p) (l := s)
  constructor
  · conv => lhs; arg 2; rw [← h]
    rw [List.take_left']
    rfl
  · conv => lhs; arg 2; rw [← h]
    rw [List.drop_left']
    rfl

theorem takeWhile_all (p : Char → Bool) : ∀ {s : Str}, ∀ c ∈ s.takeWhile p, p c = true
  | [], c, hc => by cases hc
  | d :: r, c, hc => by
    rw [List.takeWhile_cons] at hc
    split at hc
    · rename_i h
      rcases List.mem_cons.mp hc with rfl | hc
      · exact h
      · exact takeWhile_all p c hc
    · cases hc

theorem dropWhile_head (p : Char → Bool) : ∀ {s : Str} {c : Char} {r : Str}, s.dropWhile p = c :: r → p c = false
  | [], _, _, h => by cases h
  | d :: t, c, r, h => by
    rw [List.dropWhile_cons] at h
    split at h
    · exact dropWhile_head p h
    · rename_i hd
      injection h with h1 h2
      subst h1
      simpa using hd

theorem dropWhile_length (p : Char → Bool) (s : Str) : (s.dropWhile p).length ≤ s.length := by
  have h := congrArg List.length (List.takeWhile_append_dropWhile (p := p) (l := s))
  rw [List.length_append] at h
  omega

theorem dropWhile_mem (p : Char → Bool) (s : Str) : ∀ c ∈ s.dropWhile p, c ∈ s := by
  intro c hc
  rw [← List.takeWhile_append_dropWhile (p := p) (l := s)]
  exact List.mem_append_right _ hc

theorem chunkLen_white (K : Kinds) (before : Str) {c : Char} (r : Str) (h : isWhite c = true) :
    chunkLen K before (c :: r) = ((c :: r).takeWhile isWhite).length := by
  rw [chunkLen, if_pos h, List.takeWhile_cons, if_pos h, List.length_cons]
  omega

theorem chunkLen_word (K : Kinds) (before : Str) {c : Char} (r : Str) (h : isWhite c = false) (hh : '-' ∉ c :: r) :
    chunkLen K before (c :: r) = ((c :: r).takeWhile fun x => !isWhite x).length := by
  rw [chunkLen, if_neg (by simp [h]), if_neg, wordLen_run K r before c fun e => hh (by simp [e])]
  · rw [List.takeWhile_cons, if_pos (by simp [h]), List.length_cons]
    omega
  · intro e
    have hc : c ≠ '-' := fun e' => hh (by simp [e'])
    simp [dashes, hc] at e

theorem chunks_alternate (K : Kinds) : ∀ (fuel : Nat) (before s : Str), s.length ≤ fuel → '-' ∉ s → Plain s →
    Alternates (chunks K fuel before s)
  | _, _, [], _, _, _ => by
    rw [chunks]
    exact .nil
  | 0, _, c :: r, h, _, _ => by simp at h
  | fuel + 1, before, c :: r, h, hh, hp => by
    rw [chunks]
    · have hlen : r.length ≤ fuel := by simpa using h
      by_cases hw : isWhite c = true
      · rw [chunkLen_white K before r hw, (takeWhile_split _ _).1, (takeWhile_split _ _).2]
        have hsub := dropWhile_mem isWhite (c :: r)
        refine .gap ⟨?_, fun x hx => (isWhite_iff x).mp (takeWhile_all _ x hx)⟩ (chunks_alternate K fuel _ _ ?_ (fun e => hh (hsub _ e))
          (fun x hx => hp x (hsub x hx)))
        · rw [List.takeWhile_cons, if_pos hw]
          simp
        · rw [List.dropWhile_cons, if_pos hw]
          exact Nat.le_trans (dropWhile_length _ _) hlen
      · simp only [Bool.not_eq_true] at hw
        rw [chunkLen_word K before r hw hh, (takeWhile_split _ _).1, (takeWhile_split _ _).2]
        have hsub := dropWhile_mem (fun x => !isWhite x) (c :: r)
        have hwhole : Whole ((c :: r).takeWhile fun x => !isWhite x) := by
          constructor
          · rw [List.takeWhile_cons, if_pos (by simp [hw])]
            simp
          · intro x hx
            have h1 := takeWhile_all _ x hx
            have h2 : x ∈ c :: r := by
              rw [← List.takeWhile_append_dropWhile (p := fun x => !isWhite x) (l := c :: r)]
              exact List.mem_append_left _ hx
            cases hsx : isSpace x with
            | false => rfl
            | true =>
              have := (isWhite_iff x).mpr (hp x h2 hsx)
              simp [this] at h1
        have hdl : ((c :: r).dropWhile fun x => !isWhite x).length ≤ fuel := by
          rw [List.dropWhile_cons, if_pos (by simp [hw])]
          exact Nat.le_trans (dropWhile_length _ _) hlen
        have hrest := chunks_alternate K fuel (((c :: r).takeWhile fun x => !isWhite x).reverse ++ before) _ hdl
          (fun e => hh (hsub _ e)) (fun x hx => hp x (hsub x hx))
        generalize hd : ((c :: r).dropWhile fun x => !isWhite x) = t at hrest hdl hsub
        cases t with
        | nil =>
          rw [show chunks K fuel _ [] = [] from by rw [chunks]]
          exact .last hwhole
        | cons x t =>
          have hx : isWhite x = true := by simpa using dropWhile_head _ hd
          cases fuel with
          | zero => simp at hdl
          | succ n =>
            rw [chunks] at hrest ⊢
            · refine .word hwhole ?_ (alternates_tail hrest)
              rw [chunkLen_white K _ t hx, (takeWhile_split _ _).1]
              refine ⟨?_, fun y hy => (isWhite_iff y).mp (takeWhile_all _ y hy)⟩
              rw [List.takeWhile_cons, if_pos hx]
              simp
            · simp
            · simp
    · simp

theorem expandTabs_mem : ∀ (s : Str) (col : Nat), ∀ c ∈ expandTabs col s, c = ' ' ∨ c ∈ s
  | [], _, c, hc => by cases hc
  | d :: r, col, c, hc => by
    rw [expandTabs] at hc
    split at hc
    · rcases List.mem_append.mp hc with hc | hc
      · exact .inl (List.mem_replicate.mp hc).2
      · rcases expandTabs_mem r _ c hc with h | h
        · exact .inl h
        · exact .inr (by simp [h])
    · split at hc
      · rcases List.mem_cons.mp hc with rfl | hc
        · exact .inr (by simp)
        · rcases expandTabs_mem r _ c hc with h | h
          · exact .inl h
          · exact .inr (by simp [h])
      · rcases List.mem_cons.mp hc with rfl | hc
        · exact .inr (by simp)
        · rcases expandTabs_mem r _ c hc with h | h
          · exact .inl h
          · exact .inr (by simp [h])

theorem munge_mem (s : Str) : ∀ c ∈ munge s, c = ' ' ∨ c ∈ s := by
  intro c hc
  unfold munge at hc
  obtain ⟨d, hd, rfl⟩ := List.mem_map.mp hc
  split
  · exact .inl rfl
  · exact expandTabs_mem s 0 d hd

theorem words_fillIn {K : Kinds} {indent fuel : Nat} {p t : Str} (hi : indent < columns) (hp : Plain p) (hh : '-' ∉ p)
    (hs : ∀ x ∈ words p, x.length + indent ≤ columns) (h : fillIn K indent fuel p = some t) : words t = words p := by
  unfold fillIn at h
  rw [Option.map_eq_some_iff] at h
  obtain ⟨ls, hl, rfl⟩ := h
  have ha : Alternates (chunks K (munge p).length [] (munge p)) := by
    apply chunks_alternate K _ _ _ (Nat.le_refl _)
    · intro e
      rcases munge_mem p _ e with e | e
      · exact absurd e (by decide)
      · exact hh e
    · intro c hc hsp
      rcases munge_mem p _ hc with e | e
      · exact .inl e
      · exact hp c e hsp
  have hk : kept (chunks K (munge p).length [] (munge p)) = words p := by
    rw [← words_alternates ha, chunks_flatten, words_munge]
  rw [words_joinNl, words_wrapChunks (by omega) ha ?_ hl, hk]
  intro c hc hw
  have : c ∈ words p := by
    rw [← hk]
    exact List.mem_filter.mpr ⟨hc, by simp [whole_emptied hw]⟩
  have := hs c this
  omega

/-- All words of a filled paragraph fit on a line. -/
theorem fillIn_words {K : Kinds} {indent fuel : Nat} {p t : Str} (hi : indent < columns) (h : fillIn K indent fuel p = some t) :
    ∀ x ∈ words t, x.length + indent ≤ columns := by
  unfold fillIn at h
  rw [Option.map_eq_some_iff] at h
  obtain ⟨ls, hl, rfl⟩ := h
  have hL := wrapChunks_lines (by omega) hl
  intro x hx
  rw [words_joinNl] at hx
  obtain ⟨l, hl1, hl2⟩ := List.mem_flatMap.mp hx
  obtain ⟨u, h1, h2, -⟩ := hL l hl1
  rw [h1, words_indent] at hl2
  have := words_length x hl2
  omega

/-! ### Layouts which do not end -/

theorem cutAt_one (c : Str) : cutAt 1 c = 1 := by
  unfold cutAt
  split
  · split
    · rename_i n h
      have := lastHyphen_lt h
      rw [List.length_take] at this
      rw [if_neg (by omega)]
    · rfl
  · rfl

theorem nextLine_stuck {w : Int} (hw : w < 0) {c : Str} (hc : isEmptied c = true) (r : List Str) :
    nextLine w false (c :: r) = ([], c.drop 1 :: r) := by
  have he : isEmptied (c.take 1) = true := by
    simp only [isEmptied, List.all_eq_true] at hc ⊢
    exact fun x hx => hc x (List.mem_of_mem_take hx)
  unfold nextLine
  simp only
  rw [dropStart, if_neg (by simp), fillLine, if_neg (by omega)]
  simp only
  rw [cutLong, if_pos (by omega)]
  simp only
  have hs : spaceLeft w ([] : List Str).flatten.length = 1 := by
    unfold spaceLeft
    rw [if_pos (by omega)]
  rw [hs, cutAt_one]
  simp only [dropEnd, List.nil_append, List.getLast?_singleton, he, if_true, List.dropLast_singleton]

theorem wrapChunks_stuck {w : Int} (hw : w < 0) (indent : Str) : ∀ (fuel : Nat) {c : Str} (_ : isEmptied c = true) (r : List Str),
    wrapChunks w indent fuel false (c :: r) = none
  | 0, _, _, _ => rfl
  | fuel + 1, c, hc, r => by
    rw [wrapChunks, nextLine_stuck hw hc r]
    simp only [if_true]
    apply wrapChunks_stuck hw indent fuel
    simp only [isEmptied, List.all_eq_true] at hc ⊢
    exact fun x hx => hc x (List.mem_of_mem_drop hx)

theorem fillIn_stuck (K : Kinds) {indent : Nat} (hi : 70 < indent) (fuel : Nat) (y : Str) : fillIn K indent fuel (' ' :: y) = none := by
  have hm : munge (' ' :: y) = ' ' :: (expandTabs 1 y).map (fun c => if isWhite c then ' ' else c) := by
    unfold munge
    rw [expandTabs, if_neg (by decide), if_neg (by decide)]
    rfl
  unfold fillIn
  rw [hm, List.length_cons, chunks]
  · rw [chunkLen_white K [] _ (by decide), (takeWhile_split _ _).1, wrapChunks_stuck (by simp only [columns]; omega)]
    · rfl
    · simp only [isEmptied, List.all_eq_true]
      exact fun x hx => space_white ((isWhite_iff x).mp (takeWhile_all _ x hx))
  · simp

theorem strip_whole {s : Str} (h1 : ∀ c, s.head? = some c → isSpace c = false) (h2 : ∀ c, s.getLast? = some c → isSpace c = false) :
    Number.strip s = s := by
  have key : ∀ t : Str, (∀ c, t.head? = some c → isSpace c = false) → t.dropWhile isSpace = t := by
    intro t ht
    cases t with
    | nil => rfl
    | cons c r => rw [List.dropWhile_cons, if_neg (by simp [ht c rfl])]
  rw [Number.strip, key s h1, key s.reverse (by simpa using h2), List.reverse_reverse]

theorem splitParas_plain : ∀ {s : Str}, '\n' ∉ s → splitParas s = [s]
  | [], _ => rfl
  | [_], _ => rfl
  | c :: d :: r, h => by
    rw [splitParas, if_neg (fun e => h (by simp [e.1])), splitParas_plain fun e => h (List.mem_cons_of_mem _ e)]

theorem splitParas_two : ∀ {x : Str} (_ : '\n' ∉ x) (z : Str), splitParas (x ++ '\n' :: '\n' :: z) = x :: splitParas z
  | [], _, z => by simp [splitParas]
  | [c], h, z => by
    have hc : c ≠ '\n' := fun e => h (by simp [e])
    simp [splitParas, hc]
  | c :: d :: r, h, z => by
    have ih := splitParas_two (x := d :: r) (fun e => h (List.mem_cons_of_mem _ e)) z
    rw [List.cons_append] at ih
    rw [List.cons_append, List.cons_append, splitParas, if_neg (fun e => h (by simp [e.1])), ih]

end Wrap
end Verif
