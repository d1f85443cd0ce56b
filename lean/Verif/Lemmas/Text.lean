import Verif.Spec.Text
/-! Helper lemmas about the text protocols. -/
namespace Verif

theorem splitNl_ne_nil (s : Str) : splitNl s ≠ [] := by
  cases s with
  | nil => simp [splitNl]
  | cons c r =>
    unfold splitNl; split
    · simp
    · split <;> simp

theorem joinNl_splitNl (s : Str) : joinNl (splitNl s) = s := by
  induction s with
  | nil => rfl
  | cons c r ih =>
    unfold splitNl
    split
    · rename_i h; subst h
      have := splitNl_ne_nil r
      cases hs : splitNl r with
      | nil => exact absurd hs this
      | cons l ls => simp [joinNl]; rw [← hs, ih]
    · cases hs : splitNl r with
      | nil => exact absurd hs (splitNl_ne_nil r)
      | cons l ls =>
        rw [hs] at ih
        cases ls with
        | nil => simp [joinNl] at *; exact ih
        | cons m ls => simp [joinNl] at *; exact ih

theorem splitNl_noNl (s : Str) : ∀ l ∈ splitNl s, '\n' ∉ l := by
  induction s with
  | nil => simp [splitNl]
  | cons c r ih =>
    unfold splitNl
    split
    · intro l hl; simp at hl; rcases hl with rfl | hl
      · simp
      · exact ih l hl
    · rename_i hc
      cases hs : splitNl r with
      | nil => intro l hl; simp at hl; subst hl; simp; exact fun h => hc h.symm
      | cons m ms =>
        rw [hs] at ih
        intro l hl; simp at hl; rcases hl with rfl | hl
        · simp; exact ⟨fun h => hc h.symm, ih m (by simp)⟩
        · exact ih l (by simp [hl])

theorem splitNl_append_nl (a b : Str) (ha : '\n' ∉ a) :
    splitNl (a ++ '\n' :: b) = a :: splitNl b := by
  induction a with
  | nil => simp [splitNl]
  | cons c r ih =>
    simp at ha
    have hc : c ≠ '\n' := fun h => ha.1 h.symm
    rw [List.cons_append, splitNl]
    simp [hc, ih ha.2]

theorem splitNl_of_noNl (a : Str) (ha : '\n' ∉ a) : splitNl a = [a] := by
  induction a with
  | nil => simp [splitNl]
  | cons c r ih =>
    simp at ha
    have hc : c ≠ '\n' := fun h => ha.1 h.symm
    rw [splitNl]
    simp [hc, ih ha.2]

/-! ### unfolding -/

theorem dropWhile_blank_snoc (a : Str) (d : Char) (y : Str) (hd : isBlank d = false) (hnl : d ≠ '\n')
    (ha : '\n' ∉ a) :
    ∃ e r, (a ++ d :: y).dropWhile isBlank = e :: r ∧ e ≠ '\n' := by
  induction a with
  | nil => exact ⟨d, y, by simp [hd], hnl⟩
  | cons c r ih =>
    simp at ha
    by_cases hc : isBlank c
    · obtain ⟨e, r', h1, h2⟩ := ih ha.2
      exact ⟨e, r', by simpa [hc] using h1, h2⟩
    · exact ⟨c, r ++ d :: y, by simp [hc], fun h => ha.1 h.symm⟩

theorem unfoldAll_cons_ne (c : Char) (r : Str) (h : c ≠ '\\') :
    unfoldAll (c :: r) = c :: unfoldAll r := by
  rw [unfoldAll]; simp [h]

theorem unfoldAll_keep (r : Str) (e : Char) (r' : Str) (h : r.dropWhile isBlank = e :: r') (he : e ≠ '\n') :
    unfoldAll ('\\' :: r) = '\\' :: unfoldAll r := by
  rw [unfoldAll]; simp
  split
  · rename_i h'; rw [h] at h'; exact absurd h' (by simp)
  · rename_i d r'' h'; rw [h] at h'; simp at h'; rw [← h'.1]; simp [he]

theorem unfoldAll_drop (r r' : Str) (h : r.dropWhile isBlank = '\n' :: r') :
    unfoldAll ('\\' :: r) = unfoldAll r' := by
  rw [unfoldAll]; simp
  split
  · rename_i h'; rw [h] at h'; exact absurd h' (by simp)
  · rename_i d r'' h'; rw [h] at h'; simp at h'; rw [← h'.1, ← h'.2]; simp

/-- A fold mark after any text without line feeds is removed, the text is kept. -/
theorem unfoldAll_mark (a y : Str) (ha : '\n' ∉ a) :
    unfoldAll (a ++ '\\' :: '\n' :: y) = a ++ unfoldAll y := by
  induction a with
  | nil => exact unfoldAll_drop _ _ (by simp [isBlank])
  | cons c r ih =>
    simp at ha
    by_cases hc : c = '\\'
    · subst hc
      obtain ⟨e, r', h1, h2⟩ := dropWhile_blank_snoc r '\\' ('\n' :: y) (by decide) (by decide) ha.2
      rw [List.cons_append, unfoldAll_keep _ e r' h1 h2, ih ha.2]; rfl
    · rw [List.cons_append, unfoldAll_cons_ne _ _ hc, ih ha.2]; rfl

/-- The line ends in a backslash followed by zero or more blanks. -/
def endsMark (l : Str) : Prop := ∃ a b, l = a ++ '\\' :: b ∧ ∀ c ∈ b, isBlank c

theorem endsMark_cons (c : Char) (r : Str) (h : endsMark r) : endsMark (c :: r) := by
  obtain ⟨a, b, h1, h2⟩ := h
  exact ⟨c :: a, b, by simp [h1], h2⟩

theorem endsMark_append (a r : Str) (h : endsMark r) : endsMark (a ++ r) := by
  obtain ⟨a', b, h1, h2⟩ := h
  exact ⟨a ++ a', b, by simp [h1], h2⟩

theorem dropWhile_not_all (r y : Str) (hr : '\n' ∉ r) (h : ¬ ∀ c ∈ r, isBlank c) :
    ∃ e r', (r ++ y).dropWhile isBlank = e :: r' ∧ e ≠ '\n' := by
  induction r with
  | nil => simp at h
  | cons c r ih =>
    simp at hr
    by_cases hc : isBlank c
    · obtain ⟨e, r', h1, h2⟩ := ih hr.2 (by simpa [hc] using h)
      exact ⟨e, r', by simpa [hc] using h1, h2⟩
    · exact ⟨c, r ++ y, by simp [hc], fun h => hr.1 h.symm⟩

theorem unfoldAll_line (l y : Str) (hl : '\n' ∉ l) (hm : ¬ endsMark l) :
    unfoldAll (l ++ '\n' :: y) = l ++ '\n' :: unfoldAll y := by
  induction l with
  | nil => exact unfoldAll_cons_ne _ _ (by decide)
  | cons c r ih =>
    simp at hl
    have hm' : ¬ endsMark r := fun h => hm (endsMark_cons c r h)
    by_cases hc : c = '\\'
    · subst hc
      obtain ⟨e, r', h1, h2⟩ := dropWhile_not_all r ('\n' :: y) hl.2
        (fun h => hm ⟨[], r, by simp, h⟩)
      rw [List.cons_append, unfoldAll_keep _ e r' h1 h2, ih hl.2 hm']; rfl
    · rw [List.cons_append, unfoldAll_cons_ne _ _ hc, ih hl.2 hm']; rfl

theorem unfoldAll_last (l : Str) (hl : '\n' ∉ l) (hm : ¬ endsMark l) : unfoldAll l = l := by
  induction l with
  | nil => rw [unfoldAll]
  | cons c r ih =>
    simp at hl
    have hm' : ¬ endsMark r := fun h => hm (endsMark_cons c r h)
    by_cases hc : c = '\\'
    · subst hc
      obtain ⟨e, r', h1, h2⟩ := dropWhile_not_all r [] hl.2
        (fun h => hm ⟨[], r, by simp, h⟩)
      rw [List.append_nil] at h1
      rw [unfoldAll_keep _ e r' h1 h2, ih hl.2 hm']
    · rw [unfoldAll_cons_ne _ _ hc, ih hl.2 hm']

theorem endsMark_cases (l : Str) (h : endsMark l) : l.getLast? = some '\\' ∨ endsMarkBlank l := by
  obtain ⟨a, b, h1, h2⟩ := h
  by_cases hb : b = []
  · left; subst hb; simp [h1]
  · right; exact ⟨a, b, h1, hb, h2⟩

theorem unfold_foldTail_nl (l y : Str) (hl : '\n' ∉ l) (hb : ¬ endsMarkBlank l) :
    unfoldAll (foldTail l ++ '\n' :: y) = l ++ '\n' :: unfoldAll y := by
  unfold foldTail
  split
  · rw [List.append_assoc]
    show unfoldAll (l ++ '\\' :: '\n' :: ([] ++ '\n' :: y)) = _
    rw [unfoldAll_mark _ _ hl, List.nil_append, unfoldAll_cons_ne _ _ (by decide)]
  · rename_i h
    exact unfoldAll_line l y hl (fun hm => (endsMark_cases l hm).elim h hb)

theorem unfold_foldTail_end (l : Str) (hl : '\n' ∉ l) (hb : ¬ endsMarkBlank l) :
    unfoldAll (foldTail l) = l := by
  unfold foldTail
  split
  · rw [unfoldAll_mark _ _ hl, unfoldAll]; simp
  · rename_i h
    exact unfoldAll_last l hl (fun hm => (endsMark_cases l hm).elim h hb)

theorem endsMarkBlank_drop (l : Str) (k : Nat) (h : endsMarkBlank (l.drop k)) : endsMarkBlank l := by
  obtain ⟨a, b, h1, h2, h3⟩ := h
  exact ⟨l.take k ++ a, b, by rw [List.append_assoc, ← h1, List.take_append_drop], h2, h3⟩

theorem unfold_foldLong_nl (w : FoldWidths) (l y : Str) (hl : '\n' ∉ l) (hb : ¬ endsMarkBlank l) :
    unfoldAll (foldLong w l ++ '\n' :: y) = l ++ '\n' :: unfoldAll y := by
  fun_induction foldLong w l with
  | case1 l hlen ih =>
    have h1 : '\n' ∉ l.take (foldCut w l) := fun h => hl (List.mem_of_mem_take h)
    have h2 : '\n' ∉ l.drop (foldCut w l) := fun h => hl (List.mem_of_mem_drop h)
    have h3 := ih h2 (fun h => hb (endsMarkBlank_drop _ _ h))
    rw [List.append_assoc, List.append_assoc]
    show unfoldAll (_ ++ '\\' :: '\n' :: (foldLong w (l.drop (foldCut w l)) ++ '\n' :: y)) = _
    rw [unfoldAll_mark _ _ h1, h3, ← List.append_assoc, List.take_append_drop]
  | case2 l hlen => exact unfold_foldTail_nl l y hl hb

theorem unfold_foldLong_end (w : FoldWidths) (l : Str) (hl : '\n' ∉ l) (hb : ¬ endsMarkBlank l) :
    unfoldAll (foldLong w l) = l := by
  fun_induction foldLong w l with
  | case1 l hlen ih =>
    have h1 : '\n' ∉ l.take (foldCut w l) := fun h => hl (List.mem_of_mem_take h)
    have h2 : '\n' ∉ l.drop (foldCut w l) := fun h => hl (List.mem_of_mem_drop h)
    have h3 := ih h2 (fun h => hb (endsMarkBlank_drop _ _ h))
    rw [List.append_assoc]
    show unfoldAll (_ ++ '\\' :: '\n' :: foldLong w (l.drop (foldCut w l))) = _
    rw [unfoldAll_mark _ _ h1, h3, List.take_append_drop]
  | case2 l hlen => exact unfold_foldTail_end l hl hb

theorem unfold_foldLine_nl (w : FoldWidths) (l y : Str) (hl : '\n' ∉ l) (hb : ¬ endsMarkBlank l) :
    unfoldAll (foldLine w l ++ '\n' :: y) = l ++ '\n' :: unfoldAll y := by
  unfold foldLine; split
  · exact unfold_foldTail_nl l y hl hb
  · exact unfold_foldLong_nl w l y hl hb

theorem unfold_foldLine_end (w : FoldWidths) (l : Str) (hl : '\n' ∉ l) (hb : ¬ endsMarkBlank l) :
    unfoldAll (foldLine w l) = l := by
  unfold foldLine; split
  · exact unfold_foldTail_end l hl hb
  · exact unfold_foldLong_end w l hl hb

theorem flatten_dropLast (f : Str → Str) (ls : List Str) (h : ls ≠ []) :
    ((ls.map fun l => f l ++ ['\n']).flatten).dropLast = joinNl (ls.map f) := by
  induction ls with
  | nil => exact absurd rfl h
  | cons l ls ih =>
    cases ls with
    | nil => simp [joinNl]
    | cons m ms =>
      have h2 := ih (by simp)
      simp only [List.map_cons, List.flatten_cons, joinNl] at *
      rw [List.dropLast_append_of_ne_nil (by simp), h2]
      simp

theorem unfold_join (w : FoldWidths) (ls : List Str) (h : ∀ l ∈ ls, '\n' ∉ l ∧ ¬ endsMarkBlank l) :
    unfoldAll (joinNl (ls.map (foldLine w))) = joinNl ls := by
  induction ls with
  | nil => simp [joinNl, unfoldAll]
  | cons l ls ih =>
    cases ls with
    | nil =>
      simp only [List.map_cons, List.map_nil, joinNl]
      exact unfold_foldLine_end w l (h l (by simp)).1 (h l (by simp)).2
    | cons m ms =>
      have h2 := ih (fun l' hl' => h l' (by simp [hl']))
      simp only [List.map_cons, joinNl] at *
      rw [unfold_foldLine_nl w l _ (h l (by simp)).1 (h l (by simp)).2, h2]

theorem applyLineFolding_eq (w : FoldWidths) (s : Str) (h : needsFolding w s = true) :
    applyLineFolding w s = '\\' :: '\n' :: joinNl ((splitNl s).map (foldLine w)) := by
  have hne := splitNl_ne_nil s
  unfold applyLineFolding
  rw [if_pos h, List.dropLast_append_of_ne_nil, flatten_dropLast _ _ hne]
  · rfl
  · cases hs : splitNl s with
    | nil => exact absurd hs hne
    | cons l ls => simp

theorem matchFoldHeader_header (r : Str) : matchFoldHeader ('\\' :: '\n' :: r) = some r := by
  simp [matchFoldHeader, isBlank]

theorem unfold_apply (w : FoldWidths) (s : Str) (h : needsFolding w s = true)
    (hb : ∀ l ∈ splitNl s, ¬ endsMarkBlank l) :
    removeLineFolding (applyLineFolding w s) = s := by
  rw [applyLineFolding_eq w s h, removeLineFolding, matchFoldHeader_header]
  simp only
  rw [unfoldAll_drop _ (joinNl ((splitNl s).map (foldLine w))) (by simp [isBlank]), unfold_join, joinNl_splitNl]
  exact fun l hl => ⟨splitNl_noNl s l hl, hb l hl⟩

/-! ### line lengths -/

theorem splitNl_mark (a b : Str) (ha : '\n' ∉ a) :
    splitNl (a ++ ['\\', '\n'] ++ b) = (a ++ ['\\']) :: splitNl b := by
  have := splitNl_append_nl (a ++ ['\\']) b (by simp [ha])
  simpa using this

theorem foldTail_lines (l : Str) (hl : '\n' ∉ l) (n : Nat) (hn : l.length ≤ n) :
    ∀ p ∈ splitNl (foldTail l), p.length ≤ n + 1 := by
  unfold foldTail; split
  · have := splitNl_mark l [] hl
    rw [List.append_nil] at this
    rw [this]; simp [splitNl]; omega
  · rw [splitNl_of_noNl l hl]; simp; omega

theorem foldCut_le (w : FoldWidths) (l : Str) : foldCut w l + 1 ≤ max (w.minw + w.maxw - 1) w.maxw := by
  have h1 := w.hmin
  have h2 := w.hmax
  unfold foldCut
  split
  · split <;> omega
  · omega

theorem foldLong_lines (w : FoldWidths) (l : Str) (hl : '\n' ∉ l) :
    ∀ p ∈ splitNl (foldLong w l), p.length ≤ max (w.minw + w.maxw - 1) (w.maxw + 1) := by
  fun_induction foldLong w l with
  | case1 l hlen ih =>
    have h1 : '\n' ∉ l.take (foldCut w l) := fun h => hl (List.mem_of_mem_take h)
    have h2 : '\n' ∉ l.drop (foldCut w l) := fun h => hl (List.mem_of_mem_drop h)
    rw [splitNl_mark _ _ h1]
    intro p hp
    simp only [List.mem_cons] at hp
    rcases hp with rfl | hp
    · have := foldCut_le w l
      simp [List.length_take]; omega
    · exact ih h2 p hp
  | case2 l hlen =>
    intro p hp
    have := foldTail_lines l hl w.maxw (by omega) p hp
    omega

theorem splitNl_join_mem (ls : List Str) (p : Str) (hp : p ∈ splitNl (joinNl ls)) (hne : ls ≠ []) :
    ∃ l ∈ ls, p ∈ splitNl l := by
  induction ls generalizing p with
  | nil => exact absurd rfl hne
  | cons l ls ih =>
    cases ls with
    | nil => exact ⟨l, by simp, by simpa [joinNl] using hp⟩
    | cons m ms =>
      simp only [joinNl] at hp
      -- split l itself
      have key : ∀ (a b : Str), ∀ p ∈ splitNl (a ++ '\n' :: b), p ∈ splitNl a ∨ p ∈ splitNl b := by
        intro a b
        induction a with
        | nil => intro p hp; simp [splitNl] at *; exact hp
        | cons c r ihr =>
          intro p hp
          rw [List.cons_append] at hp
          unfold splitNl at hp ⊢
          split at hp
          · rename_i hc
            simp only [hc, if_true, List.mem_cons] at hp ⊢
            rcases hp with rfl | hp
            · left; left; rfl
            · rcases ihr p hp with h | h
              · left; right; exact h
              · right
                unfold splitNl at h
                exact h
          · rename_i hc
            simp only [hc, if_false]
            cases hr : splitNl (r ++ '\n' :: b) with
            | nil => exact absurd hr (splitNl_ne_nil _)
            | cons x xs =>
              cases hr2 : splitNl r with
              | nil => exact absurd hr2 (splitNl_ne_nil _)
              | cons y ys =>
                -- the first pieces agree
                have hfirst : ∀ (r : Str) x xs y ys, splitNl (r ++ '\n' :: b) = x :: xs → splitNl r = y :: ys →
                    x = y ∧ xs = ys ++ splitNl b := by
                  intro r
                  induction r with
                  | nil => intro x xs y ys h1 h2; simp [splitNl] at h1 h2; obtain ⟨a1, a2⟩ := h1; obtain ⟨b1, b2⟩ := h2; subst a1; subst a2; subst b1; subst b2; simp
                  | cons c r ih2 =>
                    intro x xs y ys h1 h2
                    rw [List.cons_append] at h1
                    unfold splitNl at h1 h2
                    split at h1
                    · rename_i hc
                      simp only [hc, if_true, List.cons.injEq] at h1 h2
                      obtain ⟨h1a, h1b⟩ := h1
                      obtain ⟨h2a, h2b⟩ := h2
                      refine ⟨by rw [← h1a, ← h2a], ?_⟩
                      cases hz : splitNl r with
                      | nil => exact absurd hz (splitNl_ne_nil _)
                      | cons z zs =>
                        cases hz' : splitNl (r ++ '\n' :: b) with
                        | nil => exact absurd hz' (splitNl_ne_nil _)
                        | cons z' zs' =>
                          obtain ⟨e1, e2⟩ := ih2 z' zs' z zs hz' hz
                          rw [← h1b, ← h2b, hz, hz', e1, e2]; rfl
                    · rename_i hc
                      simp only [hc, if_false] at h1 h2
                      cases hz : splitNl r with
                      | nil => exact absurd hz (splitNl_ne_nil _)
                      | cons z zs =>
                        cases hz' : splitNl (r ++ '\n' :: b) with
                        | nil => exact absurd hz' (splitNl_ne_nil _)
                        | cons z' zs' =>
                          obtain ⟨e1, e2⟩ := ih2 z' zs' z zs hz' hz
                          rw [hz'] at h1; rw [hz] at h2
                          simp at h1 h2
                          refine ⟨?_, ?_⟩
                          · rw [← h1.1, ← h2.1, e1]
                          · rw [← h1.2, ← h2.2, e2]
                obtain ⟨e1, e2⟩ := hfirst r x xs y ys hr hr2
                rw [hr] at hp
                simp only [List.mem_cons] at hp ⊢
                rcases hp with rfl | hp
                · left; left; rw [e1]
                · rw [e2] at hp
                  rcases List.mem_append.mp hp with h | h
                  · left; right; exact h
                  · right; unfold splitNl at h; exact h
      rcases key l _ p hp with h | h
      · exact ⟨l, by simp, h⟩
      · obtain ⟨l', h1, h2⟩ := ih p h (by simp)
        exact ⟨l', by simp [h1], h2⟩

theorem fold_lines (w : FoldWidths) (s : Str) (h : needsFolding w s = true) :
    ∀ p ∈ splitNl (applyLineFolding w s), p.length ≤ max (w.minw + w.maxw - 1) (w.maxw + 1) := by
  intro p hp
  rw [applyLineFolding_eq w s h] at hp
  have h0 : splitNl ('\\' :: '\n' :: joinNl ((splitNl s).map (foldLine w))) =
      ['\\'] :: splitNl (joinNl ((splitNl s).map (foldLine w))) := splitNl_append_nl ['\\'] _ (by decide)
  rw [h0] at hp
  simp only [List.mem_cons] at hp
  have hw1 := w.hmin
  have hw2 := w.hmax
  rcases hp with rfl | hp
  · simp; omega
  · obtain ⟨l, hl, hp⟩ := splitNl_join_mem _ p hp (by simp [splitNl_ne_nil])
    simp only [List.mem_map] at hl
    obtain ⟨l', hl', rfl⟩ := hl
    have hnl := splitNl_noNl s l' hl'
    unfold foldLine at hp
    split at hp
    · rename_i hlen
      have := foldTail_lines l' hnl w.maxw (by omega) p hp
      omega
    · exact foldLong_lines w l' hnl p hp

/-! ### prefixing -/

theorem replaceAll_cons_ne (d : Char) (pat new : Str) (c : Char) (r : Str) (h : c ≠ d) :
    replaceAll (d :: pat) new (c :: r) = c :: replaceAll (d :: pat) new r := by
  rw [replaceAll, if_neg]
  intro ⟨_, hp⟩
  simp [List.isPrefixOf] at hp
  exact h hp.1.symm

theorem replaceAll_head (d : Char) (pat new r : Str) :
    replaceAll (d :: pat) new (d :: (pat ++ r)) = new ++ replaceAll (d :: pat) new r := by
  rw [replaceAll, if_pos]
  · simp
  · refine ⟨by simp, ?_⟩
    rw [List.isPrefixOf_iff_prefix]
    exact ⟨r, by simp⟩

theorem replaceAll_skip (d : Char) (pat new a r : Str) (h : d ∉ a) :
    replaceAll (d :: pat) new (a ++ r) = a ++ replaceAll (d :: pat) new r := by
  induction a with
  | nil => rfl
  | cons c a ih =>
    simp at h
    rw [List.cons_append, replaceAll_cons_ne _ _ _ _ _ (fun e => h.1 e.symm), ih h.2]; rfl

theorem replace_nl_inverse (pre s : Str) :
    replaceAll ('\n' :: pre) ['\n'] ('\n' :: (pre ++ replaceAll ['\n'] ('\n' :: pre) s)) = '\n' :: s := by
  rw [replaceAll_head]
  simp only [List.singleton_append, List.cons.injEq, true_and]
  induction s with
  | nil => simp [replaceAll]
  | cons c r ih =>
    by_cases hc : c = '\n'
    · subst hc
      have : replaceAll ['\n'] ('\n' :: pre) ('\n' :: r) = '\n' :: (pre ++ replaceAll ['\n'] ('\n' :: pre) r) := by
        have := replaceAll_head '\n' [] ('\n' :: pre) r
        simpa using this
      rw [this, replaceAll_head, ih]; rfl
    · rw [replaceAll_cons_ne _ _ _ _ _ hc, replaceAll_cons_ne _ _ _ _ _ hc, ih]

theorem takeWhile_pre (p x : Str) (d : Char) (hp : ∀ c ∈ p, c ≠ '\n' ∧ c ≠ '\\') (hd : d = '\\') :
    (p ++ d :: x).takeWhile (fun d => d != '\n' && d != '\\') = p ∧
    (p ++ d :: x).dropWhile (fun d => d != '\n' && d != '\\') = d :: x := by
  subst hd
  induction p with
  | nil => simp
  | cons c r ih =>
    have := hp c (by simp)
    have ih := ih (fun c hc => hp c (by simp [hc]))
    simp [this.1, this.2, ih]

theorem matchPrefixHeader_one (p x : Str) (hp : GoodPrefix p) :
    matchPrefixHeader (p ++ ['\\', '\n'] ++ x) = some (p, false, '\n' :: x) := by
  obtain ⟨h1, h2, h3, h4⟩ := hp
  match p with
  | [] => simp at h1
  | [_] => simp at h1
  | c :: d :: r =>
    have hall : ∀ e ∈ d :: r, e ≠ '\n' ∧ e ≠ '\\' := by
      intro e he
      exact ⟨fun h => h4 (by rw [← h]; simp only [List.mem_cons] at *; right; exact he),
             fun h => h3 (by rw [← h]; simp only [List.mem_cons] at *; right; exact he)⟩
    have ht := takeWhile_pre (d :: r) ('\n' :: x) '\\' hall rfl
    have e : c :: d :: r ++ ['\\', '\n'] ++ x = c :: ((d :: r) ++ '\\' :: ('\n' :: x)) := by simp
    have hc1 : c ≠ ';' := by simpa using h2
    have hc2 : c ≠ '\n' := fun h => h4 (by simp [h])
    rw [e, matchPrefixHeader]
    simp only [ht.1, ht.2]
    simp [hc1, hc2, isBlank]

theorem matchPrefixHeader_two (p x : Str) (hp : GoodPrefix p) :
    matchPrefixHeader (p ++ ['\\', '\\', '\n'] ++ x) = some (p, true, '\n' :: x) := by
  obtain ⟨h1, h2, h3, h4⟩ := hp
  match p with
  | [] => simp at h1
  | [_] => simp at h1
  | c :: d :: r =>
    have hall : ∀ e ∈ d :: r, e ≠ '\n' ∧ e ≠ '\\' := by
      intro e he
      exact ⟨fun h => h4 (by rw [← h]; simp only [List.mem_cons] at *; right; exact he),
             fun h => h3 (by rw [← h]; simp only [List.mem_cons] at *; right; exact he)⟩
    have ht := takeWhile_pre (d :: r) ('\\' :: '\n' :: x) '\\' hall rfl
    have e : c :: d :: r ++ ['\\', '\\', '\n'] ++ x = c :: ((d :: r) ++ '\\' :: ('\\' :: '\n' :: x)) := by simp
    have hc1 : c ≠ ';' := by simpa using h2
    have hc2 : c ≠ '\n' := fun h => h4 (by simp [h])
    rw [e, matchPrefixHeader]
    simp only [ht.1, ht.2]
    simp [hc1, hc2, isBlank]

theorem applyLinePrefix_good (s p : Str) (hp : GoodPrefix p) :
    applyLinePrefix s p = .ok (match matchFoldHeader s with
      | some nh => p ++ ['\\', '\\', '\n'] ++ (p ++ replaceAll ['\n'] ('\n' :: p) nh)
      | none => p ++ ['\\', '\n'] ++ (p ++ replaceAll ['\n'] ('\n' :: p) s)) := by
  obtain ⟨h1, h2, h3, h4⟩ := hp
  match p with
  | [] => simp at h1
  | c :: r =>
    have hc1 : c ≠ ';' := by simpa using h2
    unfold applyLinePrefix
    simp only
    rw [if_pos ⟨hc1, h3⟩]
    cases matchFoldHeader s <;> simp [List.append_assoc]

theorem remove_apply_prefix (s p : Str) (hp : GoodPrefix p) (t : Str) (h : applyLinePrefix s p = .ok t) :
    removeLinePrefix t = match matchFoldHeader s with
      | some nh => '\\' :: '\n' :: nh
      | none => s := by
  rw [applyLinePrefix_good s p hp] at h
  cases hm : matchFoldHeader s with
  | some nh =>
    rw [hm] at h
    simp only [Except.ok.injEq] at h
    subst h
    rw [removeLinePrefix, matchPrefixHeader_two _ _ hp]
    simp only
    rw [replace_nl_inverse p nh]
  | none =>
    rw [hm] at h
    simp only [Except.ok.injEq] at h
    subst h
    rw [removeLinePrefix, matchPrefixHeader_one _ _ hp]
    simp only
    rw [replace_nl_inverse p s]
    rfl

theorem matchFoldHeader_some {s nh : Str} (h : matchFoldHeader s = some nh) :
    ∃ b, s = '\\' :: (b ++ '\n' :: nh) ∧ ∀ c ∈ b, isBlank c = true := by
  unfold matchFoldHeader at h
  split at h
  · rename_i r
    split at h
    · rename_i r' hr
      simp at h; subst h
      refine ⟨r.takeWhile isBlank, ?_, ?_⟩
      · rw [← hr, List.takeWhile_append_dropWhile]
      · intro c hc
        exact (List.all_takeWhile (p := isBlank) (l := r) |> List.all_eq_true.mp) c hc
    · exact absurd h (by simp)
  · exact absurd h (by simp)

theorem removeLineFolding_header {s nh : Str} (h : matchFoldHeader s = some nh) :
    removeLineFolding s = unfoldAll nh := by
  rw [removeLineFolding, h]
  simp only
  obtain ⟨b, rfl, hb⟩ := matchFoldHeader_some h
  apply unfoldAll_drop
  clear h
  induction b with
  | nil => simp [isBlank]
  | cons c r ih =>
    simp at hb
    simp only [List.cons_append, List.dropWhile_cons, hb.1, if_true]
    exact ih (by simpa using hb.2)

end Verif

namespace Verif

theorem matchFoldHeader_none_of {s : Str} (h : ¬ HasFoldHeader s) : matchFoldHeader s = none := by
  cases hm : matchFoldHeader s with
  | none => rfl
  | some r =>
    obtain ⟨b, h1, h2⟩ := matchFoldHeader_some hm
    exact absurd ⟨b, r, h1, h2⟩ h

theorem foldTail_length (l : Str) : l.length ≤ (foldTail l).length := by
  unfold foldTail; split <;> simp

theorem foldLong_length (w : FoldWidths) (l : Str) : l.length ≤ (foldLong w l).length := by
  fun_induction foldLong w l with
  | case1 l hlen ih => simp [List.length_drop] at *; omega
  | case2 l hlen => exact foldTail_length l

theorem foldLine_length (w : FoldWidths) (l : Str) : l.length ≤ (foldLine w l).length := by
  unfold foldLine; split
  · exact foldTail_length l
  · exact foldLong_length w l

theorem joinNl_map_length (f : Str → Str) (ls : List Str) (h : ∀ l ∈ ls, l.length ≤ (f l).length) :
    (joinNl ls).length ≤ (joinNl (ls.map f)).length := by
  induction ls with
  | nil => simp [joinNl]
  | cons l ls ih =>
    cases ls with
    | nil => simpa [joinNl] using h l (by simp)
    | cons m ms =>
      have h1 := ih (fun l hl => h l (by simp [hl]))
      have h2 := h l (by simp)
      simp only [List.map_cons, joinNl, List.length_append, List.length_cons] at *
      omega

theorem fold_longer (w : FoldWidths) (s : Str) (h : needsFolding w s = true) :
    s.length < (applyLineFolding w s).length := by
  rw [applyLineFolding_eq w s h]
  have := joinNl_map_length (foldLine w) (splitNl s) (fun l _ => foldLine_length w l)
  rw [joinNl_splitNl] at this
  simp only [List.length_cons]
  omega

theorem needsFolding_false {w : FoldWidths} {s : Str} (h : needsFolding w s = false) :
    ∀ l ∈ splitNl s, l.length < w.maxw := by
  simp only [needsFolding, Bool.not_eq_false', Bool.and_eq_true, List.all_eq_true, decide_eq_true_eq] at h
  exact h.1

end Verif
