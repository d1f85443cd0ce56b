import Verif.Lemmas.TemplateLoop
import Verif.Model.TemplateHeader
import Verif.Spec.TemplateHeader
/-! # Headers of loops in templates -/
namespace Verif
namespace Template

theorem plainPiece_fitsAll {i c : Char} : (plainPiece i).fitsAll c = true ↔ i = '.' ∨ i.toLower = c.toLower := by
  unfold plainPiece
  split
  · rename_i h
    simp [Piece.fitsAll, h]
  · rename_i h
    simp [Piece.fitsAll, Piece.fits, h]

theorem afterLoopName_like : ∀ (item s r : Str), afterLoopName (item.map plainPiece) s = some r → ∃ w, s = w ++ r ∧ Like item w
  | [], s, r, h => by
    have e : s = r := by simpa [afterLoopName] using h
    exact ⟨[], by simp [e], rfl, by simp⟩
  | i :: is, [], r, h => by simp [afterLoopName] at h
  | i :: is, c :: s, r, h => by
    simp only [List.map_cons, afterLoopName] at h
    split at h
    · rename_i hf
      obtain ⟨w, hw, hl, ha⟩ := afterLoopName_like is s r h
      refine ⟨c :: w, by simp [hw], by simp [hl], ?_⟩
      intro p hp
      rcases List.mem_cons.mp (by simpa using hp : p ∈ (i, c) :: is.zip w) with rfl | hp
      · exact plainPiece_fitsAll.mp hf
      · exact ha p hp
    · cases h

theorem afterLoopName_same : ∀ (item w r : Str), Same item w → afterLoopName (item.map plainPiece) (w ++ r) = some r
  | [], [], r, _ => rfl
  | [], _ :: _, _, h => by simp [Same] at h
  | _ :: _, [], _, h => by simp [Same] at h
  | i :: is, c :: w, r, h => by
    simp only [Same, List.map_cons, List.cons.injEq] at h
    have hf : (plainPiece i).fitsAll c = true := plainPiece_fitsAll.mpr (.inr h.1)
    simp only [List.map_cons, List.cons_append, afterLoopName, hf, if_true]
    exact afterLoopName_same is w r h.2

theorem loop_pieces : "loop_".toList.map Piece.char = "loop_".toList.map plainPiece := by decide

theorem like_same : ∀ (item w : Str), '.' ∉ item → Like item w → Same item w
  | [], w, _, h => by
    have : w = [] := List.eq_nil_of_length_eq_zero h.1
    simp [Same, this]
  | i :: is, [], _, h => by simp [Like] at h
  | i :: is, c :: w, hd, h => by
    have ih := like_same is w (fun hm => hd (List.mem_cons_of_mem _ hm)) ⟨by simpa using h.1, fun p hp => h.2 p (by simp [hp])⟩
    have h1 := h.2 (i, c) (by simp)
    have h2 : i.toLower = c.toLower := h1.resolve_left fun e => hd (by simp [show i = '.' from e])
    simp only [Same, List.map_cons, List.cons.injEq]
    exact ⟨h2, ih⟩

theorem sep_isSep {g : Str} (h : Sep g) : ∀ c ∈ g, isSep c = true := by
  intro c hc
  rcases h.2 c hc with rfl | rfl | rfl | rfl <;> rfl

theorem takeWhile_sep (s : Str) : ∀ c ∈ s.takeWhile isSep, c = ' ' ∨ c = '\t' ∨ c = '\n' ∨ c = '\r' := by
  intro x hx
  have := List.all_eq_true.mp (List.all_takeWhile (p := isSep) (l := s)) x hx
  simpa [isSep, or_assoc] using this

theorem takeWhile_blank (s : Str) : Blank (s.takeWhile isBlank) := by
  intro x hx
  have := List.all_eq_true.mp (List.all_takeWhile (p := isBlank) (l := s)) x hx
  simpa [isBlank] using this

theorem headerAt_begins {item s : Str} {n : Nat} {m : Nat × Str} (h : headerAt (item.map plainPiece) n s = some m) : BeginsLoop item s := by
  unfold headerAt at h
  split at h
  · cases h
  · rename_i r hr
    split at h
    · cases h
    · rename_i hg
      split at h
      · cases h
      · rename_i t ht
        rw [loop_pieces] at hr
        obtain ⟨kw, hk, hl⟩ := afterLoopName_like _ _ _ hr
        obtain ⟨w, hw, hl'⟩ := afterLoopName_like _ _ _ ht
        refine ⟨s.takeWhile isBlank, kw, r.takeWhile isSep, w, t, ?_, takeWhile_blank s, like_same _ _ (by decide) hl, ⟨hg, takeWhile_sep r⟩, hl'⟩
        rw [← hw, List.takeWhile_append_dropWhile, ← hk, List.takeWhile_append_dropWhile]

theorem nameAt_begins {item s : Str} {k : Nat} (h : nameAt (item.map plainPiece) s = some k) : BeginsWith item s := by
  unfold nameAt at h
  simp only [Option.map_eq_some_iff] at h
  obtain ⟨r, hr, _⟩ := h
  obtain ⟨w, hw, hl⟩ := afterLoopName_like _ _ _ hr
  exact ⟨s.takeWhile isBlank, w, r, by rw [← hw, List.takeWhile_append_dropWhile], takeWhile_blank s, hl⟩

/-- The first character of a word is no blank if it is the same letter as one that is none. -/
theorem head_same {item w rest : Str} {i : Char} (p : Char → Bool) (hi : item.head? = some i) (hp : ∀ c, p c = true → i.toLower ≠ c.toLower) (h : Same item w) :
    ∀ c ∈ (w ++ rest).head?, p c = false := by
  cases item with
  | nil => cases hi
  | cons j is =>
    have : j = i := by simpa using hi
    subst this
    cases w with
    | nil => simp [Same] at h
    | cons y ys =>
      intro c hc
      have hy : y = c := by simpa using hc
      subst hy
      simp only [Same, List.map_cons, List.cons.injEq] at h
      by_cases hpc : p y = true
      · exact absurd h.1 (hp y hpc)
      · simpa using hpc

theorem under_blank : ∀ c, isBlank c = true → '_'.toLower ≠ c.toLower := by
  intro c hc
  simp only [isBlank, Bool.or_eq_true, beq_iff_eq] at hc
  rcases hc with rfl | rfl <;> decide

theorem under_sep : ∀ c, isSep c = true → '_'.toLower ≠ c.toLower := by
  intro c hc
  simp only [isSep, Bool.or_eq_true, beq_iff_eq] at hc
  rcases hc with ((rfl | rfl) | rfl) | rfl <;> decide

theorem ell_blank : ∀ c, isBlank c = true → 'l'.toLower ≠ c.toLower := by
  intro c hc
  simp only [isBlank, Bool.or_eq_true, beq_iff_eq] at hc
  rcases hc with rfl | rfl <;> decide

theorem nameAt_item {item indent w rest : Str} (hp : item.head? = some '_') (hi : Blank indent) (hs : Same item w) :
    nameAt (item.map plainPiece) (indent ++ (w ++ rest)) = some indent.length := by
  have h1 := takeWhile_stop (p := isBlank) indent (w ++ rest) (blank_isBlank hi) (head_same isBlank hp under_blank hs)
  simp only [nameAt, h1.1, h1.2, afterLoopName_same item w rest hs, Option.map_some]

theorem moreNames_flat (u : Str) (hu : Ends u) : ∀ (more : List (Str × Str)), (∀ x ∈ more, Sep x.1 ∧ DataName x.2) →
    moreNames more.length (flatNames more ++ u) = some u ∧ Ends (flatNames more ++ u)
  | [], _ => ⟨rfl, hu⟩
  | (g, n) :: r, h => by
    obtain ⟨hg, c, t, hn, hs⟩ := h _ List.mem_cons_self
    simp only at hg hn hs
    obtain ⟨ih, he⟩ := moreNames_flat u hu r fun x hx => h x (List.mem_cons_of_mem _ hx)
    subst hn
    have h1 := takeWhile_stop (p := isSep) g (('_' :: c :: t) ++ (flatNames r ++ u)) (sep_isSep hg) (by intro x hx; simp at hx; subst hx; decide)
    have h2 := takeWhile_stop (p := fun c => !isSpace c) (c :: t) (flatNames r ++ u) (fun x hx => by simp [hs x (List.mem_cons_of_mem _ hx)]) (fun x hx => by simp [he x hx])
    refine ⟨?_, ?_⟩
    · simp only [flatNames, List.append_assoc, List.length_cons, moreNames, h1.1, h1.2, if_neg hg.1]
      simp only [List.cons_append] at h2 ⊢
      rw [h2.1, h2.2]
      simpa using ih
    · intro x hx
      cases g with
      | nil => exact absurd rfl hg.1
      | cons y g =>
        simp [flatNames] at hx
        subst hx
        rcases hg.2 y List.mem_cons_self with h | h | h | h <;> rw [h] <;> decide

theorem headerAt_item {item indent kw g nm bl u : Str} {more : List (Str × Str)} (hp : item.head? = some '_') (hi : Blank indent) (hk : Same "loop_".toList kw) (hg : Sep g)
    (hs : Same item nm) (hm : ∀ x ∈ more, Sep x.1 ∧ DataName x.2) (hb : Blank bl) (hu : u = [] ∨ u.head? = some '\n') :
    headerAt (item.map plainPiece) more.length (indent ++ (kw ++ (g ++ (nm ++ (flatNames more ++ (bl ++ u)))))) = some (indent.length, u) := by
  have h1 := takeWhile_stop (p := isBlank) indent (kw ++ (g ++ (nm ++ (flatNames more ++ (bl ++ u))))) (blank_isBlank hi) (head_same isBlank rfl ell_blank hk)
  have h2 := takeWhile_stop (p := isSep) g (nm ++ (flatNames more ++ (bl ++ u))) (sep_isSep hg) (head_same isSep hp under_sep hs)
  have hublank : ∀ c ∈ u.head?, isBlank c = false := by
    intro c hc
    rcases hu with rfl | hu
    · simp at hc
    · rw [hu] at hc
      have : c = '\n' := by simpa using hc.symm
      subst this
      decide
  have h3 := takeWhile_stop (p := isBlank) bl u (blank_isBlank hb) hublank
  have hends : Ends (bl ++ u) := by
    intro c hc
    cases bl with
    | nil =>
      rcases hu with rfl | hu
      · simp at hc
      · have : c = '\n' := by
          rw [List.nil_append, hu] at hc
          simpa using hc.symm
        subst this
        decide
    | cons y bl =>
      have : y = c := by simpa using hc
      subst this
      rcases hb y List.mem_cons_self with h | h <;> rw [h] <;> decide
  have h4 := (moreNames_flat (bl ++ u) hends more hm).1
  have h5 : lineEnd (bl ++ u) = some u := by
    unfold lineEnd
    rw [h3.2]
    cases u with
    | nil => rfl
    | cons c r =>
      have : c = '\n' := by
        rcases hu with hu | hu
        · cases hu
        · simpa using hu
      simp [this]
  unfold headerAt
  rw [h1.2, loop_pieces, afterLoopName_same _ kw _ hk]
  simp only
  rw [h2.1, h2.2, if_neg hg.1, afterLoopName_same item nm _ hs]
  simp only [h4, Option.bind_some, h5, Option.map_some, h1.1]

theorem firstLine_skip (f : Str → Option α) : ∀ (pre s : Str) (b : Bool), (pre = [] → b = true) → (pre ≠ [] → pre.getLast? = some '\n') →
    (b = true → pre ≠ [] → f (pre ++ s) = none) →
    (∀ x y, pre = x ++ y → x ≠ [] → y ≠ [] → x.getLast? = some '\n' → f (y ++ s) = none) → firstLine f b (pre ++ s) = firstLine f true s
  | [], s, b, h1, _, _, _ => by simp [h1 rfl]
  | c :: r, s, b, _, h2, h3, h4 => by
    have step : firstLine f b (c :: (r ++ s)) = firstLine f (c == '\n') (r ++ s) := by
      cases b with
      | false => rw [firstLine]
      | true =>
        rw [firstLine]
        have := h3 rfl (by simp)
        rw [List.cons_append] at this
        rw [this]
    rw [List.cons_append, step]
    refine firstLine_skip f r s (c == '\n') ?_ ?_ ?_ ?_
    · rintro rfl
      have := h2 (by simp)
      simpa using this
    · intro hr
      have := h2 (by simp)
      rw [List.getLast?_cons_of_ne_nil hr] at this
      exact this
    · intro hc hr
      have hc' : c = '\n' := by simpa using hc
      exact h4 [c] r rfl (by simp) hr (by simp [hc'])
    · intro x y hab ha hb hl
      exact h4 (c :: x) y (by simp [hab]) (by simp) hb (by rw [List.getLast?_cons_of_ne_nil ha]; exact hl)

theorem firstLine_found {f : Str → Option α} {pre s : Str} {m : α} (hl : LineStart pre) (hm : f s = some m) (he : ∀ a b, pre = a ++ b → b ≠ [] → LineStart a → f (b ++ s) = none) :
    firstLine f true (pre ++ s) = some m := by
  rw [firstLine_skip f pre s true (fun _ => rfl) (fun h => hl.resolve_left h) (fun _ h => he [] pre rfl h (.inl rfl)) (fun a b hab _ hb hla => he a b hab hb (.inr hla))]
  cases s with
  | nil => rw [firstLine]; exact hm
  | cons c r => rw [firstLine, hm]

theorem firstLine_none (f : Str → Option α) : ∀ (s : Str) (b : Bool), (b = true → f s = none) → (∀ x y, s = x ++ y → x ≠ [] → x.getLast? = some '\n' → f y = none) →
    firstLine f b s = none
  | [], true, h, _ => by rw [firstLine]; exact h rfl
  | [], false, _, _ => by rw [firstLine]
  | c :: r, b, h, h' => by
    have step : firstLine f b (c :: r) = firstLine f (c == '\n') r := by
      cases b with
      | false => rw [firstLine]
      | true => rw [firstLine, h rfl]
    rw [step]
    refine firstLine_none f r (c == '\n') ?_ ?_
    · intro hc
      have hc' : c = '\n' := by simpa using hc
      exact h' [c] r rfl (by simp) (by simp [hc'])
    · intro x y hab ha hl
      exact h' (c :: x) y (by simp [hab]) (by simp) (by rw [List.getLast?_cons_of_ne_nil ha]; exact hl)

theorem nameAt_found {item text : Str} {k : Nat} (hp : item.head? = some '_') (h : FirstAt item k text) : firstLine (nameAt (item.map plainPiece)) true text = some k := by
  obtain ⟨pre, indent, w, r, rfl, hl, hi, rfl, hs, he⟩ := h
  refine firstLine_found hl (nameAt_item hp hi hs) fun a b hab hb hla => ?_
  cases hx : nameAt (item.map plainPiece) (b ++ (indent ++ (w ++ r))) with
  | none => rfl
  | some m => exact absurd (nameAt_begins hx) (he a b hab hb hla)

theorem allPieces_plain : ∀ (ns : List Str), (∀ n ∈ ns, Plain n) → allPieces ns = some (ns.map fun n => (n, n.map plainPiece))
  | [], _ => rfl
  | n :: r, h => by
    simp only [allPieces, pieces_plain n (h n List.mem_cons_self).2, allPieces_plain r fun x hx => h x (List.mem_cons_of_mem _ hx), List.map_cons]

theorem placeNamed_all (text : Str) : ∀ (ns : List Str) (ks : List Nat) (vs : List (Nat × Option Str)) (st : Nat × Nat × List Nat) (hs : List Hint), ns.length = ks.length →
    (∀ p ∈ ns.zip ks, firstLine (nameAt (p.1.map plainPiece)) true text = some p.2) → place ns vs st = some hs →
    placeNamed text (ns.map fun n => (n, n.map plainPiece)) vs st = .ok (List.zipWith (fun h k => { h with namePos := some (k : Int) }) hs ks)
  | [], _, vs, st, hs, _, _, h => by
    simp only [place, Option.some.injEq] at h
    subst h
    simp [placeNamed]
  | _ :: _, [], _, _, _, hl, _, _ => by simp at hl
  | n :: ns, k :: ks, [], st, hs, _, _, h => by simp [place] at h
  | n :: ns, k :: ks, v :: vs, (last, next, ends), hs, hl, hf, h => by
    rw [place] at h
    simp only [Option.map_eq_some_iff] at h
    obtain ⟨hs', h1, rfl⟩ := h
    have ih := placeNamed_all text ns ks vs (advance v.1 last next ends) hs' (by simpa using hl) (fun p hp => hf p (by simp [hp])) h1
    have h0 := hf (n, k) (by simp)
    simp only at h0
    simp only [List.map_cons, placeNamed, h0, ih, List.zipWith_cons_cons]

theorem afterLoopName_ofLike : ∀ (item w r : Str), Like item w → afterLoopName (item.map plainPiece) (w ++ r) = some r
  | [], w, r, h => by
    have : w = [] := List.eq_nil_of_length_eq_zero h.1
    simp [this, afterLoopName]
  | i :: is, [], _, h => by simp [Like] at h
  | i :: is, c :: w, r, h => by
    have hf : (plainPiece i).fitsAll c = true := plainPiece_fitsAll.mpr (h.2 (i, c) (by simp))
    simp only [List.map_cons, List.cons_append, afterLoopName, hf, if_true]
    exact afterLoopName_ofLike is w r ⟨by simpa using h.1, fun p hp => h.2 p (by simp [hp])⟩

theorem nameAt_none {item s : Str} (hp : item.head? = some '_') (h : nameAt (item.map plainPiece) s = none) : ¬BeginsWith item s := by
  rintro ⟨indent, w, r, rfl, hi, hl⟩
  have hh : ∀ c ∈ (w ++ r).head?, isBlank c = false := by
    cases item with
    | nil => cases hp
    | cons j is =>
      have : j = '_' := by simpa using hp
      subst this
      cases w with
      | nil => simp [Like] at hl
      | cons y ys =>
        intro c hc
        have hy : y = c := by simpa using hc
        subst hy
        rcases hl.2 ('_', y) (by simp) with e | e
        · exact absurd (show '_' = '.' from e) (by decide)
        · cases hb : isBlank y with
          | false => rfl
          | true => exact absurd e (under_blank y hb)
  have h1 := takeWhile_stop (p := isBlank) indent (w ++ r) (blank_isBlank hi) hh
  simp [nameAt, h1.2, afterLoopName_ofLike item w r hl] at h

theorem firstAt_check {item pre indent w r : Str} (hp : item.head? = some '_') (hl : LineStart pre) (hi : Blank indent) (hs : Same item w)
    (h : ∀ i, i < pre.length → (pre.take i = [] ∨ (pre.take i).getLast? = some '\n') → nameAt (item.map plainPiece) (pre.drop i ++ (indent ++ (w ++ r))) = none) :
    FirstAt item indent.length (pre ++ (indent ++ (w ++ r))) := by
  refine ⟨pre, indent, w, r, rfl, hl, hi, rfl, hs, ?_⟩
  rintro a b rfl hb hla
  have hlen : 0 < b.length := List.length_pos_iff.mpr hb
  have := h a.length (by simp; omega) (by rw [List.take_left]; exact hla)
  exact nameAt_none hp (by simpa using this)

theorem moreNames_sound : ∀ (n : Nat) (s u : Str), moreNames n s = some u → ∃ more, more.length = n ∧ (∀ x ∈ more, Sep x.1 ∧ DataName x.2) ∧ s = flatNames more ++ u
  | 0, s, u, h => by
    simp only [moreNames, Option.some.injEq] at h
    exact ⟨[], rfl, by simp, by simp [flatNames, h]⟩
  | n + 1, s, u, h => by
    rw [moreNames] at h
    split at h
    · cases h
    · rename_i hg
      split at h
      · rename_i r hr
        split at h
        · cases h
        · rename_i hne
          obtain ⟨more, h1, h2, h3⟩ := moreNames_sound n _ u h
          cases ht : r.takeWhile (fun c => !isSpace c) with
          | nil => exact absurd ht hne
          | cons c t =>
            have hall := List.all_eq_true.mp (List.all_takeWhile (p := fun c => !isSpace c) (l := r))
            rw [ht] at hall
            refine ⟨(s.takeWhile isSep, '_' :: c :: t) :: more, by simp [h1], ?_, ?_⟩
            · intro x hx
              rcases List.mem_cons.mp hx with rfl | hx
              · refine ⟨⟨hg, takeWhile_sep s⟩, c, t, rfl, fun x hx => ?_⟩
                rcases List.mem_cons.mp hx with rfl | hx
                · decide
                · simpa using hall x hx
              · exact h2 x hx
            · have e1 : r = (c :: t) ++ (flatNames more ++ u) := by
                rw [← h3, ← ht, List.takeWhile_append_dropWhile]
              have e2 : s = s.takeWhile isSep ++ '_' :: r := by rw [← hr, List.takeWhile_append_dropWhile]
              simp only [flatNames, List.append_assoc]
              rw [e1] at e2
              simpa using e2
      · cases h

theorem lineEnd_sound {s u : Str} (h : lineEnd s = some u) : ∃ bl, Blank bl ∧ s = bl ++ u ∧ (u = [] ∨ u.head? = some '\n') := by
  refine ⟨s.takeWhile isBlank, takeWhile_blank s, ?_⟩
  have e : s = s.takeWhile isBlank ++ s.dropWhile isBlank := List.takeWhile_append_dropWhile.symm
  unfold lineEnd at h
  split at h
  · rename_i hd
    simp only [Option.some.injEq] at h
    subst h
    rw [hd] at e
    exact ⟨e, .inl rfl⟩
  · rename_i c r hd
    split at h
    · rename_i hc
      simp only [Option.some.injEq] at h
      subst h
      rw [hd] at e
      exact ⟨e, .inr (by simp [hc])⟩
    · cases h

theorem headerAt_sound {item s u : Str} {n k : Nat} (h : headerAt (item.map plainPiece) n s = some (k, u)) :
    ∃ indent kw g w more bl, s = indent ++ (kw ++ (g ++ (w ++ (flatNames more ++ (bl ++ u))))) ∧ Blank indent ∧ indent.length = k ∧ Same "loop_".toList kw ∧ Sep g ∧ Like item w ∧
      more.length = n ∧ (∀ x ∈ more, Sep x.1 ∧ DataName x.2) ∧ Blank bl ∧ (u = [] ∨ u.head? = some '\n') := by
  unfold headerAt at h
  split at h
  · cases h
  · rename_i r hr
    split at h
    · cases h
    · rename_i hg
      split at h
      · cases h
      · rename_i t ht
        rw [loop_pieces] at hr
        obtain ⟨kw, hk, hl⟩ := afterLoopName_like _ _ _ hr
        obtain ⟨w, hw, hl'⟩ := afterLoopName_like _ _ _ ht
        simp only [Option.map_eq_some_iff, Option.bind_eq_some_iff] at h
        obtain ⟨u', ⟨v, hv, hv'⟩, he⟩ := h
        simp only [Prod.mk.injEq] at he
        obtain ⟨rfl, rfl⟩ := he
        obtain ⟨more, h1, h2, h3⟩ := moreNames_sound n t v hv
        obtain ⟨bl, h4, h5, h6⟩ := lineEnd_sound hv'
        refine ⟨s.takeWhile isBlank, kw, r.takeWhile isSep, w, more, bl, ?_, takeWhile_blank s, rfl, like_same _ _ (by decide) hl, ⟨hg, takeWhile_sep r⟩, hl', h1, h2, h4, h6⟩
        rw [← h5, ← h3, ← hw, List.takeWhile_append_dropWhile, ← hk, List.takeWhile_append_dropWhile]

theorem firstLine_sound (f : Str → Option α) : ∀ (s : Str) (b : Bool) (m : α), firstLine f b s = some m →
    ∃ pre s', s = pre ++ s' ∧ (pre = [] ∧ b = true ∨ pre.getLast? = some '\n') ∧ f s' = some m
  | [], true, m, h => by rw [firstLine] at h; exact ⟨[], [], rfl, .inl ⟨rfl, rfl⟩, h⟩
  | [], false, m, h => by rw [firstLine] at h; cases h
  | c :: r, b, m, h => by
    have step : (b = true ∧ f (c :: r) = some m) ∨ firstLine f (c == '\n') r = some m := by
      cases b with
      | false => rw [firstLine] at h; exact .inr h
      | true =>
        rw [firstLine] at h
        split at h
        · rename_i m' hm'
          exact .inl ⟨rfl, by rw [hm', ← h]⟩
        · exact .inr h
    rcases step with ⟨hb, hf⟩ | h
    · exact ⟨[], c :: r, rfl, .inl ⟨rfl, hb⟩, hf⟩
    · obtain ⟨pre, s', rfl, hpre, hf⟩ := firstLine_sound f r _ m h
      refine ⟨c :: pre, s', rfl, .inr ?_, hf⟩
      rcases hpre with ⟨rfl, hc⟩ | hpre
      · simpa using hc
      · cases pre with
        | nil => simp at hpre
        | cons x xs => rw [List.getLast?_cons_of_ne_nil (by simp)]; exact hpre

end Template
end Verif
