import Verif.Lemmas.Dialect
import Verif.Lemmas.Reader
import Verif.Spec.Print
/-! # Reading names, values and loops that stand apart -/
set_option linter.unusedSectionVars false
namespace Verif.Lex
open Rx Scanner Reader Print
variable [CaseFold] {D : Dialect}

/-- The text of words with what stands before them. -/
def flat (l : List (Str × Str)) : Str := l.flatMap fun p => p.1 ++ p.2

/-- Words stand apart. -/
def Spaced (l : List (Str × Str)) : Prop := ∀ p ∈ l, IsGap p.1 ∧ (p.1 ≠ [] ∨ semiDelim <+: p.2)

theorem flat_cons (p : Str × Str) (l : List (Str × Str)) : flat (p :: l) = p.1 ++ (p.2 ++ flat l) := by simp [flat]
theorem flat_append (l m : List (Str × Str)) : flat (l ++ m) = flat l ++ flat m := by simp [flat]

theorem Spaced.tail {p : Str × Str} {l : List (Str × Str)} (h : Spaced (p :: l)) : Spaced l := fun q hq => h q (by simp [hq])
theorem Spaced.left {l m : List (Str × Str)} (h : Spaced (l ++ m)) : Spaced l := fun q hq => h q (by simp [hq])
theorem Spaced.right {l m : List (Str × Str)} (h : Spaced (l ++ m)) : Spaced m := fun q hq => h q (by simp [hq])

theorem stops_gap {g rest : Str} (hg : IsGap g) (hr : Stops rest) : Stops (g ++ rest) := by
  cases g with
  | nil => exact hr
  | cons c g =>
    intro d t e
    simp only [List.cons_append, List.cons.injEq] at e
    rw [← e.1]
    exact hg c (by simp)

theorem stops_flat {l : List (Str × Str)} {rest : Str} (h : Spaced l) (hr : Stops rest) : Stops (flat l ++ rest) := by
  cases l with
  | nil => exact hr
  | cons p l =>
    obtain ⟨h1, h2⟩ := h p (by simp)
    rw [flat_cons]
    cases hp : p.1 with
    | nil =>
      rw [hp] at h2
      rcases h2 with h2 | ⟨t, h2⟩
      · exact absurd rfl h2
      · rw [← h2]
        intro c t' e
        simp only [semiDelim, List.nil_append] at e
        have := congrArg List.head? e
        simp at this
        exact .inr this.symm
    | cons c g =>
      rw [hp] at h1
      intro d t e
      simp only [List.cons_append, List.cons.injEq] at e
      rw [← e.1]
      exact h1 c (by simp)

/-- A data name the scanner takes. -/
def NameWord (D : Dialect) (n : Str) : Prop := ∃ t, n = '_' :: t ∧ t ≠ [] ∧ ∀ c ∈ t, D.nameChar c = true

theorem NameWord.ne {n : Str} (h : NameWord D n) : n ≠ [] := by
  obtain ⟨t, rfl, -⟩ := h; simp

theorem NameWord.head {n rest : Str} (h : NameWord D n) : (n ++ rest).head? ≠ some ';' := by
  obtain ⟨t, rfl, -⟩ := h; simp

theorem ahead_name {R : List Tk} (hR : D.Outside R) (hn : Tk.dataName ∈ R) {g n rest : Str} (hg : IsGap g) (h : NameWord D n) (hr : Stops rest) :
    Lexes D.tb R (g ++ (n ++ rest)) .dataName n rest := by
  refine D.gap hR h.head ?_ g hg
  obtain ⟨t, rfl, h1, h2⟩ := h
  exact D.name hR hn h2 h1 hr

theorem ahead_loop {R : List Tk} (hR : D.Outside R) (hn : Tk.loop ∈ R) {g rest : Str} (hg : IsGap g) (hr : Stops rest) :
    Lexes D.tb R (g ++ ("loop_".toList ++ rest)) .loop "loop_".toList rest :=
  D.gap hR (by simp) (D.loop hR hn hr) g hg

theorem head_append {w rest : Str} (hw : w ≠ []) (h : w.head? ≠ some ';') : (w ++ rest).head? ≠ some ';' := by
  cases w with
  | nil => exact absurd rfl hw
  | cons c w => simpa using h

/-- The value word after a gap. -/
theorem ahead_value {w : Str} {v : PyVal} (h : ReadsIn D w v) (hw : w ≠ []) {g : Str} (hg : IsGap g) {rest : Str} (hr : Stops rest) :
    ∃ t x rest1, t ∈ D.g.first ∧ x ≠ [] ∧
    (∀ R, D.Outside R → D.g.first ⊆ R → Lexes D.tb R (g ++ (w ++ rest)) t x rest1) ∧
    ∀ R p fuel, w.length < fuel → D.g.first ⊆ R → Peeked p R t x rest1 →
      ∃ p', D.g.value fuel p = .ok (v, p') ∧ Ready p' rest := by
  obtain ⟨t, x, rest1, h1, h2, h3, h4⟩ := h.read rest hr
  exact ⟨t, x, rest1, h1, h2, fun R hR hs => D.gap hR (head_append hw h.start) (h3 R hR hs) g hg, h4⟩

theorem value_gap {w : Str} {v : PyVal} (h : ReadsIn D w v) (hw : w ≠ []) {g : Str} (hg : IsGap g) {rest : Str} (hr : Stops rest) {p : PState}
    (hp : Ready p (g ++ (w ++ rest))) {fuel : Nat} (hf : w.length < fuel) :
    ∃ p', D.g.value fuel p = .ok (v, p') ∧ Ready p' rest := by
  obtain ⟨t, x, rest1, -, hx, hl, hv⟩ := ahead_value h hw hg hr
  obtain ⟨p1, hp1, hk⟩ := peek_ready hp (hl D.g.first D.first (fun _ h => h))
  obtain ⟨p2, h2, h3⟩ := hv D.g.first p1 fuel hf (fun _ h => h) hk
  refine ⟨p2, ?_, h3⟩
  rw [← h2]
  exact D.again fuel p p1 t (by rw [D.lx]; exact hp1) (by rw [D.lx]; exact peek_peeked hk (.inr (fun _ h => h)))

/-- Words that are read as values. -/
def ReadsAll (D : Dialect) : List PyVal → List Str → Prop
  | [], [] => True
  | v :: vs, w :: ws => (ReadsIn D w v ∧ w ≠ []) ∧ ReadsAll D vs ws
  | _, _ => False

/-- Words that are read as an entry. -/
def EntryReads (D : Dialect) : Entry → List Str → Prop
  | .item n v, ws => NameWord D n ∧ ∃ w, ws = [n, w] ∧ ReadsIn D w v ∧ w ≠ []
  | .loop ns vs, ws => (∀ n ∈ ns, NameWord D n) ∧ vs ≠ [] ∧ ∃ ws', ws = "loop_".toList :: ns ++ ws' ∧ ReadsAll D vs ws'

/-- Words that are read as entries. -/
def DocReads (D : Dialect) : List Entry → List Str → Prop
  | [], ws => ws = []
  | e :: es, ws => ∃ a c, ws = a ++ c ∧ EntryReads D e a ∧ DocReads D es c

/-- The token an entry starts with. -/
def headTk : Entry → Tk
  | .item _ _ => .dataName
  | .loop _ _ => .loop
/-- The word an entry starts with. -/
def headWord : Entry → Str
  | .item n _ => n
  | .loop _ _ => "loop_".toList

theorem headTk_mem (e : Entry) : headTk e ∈ itemFollow := by cases e <;> simp [headTk, itemFollow]
theorem headTk_or (e : Entry) : headTk e = .loop ∨ headTk e = .dataName := by cases e <;> simp [headTk]

theorem entry_head {e : Entry} {ws : List Str} (h : EntryReads D e ws) : headWord e ≠ [] ∧ ∃ ws', ws = headWord e :: ws' := by
  cases e with
  | item n v =>
    obtain ⟨h1, w, rfl, -⟩ := h
    exact ⟨h1.ne, _, rfl⟩
  | loop ns vs =>
    obtain ⟨-, -, ws', rfl, -⟩ := h
    exact ⟨by simp [headWord], _, rfl⟩

/-- The next token, on any request that includes what may follow an item. -/
def Ahead (D : Dialect) (text : Str) (n : Tk) (w rest : Str) : Prop := ∀ R, D.Outside R → itemFollow ⊆ R → Lexes D.tb R text n w rest

theorem entry_ahead {e : Entry} {ws : List Str} (h : EntryReads D e ws) {g rest : Str} (hg : IsGap g) (hr : Stops rest) :
    Ahead D (g ++ (headWord e ++ rest)) (headTk e) (headWord e) rest := by
  intro R hR hs
  cases e with
  | item n v => exact ahead_name hR (hs (by decide)) hg h.1 hr
  | loop ns vs => exact ahead_loop hR (hs (by decide)) hg hr

/-- The parser sees the token next, when it asks what follows an item. -/
def Next (D : Dialect) (p : PState) (n : Tk) (w rest : Str) : Prop :=
  ∃ R p', itemFollow ⊆ R ∧ peek D.g.lx itemFollow p = .ok (n, p') ∧ Peeked p' R n w rest

theorem next_ready {p : PState} {text : Str} {n : Tk} {w rest : Str} (hp : Ready p text) (h : Ahead D text n w rest) : Next D p n w rest := by
  obtain ⟨p', h1, h2⟩ := peek_ready hp (h itemFollow D.follow (fun _ h => h))
  exact ⟨itemFollow, p', fun _ h => h, by rw [D.lx]; exact h1, h2⟩

theorem next_peeked {p : PState} {R : List Tk} {n : Tk} {w rest : Str} (hp : Peeked p R n w rest) (hs : itemFollow ⊆ R) : Next D p n w rest :=
  ⟨R, p, hs, by rw [D.lx]; exact peek_peeked hp (.inr hs), hp⟩

theorem names_read {text : Str} (htext : Stops text) {t : Tk} {x rest1 : Str} (ht : t ∈ D.g.first)
    (hl : ∀ R, D.Outside R → D.g.first ⊆ R → Lexes D.tb R text t x rest1) :
    ∀ (l : List (Str × Str)) (fuel : Nat) (acc : List Str) (p : PState), Spaced l → (∀ q ∈ l, NameWord D q.2) → l.length < fuel →
      Ready p (flat l ++ text) →
      ∃ p', loopField D.g fuel acc p = .ok (acc ++ l.map (·.2), p') ∧ Peeked p' (.dataName :: D.g.first) t x rest1
  | [], fuel + 1, acc, p, _, _, _, hp => by
    obtain ⟨p', h1, h2⟩ := peek_ready hp (hl (.dataName :: D.g.first) D.names (List.subset_cons_self _ _))
    refine ⟨p', ?_, h2⟩
    rw [loopField, D.lx, h1]
    simp only
    have hne : t ≠ .dataName := by rintro rfl; exact D.apart _ (by decide) ht
    rw [if_neg hne, afterStar_peeked h2 (List.mem_cons_of_mem _ ht)]
    simp
  | (g, n) :: l, fuel + 1, acc, p, hsp, hn, hf, hp => by
    have hg := (hsp (g, n) (by simp)).1
    have hst : Stops (flat l ++ text) := stops_flat hsp.tail htext
    rw [flat_cons] at hp
    simp only [List.append_assoc] at hp
    obtain ⟨p1, h1, h2⟩ := peek_ready hp (ahead_name (R := .dataName :: D.g.first) D.names (by simp) hg (hn (g, n) (by simp)) hst)
    obtain ⟨p', h3, h4⟩ := names_read htext ht hl l fuel (acc ++ [n]) _ hsp.tail (fun q hq => hn q (by simp [hq])) (by simpa using hf)
      (ready_of_peeked h2 (hn (g, n) (by simp)).ne)
    refine ⟨p', ?_, h4⟩
    rw [loopField, D.lx, h1]
    simp only [if_true]
    rw [take_peeked h2 (by simp)]
    simp only
    rw [h3]
    simp

theorem values_read {text : Str} (htext : Stops text) {n0 : Tk} {w0 rest0 : Str} (hn : n0 ∈ itemFollow) (ha : Ahead D text n0 w0 rest0) :
    ∀ (l : List (Str × Str)) (vs : List PyVal) (fuel : Nat) (acc : List PyVal) (p : PState), Spaced l → ReadsAll D vs (l.map (·.2)) →
      (flat l).length + 1 < fuel → Ready p (flat l ++ text) →
      ∃ p', moreValues D.g fuel acc p = .ok (acc ++ vs, p') ∧ Peeked p' (itemFollow ++ D.g.first) n0 w0 rest0
  | [], [], fuel + 1, acc, p, _, _, _, hp => by
    obtain ⟨p', h1, h2⟩ := peek_ready hp (ha (itemFollow ++ D.g.first) D.both (List.subset_append_left _ _))
    refine ⟨p', ?_, h2⟩
    rw [moreValues, D.lx, h1]
    simp only
    have hne : n0 ∉ D.g.first := by
      intro h
      exact D.apart n0 hn h
    rw [if_neg hne, afterStar_peeked h2 (List.mem_append_left _ hn)]
    simp
  | [], v :: vs, _, _, _, _, h, _, _ => by simp [ReadsAll] at h
  | _ :: _, [], _, _, _, _, h, _, _ => by simp [ReadsAll] at h
  | (g, w) :: l, v :: vs, fuel + 1, acc, p, hsp, hv, hf, hp => by
    have hg := (hsp (g, w) (by simp)).1
    have hst : Stops (flat l ++ text) := stops_flat hsp.tail htext
    obtain ⟨⟨hw, hwne⟩, hvs⟩ := hv
    rw [flat_cons] at hp hf
    simp only [List.append_assoc] at hp
    have hlen : 0 < w.length := List.length_pos_iff.2 hwne
    simp only [List.length_append] at hf
    obtain ⟨t, x, rest1, ht, hx, hl, hval⟩ := ahead_value hw hwne hg hst
    obtain ⟨p1, h1, h2⟩ := peek_ready hp (hl (itemFollow ++ D.g.first) D.both (List.subset_append_right _ _))
    obtain ⟨p2, h3, h4⟩ := hval (itemFollow ++ D.g.first) p1 fuel (show w.length < fuel by omega) (List.subset_append_right _ _) h2
    obtain ⟨p', h5, h6⟩ := values_read htext hn ha l vs fuel (acc ++ [v]) p2 hsp.tail hvs (by omega) h4
    refine ⟨p', ?_, h6⟩
    rw [moreValues, D.lx, h1]
    simp only
    rw [if_pos ht, h3]
    simp only
    rw [h5]
    simp

theorem map_eq_append {α β : Type} {f : α → β} {l : List α} {a b : List β} (h : l.map f = a ++ b) :
    ∃ l1 l2, l = l1 ++ l2 ∧ l1.map f = a ∧ l2.map f = b := List.map_eq_append_iff.1 h

theorem length_le_flat {l : List (Str × Str)} (h : ∀ q ∈ l, q.2 ≠ []) : l.length ≤ (flat l).length := by
  induction l with
  | nil => simp
  | cons q l ih =>
    rw [flat_cons]
    have h1 := ih (fun x hx => h x (by simp [hx]))
    have h2 : 0 < q.2.length := List.length_pos_iff.2 (h q (by simp))
    simp only [List.length_cons, List.length_append]
    omega

/-- An entry is read; afterwards the parser is right behind it, or has looked one token ahead. -/
theorem entry_read {e : Entry} {text : Str} (htext : Stops text) {n0 : Tk} {w0 rest0 : Str} (hn : n0 ∈ itemFollow) (ha : Ahead D text n0 w0 rest0)
    {l : List (Str × Str)} {R : List Tk} {p : PState} {fuel : Nat} (hsp : Spaced l) (hw : EntryReads D e (headWord e :: l.map (·.2)))
    (hs : [Tk.loop, .dataName] ⊆ R) (hp : Peeked p R (headTk e) (headWord e) (flat l ++ text)) (hf : (flat l).length + 1 < fuel) :
    ∃ p', readEntry D.g fuel p = .ok (e, p') ∧ Next D p' n0 w0 rest0 := by
  have hpk := peek_peeked (tb := D.tb) hp (.inr hs)
  have hready := ready_of_peeked hp (entry_head hw).1
  cases e with
  | item n v =>
    obtain ⟨h1, w, hws, hr, hwne⟩ := hw
    simp only [headWord, List.cons.injEq, true_and] at hws
    match l, hws with
    | [(g, w')], hws =>
      simp only [List.map_cons, List.map_nil, List.cons.injEq, and_true] at hws
      subst hws
      have hg := (hsp (g, w') (by simp)).1
      have hflat : flat [(g, w')] = g ++ w' := by simp [flat]
      rw [hflat, List.append_assoc] at hready
      rw [hflat, List.length_append] at hf
      obtain ⟨p', h2, h3⟩ := value_gap hr hwne hg htext hready (fuel := fuel) (by omega)
      refine ⟨p', ?_, next_ready h3 ha⟩
      rw [readEntry, D.lx, hpk]
      simp only [headTk]
      have htake : take (Pat.lexer D.tb) .dataName p = .ok (_, _) := take_peeked hp (hs (by simp))
      rw [htake]
      simp only
      rw [h2]
      rfl
  | loop ns vs =>
    obtain ⟨h1, hvne, ws', hws, hr⟩ := hw
    simp only [headWord, List.cons_append, List.cons.injEq, true_and] at hws
    obtain ⟨l1, l2, rfl, e1, e2⟩ := map_eq_append hws
    subst e1 e2
    match l2, vs, hvne, hr with
    | [], [], h, _ => exact absurd rfl h
    | (g, w) :: l2, v :: vs, _, hr =>
      obtain ⟨⟨hrw, hwne⟩, hrs⟩ := hr
      have hg := (hsp.right (g, w) (by simp)).1
      have hst : Stops (flat l2 ++ text) := stops_flat hsp.right.tail htext
      have hst1 : Stops (flat ((g, w) :: l2) ++ text) := stops_flat hsp.right htext
      rw [flat_append] at hready hf
      simp only [List.append_assoc] at hready
      obtain ⟨t, x, rest1, ht, hx, hl, hval⟩ := ahead_value hrw hwne hg hst
      have hnames : ∀ q ∈ l1, NameWord D q.2 := fun q hq => h1 _ (List.mem_map_of_mem hq)
      have hlen1 := length_le_flat (fun q hq => (hnames q hq).ne)
      have hlw : 0 < w.length := List.length_pos_iff.2 hwne
      rw [flat_cons] at hf
      simp only [List.length_append] at hf
      obtain ⟨p2, h2, h3⟩ := names_read (t := t) (x := x) (rest1 := rest1) hst1 ht (fun R hR hs => by
        rw [flat_cons]
        simp only [List.append_assoc]
        exact hl R hR hs) l1 fuel [] _ hsp.left hnames (by omega) hready
      obtain ⟨p3, h4, h5⟩ := hval _ p2 fuel (show w.length < fuel by omega) (List.subset_cons_self _ _) h3
      obtain ⟨p4, h6, h7⟩ := values_read htext hn ha l2 vs fuel [v] p3 hsp.right.tail hrs (by omega) h5
      refine ⟨p4, ?_, next_peeked h7 (List.subset_append_left _ _)⟩
      rw [readEntry, D.lx, hpk]
      simp only [headTk, if_true]
      have htake : take (Pat.lexer D.tb) .loop p = .ok (_, _) := take_peeked hp (hs (List.mem_cons_self ..))
      rw [topLoop, D.lx, htake]
      simp only
      rw [h2]
      simp only [List.nil_append]
      rw [h4]
      simp only
      rw [h6]
      rfl

/-- Entries are read one after the other, up to the token that ends them. -/
theorem doc_says {text : Str} (htext : Stops text) {n0 : Tk} {w0 rest0 : Str} (hn : n0 ∈ itemFollow) (h1 : n0 ≠ .loop) (h2 : n0 ≠ .dataName)
    (ha : Ahead D text n0 w0 rest0) :
    ∀ (es : List Entry) (l : List (Str × Str)) (fuel : Nat) (p : PState) (n : Tk) (w rest : Str), Spaced l → DocReads D es (l.map (·.2)) →
      (flat l).length + 1 < fuel → Ahead D (flat l ++ text) n w rest → Next D p n w rest →
      ∃ R p', Says D.g fuel es p p' ∧ itemFollow ⊆ R ∧ Peeked p' R n0 w0 rest0
  | [], l, fuel + 1, p, n, w, rest, _, hd, _, hah, hp => by
    have hl : l = [] := by simpa [DocReads] using hd
    subst hl
    obtain ⟨R, p', hs, hpk, hk⟩ := hp
    have e1 := (hah itemFollow D.follow (fun _ h => h)).unique (ha itemFollow D.follow (fun _ h => h))
    obtain ⟨rfl, rfl, rfl⟩ := e1
    exact ⟨R, p', .done fuel n p p' p' hpk h1 h2 (by rw [D.lx]; exact afterStar_peeked hk hn), hs, hk⟩
  | e :: es, l, fuel + 1, p, n, w, rest, hsp, hd, hf, hah, hp => by
    obtain ⟨a, c, hws, he, hd⟩ := hd
    obtain ⟨l1, l2, rfl, e1, e2⟩ := map_eq_append hws
    subst e1 e2
    obtain ⟨hne, ws', hws'⟩ := entry_head he
    match l1, hws' with
    | (g, hw) :: l1, hws' =>
      simp only [List.map_cons, List.cons.injEq] at hws'
      obtain ⟨e3, rfl⟩ := hws'
      subst e3
      have hg := (hsp (g, headWord e) (by simp)).1
      have hst2 : Stops (flat l2 ++ text) := stops_flat hsp.right htext
      have hst1 : Stops (flat l1 ++ (flat l2 ++ text)) := stops_flat hsp.left.tail hst2
      have hah1 := entry_ahead he hg hst1
      have htx : flat ((g, headWord e) :: l1 ++ l2) ++ text = g ++ (headWord e ++ (flat l1 ++ (flat l2 ++ text))) := by
        rw [flat_append, flat_cons]; simp
      rw [htx] at hah
      obtain ⟨rfl, rfl, rfl⟩ := (hah itemFollow D.follow (fun _ h => h)).unique (hah1 itemFollow D.follow (fun _ h => h))
      obtain ⟨R, p1, hs, hpk, hk⟩ := hp
      rw [flat_append, flat_cons] at hf
      have hlw : 0 < (headWord e).length := List.length_pos_iff.2 hne
      simp only [List.length_append] at hf
      -- what comes after the entry
      obtain ⟨n2, w2, rest2, hn2, hah2⟩ : ∃ n2 w2 rest2, n2 ∈ itemFollow ∧ Ahead D (flat l2 ++ text) n2 w2 rest2 := by
        cases es with
        | nil =>
          have hl : l2 = [] := by simpa [DocReads] using hd
          subst hl
          exact ⟨n0, w0, rest0, hn, ha⟩
        | cons e' es' =>
          obtain ⟨a', c', hws2, he', -⟩ := hd
          obtain ⟨-, ws2, e4⟩ := entry_head he'
          rw [e4] at hws2
          match l2, hws2 with
          | (g2, w2) :: l2, hws2 =>
            simp only [List.map_cons, List.cons_append, List.cons.injEq] at hws2
            obtain ⟨rfl, -⟩ := hws2
            refine ⟨headTk e', headWord e', flat l2 ++ text, headTk_mem e', ?_⟩
            have := entry_ahead he' ((hsp.right (g2, headWord e') (by simp)).1) (stops_flat hsp.right.tail htext)
            rw [flat_cons]
            simpa using this
      obtain ⟨p2, h3, h4⟩ := entry_read (fuel := fuel) hst2 hn2 hah2 hsp.left.tail he (fun x hx => hs ((by decide : [Tk.loop, .dataName] ⊆ itemFollow) hx)) hk (by omega)
      obtain ⟨R', p', h5, h6, h7⟩ := doc_says htext hn h1 h2 ha es l2 fuel p2 n2 w2 rest2 hsp.right hd (by omega) hah2 h4
      exact ⟨R', p', .more fuel _ e es p p1 p2 p' hpk (headTk_or e) h3 h5, h6, h7⟩

end Verif.Lex
