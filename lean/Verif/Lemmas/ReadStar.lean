import Verif.Spec.ReadStar
import Verif.Lemmas.Text
/-! # Lemmas about reading a file -/
namespace Verif.ReadStar

theorem isPrefixOf_append {sep p rest : Str} (h : sep.length ≤ p.length) : sep.isPrefixOf (p ++ rest) = sep.isPrefixOf p := by
  rw [Bool.eq_iff_iff, List.isPrefixOf_iff_prefix, List.isPrefixOf_iff_prefix]
  constructor
  · intro hp
    exact List.prefix_of_prefix_length_le hp (List.prefix_append _ _) h
  · intro hp
    exact hp.trans (List.prefix_append _ _)

theorem splitOn_piece : ∀ (piece : Str) (rest acc : Str) (fuel : Nat), Clean piece → piece.length < fuel →
    splitOn marker fuel acc (piece ++ (marker ++ rest)) = (acc.reverse ++ piece) :: splitOn marker (fuel - piece.length - 1) [] rest
  | [], rest, acc, fuel + 1, _, _ => by
    have hm : marker ≠ [] := by decide +kernel
    cases hc : marker ++ rest with
    | nil => simp [hm] at hc
    | cons c r =>
      rw [List.nil_append, splitOn]
      have : marker.isPrefixOf (c :: r) = true := by
        rw [← hc, List.isPrefixOf_iff_prefix]
        exact List.prefix_append _ _
      rw [if_pos this, ← hc, List.drop_left]
      simp
  | c :: piece, rest, acc, fuel + 1, hc, hf => by
    have h0 : ¬ marker.isPrefixOf ((c :: piece) ++ (marker ++ rest)) = true := by
      rw [← List.append_assoc, isPrefixOf_append (by simp only [List.length_append]; omega), List.isPrefixOf_iff_prefix]
      exact hc 0 (by simp)
    rw [List.cons_append] at h0 ⊢
    rw [splitOn, if_neg h0, splitOn_piece piece rest (c :: acc) fuel ?_ (by simpa using hf)]
    · simp only [List.reverse_cons, List.append_assoc, List.singleton_append, List.length_cons]
      congr 2
      omega
    · intro k hk
      have := hc (k + 1) (by simpa using hk)
      simpa using this

theorem splitOn_last : ∀ (piece : Str) (acc : Str) (fuel : Nat), ¬ Occurs marker piece → piece.length < fuel →
    splitOn marker fuel acc piece = [acc.reverse ++ piece]
  | [], acc, fuel + 1, _, _ => by simp [splitOn]
  | c :: piece, acc, fuel + 1, hc, hf => by
    have h0 : ¬ marker.isPrefixOf (c :: piece) = true := by
      rw [List.isPrefixOf_iff_prefix]
      rintro ⟨t, ht⟩
      exact hc ⟨[], t, by simpa using ht.symm⟩
    rw [splitOn, if_neg h0, splitOn_last piece (c :: acc) fuel ?_ (by simpa using hf)]
    · simp
    · rintro ⟨a, b, e⟩
      exact hc ⟨c :: a, b, by simp [e]⟩

theorem marker_length : marker.length = 23 := by decide +kernel

theorem splitOn_cbf : ∀ (l : List (Str × Str)) (first : Str) (last : Option Str) (fuel : Nat), CleanParts first l last →
    (cbfText first l last).length < fuel →
    splitOn marker fuel [] (cbfText first l last) = first :: (l.flatMap fun p => [p.1, p.2]) ++ last.toList
  | [], first, none, fuel, h, hf => by
    simp only [cbfText] at hf ⊢
    rw [splitOn_last first [] fuel h hf]
    simp
  | [], first, some bin, fuel, h, hf => by
    simp only [cbfText, List.length_append, marker_length] at hf ⊢
    rw [List.append_assoc, splitOn_piece first bin [] fuel h.1 (by omega), splitOn_last bin [] _ h.2 (by omega)]
    simp
  | (bin, out) :: r, first, last, fuel, h, hf => by
    simp only [cbfText, List.length_append, marker_length] at hf ⊢
    rw [List.append_assoc, List.append_assoc, List.append_assoc, splitOn_piece first _ [] fuel h.1 (by omega),
      splitOn_piece bin _ [] _ h.2.1 (by omega), splitOn_cbf r out last _ h.2.2 (by omega)]
    simp

theorem addSections_eq : ∀ (l : List (Str × Str)) (text : Str) (last : Option Str),
    addSections text ((l.flatMap fun p => [p.1, p.2]) ++ last.toList) = cbfKept text l
  | [], text, none => by simp [addSections, cbfKept]
  | [], text, some b => by simp [addSections, cbfKept]
  | (bin, out) :: r, text, last => by
    have := addSections_eq r (text ++ omitted ++ out) last
    simp only [List.flatMap_cons, List.cons_append, List.nil_append, addSections]
    rw [this]
    simp [cbfKept]

theorem cutBinary_eq (first : Str) (l : List (Str × Str)) (last : Option Str) (h : CleanParts first l last) :
    cutBinary (cbfText first l last) = cbfKept first l := by
  unfold cutBinary
  rw [splitOn_cbf l first last _ h (by omega)]
  simp only [List.cons_append]
  exact addSections_eq l first last

theorem cutCtrlZ_eq (a b : Str) (h : '\x1a' ∉ a) : cutCtrlZ (a ++ '\x1a' :: b) = a := by
  unfold cutCtrlZ
  have : (a ++ '\x1a' :: b).findIdx? (· == '\x1a') = some a.length := by
    rw [List.findIdx?_append]
    have : a.findIdx? (· == '\x1a') = none := by
      rw [List.findIdx?_eq_none_iff]
      intro x hx
      simp only [beq_eq_false_iff_ne, ne_eq]
      exact fun e => h (e ▸ hx)
    rw [this]
    simp [List.findIdx?_cons]
  rw [this]
  simp

theorem cutCtrlZ_self (a : Str) (h : '\x1a' ∉ a) : cutCtrlZ a = a := by
  unfold cutCtrlZ
  have : a.findIdx? (· == '\x1a') = none := by
    rw [List.findIdx?_eq_none_iff]
    intro x hx
    simp only [beq_eq_false_iff_ne, ne_eq]
    exact fun e => h (e ▸ hx)
  rw [this]

theorem splitNl_joinNl : ∀ (lines : List Str), lines ≠ [] → (∀ l ∈ lines, '\n' ∉ l) → splitNl (joinNl lines) = lines
  | [l], _, h => by rw [joinNl, splitNl_of_noNl l (h l (by simp))]
  | l :: m :: ls, _, h => by
    rw [joinNl, splitNl_append_nl l _ (h l (by simp)), splitNl_joinNl (m :: ls) (by simp) (fun x hx => h x (by simp [hx]))]

theorem lengthCheck_first (m : Nat) (hm : 0 < m) (lines : List Str) (hne : ∀ l ∈ lines, '\n' ∉ l) (pre post : List Str) (bad : Str)
    (e : lines = pre ++ bad :: post) (hp : ∀ l ∈ pre, l.length ≤ m) (hb : bad.length > m) :
    lengthCheck m (joinNl lines) = .error (.tooLong (pre.length + 1) m) := by
  unfold lengthCheck
  rw [splitNl_joinNl lines (by rw [e]; simp) hne]
  simp only
  rw [if_pos (by omega)]
  have hf : lines.filter (fun a => decide ((a.length : Int) > m)) = bad :: post.filter (fun a => decide ((a.length : Int) > m)) := by
    rw [e, List.filter_append, List.filter_cons, if_pos (by simp only [decide_eq_true_eq]; omega)]
    have : pre.filter (fun a => decide ((a.length : Int) > m)) = [] := by
      apply List.filter_eq_nil_iff.2
      intro a ha
      have := hp a ha
      simp only [decide_eq_true_eq]
      omega
    rw [this]; rfl
  rw [hf]
  simp only
  have : lines.idxOf bad = pre.length := by
    rw [e, List.idxOf_append]
    rw [if_neg]
    · simp
    · intro h
      have := hp bad h
      omega
  rw [this]
  simp

theorem lengthCheck_ok (m : Int) (lines : List Str) (hn : lines ≠ []) (hne : ∀ l ∈ lines, '\n' ∉ l)
    (h : m > 0 → ∀ l ∈ lines, (l.length : Int) ≤ m) : lengthCheck m (joinNl lines) = .ok () := by
  unfold lengthCheck
  rw [splitNl_joinNl lines hn hne]
  simp only
  split
  · rename_i hm
    have : lines.filter (fun a => decide ((a.length : Int) > m)) = [] := by
      apply List.filter_eq_nil_iff.2
      intro a ha
      have := h hm a ha
      simp only [decide_eq_true_eq]
      omega
    rw [this]
  · rfl

/-- A grammar that is not in the list is not used. -/
theorem tryAll_congr {parse parse' : GName → Parse} (text : Str) : ∀ (l : List GName) (c : Coll),
    (∀ g ∈ l, ∀ c, parse g c text = parse' g c text) → tryAll parse text c l = tryAll parse' text c l
  | [], _, _ => rfl
  | g :: r, c, h => by
    rw [tryAll, tryAll, h g (by simp)]
    split
    · rfl
    · split
      · exact tryAll_congr text r _ (fun g' hg => h g' (by simp [hg]))
      · rfl

end Verif.ReadStar
