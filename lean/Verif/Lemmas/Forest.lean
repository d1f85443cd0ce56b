import Verif.Model.Dict
/-! # Trees given by lists of children

Lemmas about walks through a finite forest in which only some nodes are entered. -/
namespace Verif.Forest

variable {α : Type}

/-- `x` is reached from `c` through nodes that may be entered. -/
inductive Desc (kids : α → List α) (open_ : α → Bool) (c : α) : α → Prop
  | child {x : α} : x ∈ kids c → Desc kids open_ c x
  | deeper {y x : α} : Desc kids open_ c y → open_ y = true → x ∈ kids y → Desc kids open_ c x

/-- The children are nodes of `K`, each node has one parent, and no node is below itself. -/
structure IsForest (kids : α → List α) (open_ : α → Bool) (K : List α) : Prop where
  sub : ∀ c, ∀ x ∈ kids c, x ∈ K
  nodup : ∀ c, (kids c).Nodup
  uniq : ∀ c c' x, x ∈ kids c → x ∈ kids c' → c = c'
  acyclic : ∀ x, ¬ Desc kids open_ x x

variable {kids : α → List α} {open_ : α → Bool} {K : List α}

theorem Desc.trans {a b c : α} (h1 : Desc kids open_ a b) (hb : open_ b = true) (h2 : Desc kids open_ b c) : Desc kids open_ a c := by
  induction h2 with
  | child h => exact .deeper h1 hb h
  | deeper _ ho hx ih => exact .deeper ih ho hx

theorem desc_head {c x : α} : Desc kids open_ c x ↔ x ∈ kids c ∨ ∃ y ∈ kids c, open_ y = true ∧ Desc kids open_ y x := by
  constructor
  · intro h
    induction h with
    | child h => exact .inl h
    | deeper h ho hx ih =>
      rcases ih with h1 | ⟨z, hz, hzo, hd⟩
      · exact .inr ⟨_, h1, ho, .child hx⟩
      · exact .inr ⟨z, hz, hzo, .deeper hd ho hx⟩
  · rintro (h | ⟨y, hy, ho, hd⟩)
    · exact .child h
    · exact (Desc.child hy).trans ho hd

theorem Desc.mem {c x : α} (hF : IsForest kids open_ K) (h : Desc kids open_ c x) : x ∈ K := by
  cases h with
  | child h => exact hF.sub _ _ h
  | deeper _ _ h => exact hF.sub _ _ h

open Classical in
/-- How many nodes are below `c`. -/
noncomputable def size (kids : α → List α) (open_ : α → Bool) (K : List α) (c : α) : Nat := K.countP fun x => decide (Desc kids open_ c x)

theorem size_le (c : α) : size kids open_ K c ≤ K.length := by
  classical
  exact List.countP_le_length

theorem countP_lt {p q : α → Bool} : ∀ {l : List α} {x : α}, (∀ y ∈ l, p y = true → q y = true) → x ∈ l → p x = false → q x = true →
    l.countP p < l.countP q
  | a :: r, x, h, hx, hp, hq => by
    rw [List.countP_cons, List.countP_cons]
    have hr : ∀ y ∈ r, p y = true → q y = true := fun y hy => h y (List.mem_cons_of_mem _ hy)
    have hle : r.countP p ≤ r.countP q := List.countP_mono_left hr
    rcases List.mem_cons.1 hx with rfl | hx
    · simp [hp, hq]; omega
    · have hlt := countP_lt hr hx hp hq
      have ha := h a (by simp)
      by_cases h1 : p a = true
      · simp [h1, ha h1]; omega
      · simp [h1]
        split <;> omega

theorem size_lt (hF : IsForest kids open_ K) {c y : α} (hy : y ∈ kids c) (ho : open_ y = true) : size kids open_ K y < size kids open_ K c := by
  classical
  unfold size
  apply countP_lt (x := y)
  · intro x _ hx
    simp only [decide_eq_true_eq] at hx ⊢
    exact (Desc.child hy).trans ho hx
  · exact hF.sub _ _ hy
  · simpa using hF.acyclic y
  · simpa using Desc.child hy

/-- The way up is unique: of two nodes above `x`, one is above the other. -/
theorem desc_linear (hF : IsForest kids open_ K) {a b x : α} (h1 : Desc kids open_ a x) (h2 : Desc kids open_ b x) :
    a = b ∨ (open_ a = true ∧ Desc kids open_ b a) ∨ (open_ b = true ∧ Desc kids open_ a b) := by
  induction h1 generalizing b with
  | child h =>
    cases h2 with
    | child h' => exact .inl (hF.uniq _ _ _ h h')
    | deeper hd ho h' =>
      have := hF.uniq _ _ _ h h'
      subst this
      exact .inr (.inl ⟨ho, hd⟩)
  | deeper hd ho h ih =>
    cases h2 with
    | child h' =>
      have := hF.uniq _ _ _ h h'
      subst this
      exact .inr (.inr ⟨ho, hd⟩)
    | deeper hd' ho' h' =>
      have := hF.uniq _ _ _ h h'
      subst this
      exact ih hd'

theorem kids_apart (hF : IsForest kids open_ K) {c y z : α} (hy : y ∈ kids c) (hz : z ∈ kids c) (hzo : open_ z = true) :
    ¬ Desc kids open_ z y := by
  intro h
  rcases h with h | ⟨hd, ho, h⟩
  · have := hF.uniq _ _ _ hy h
    subst this
    exact hF.acyclic c (.child hz)
  · have := hF.uniq _ _ _ hy h
    subst this
    exact hF.acyclic z (hd.trans ho (.child hz))

/-- Two children have nothing below them in common. -/
theorem kids_disjoint (hF : IsForest kids open_ K) {c y z x : α} (hy : y ∈ kids c) (hz : z ∈ kids c) (hyo : open_ y = true) (hzo : open_ z = true)
    (hne : y ≠ z) (h1 : x = y ∨ Desc kids open_ y x) (h2 : x = z ∨ Desc kids open_ z x) : False := by
  rcases h1 with rfl | h1
  · rcases h2 with rfl | h2
    · exact hne rfl
    · exact kids_apart hF hy hz hzo h2
  · rcases h2 with rfl | h2
    · exact kids_apart hF hz hy hyo h1
    · rcases desc_linear hF h1 h2 with e | ⟨_, h⟩ | ⟨_, h⟩
      · exact hne e
      · exact kids_apart hF hy hz hzo h
      · exact kids_apart hF hz hy hyo h

theorem nodup_flatMap {β : Type} {f : α → List β} : ∀ {l : List α}, l.Nodup → (∀ a ∈ l, (f a).Nodup) →
    (∀ a ∈ l, ∀ b ∈ l, a ≠ b → ∀ x ∈ f a, x ∉ f b) → (l.flatMap f).Nodup
  | [], _, _, _ => by simp
  | a :: r, hn, h1, h2 => by
    rw [List.nodup_cons] at hn
    rw [List.flatMap_cons, List.nodup_append]
    refine ⟨h1 a (by simp), nodup_flatMap hn.2 (fun b hb => h1 b (by simp [hb])) (fun b hb c hc => h2 b (by simp [hb]) c (by simp [hc])), ?_⟩
    intro x hx y hy e
    subst e
    obtain ⟨b, hb, hxb⟩ := List.mem_flatMap.1 hy
    exact h2 a (by simp) b (by simp [hb]) (by rintro rfl; exact hn.1 hb) x hx hxb

/-- What is below a node, from what is below its children. -/
theorem below (hF : IsForest kids open_ K) (c : α) (T : α → List α)
    (hT : ∀ y ∈ kids c, open_ y = true → (T y).Nodup ∧ ∀ x, x ∈ T y ↔ x = y ∨ Desc kids open_ y x) :
    ((kids c).filter (fun y => !open_ y) ++ ((kids c).filter open_).flatMap T).Nodup ∧
    ∀ x, x ∈ (kids c).filter (fun y => !open_ y) ++ ((kids c).filter open_).flatMap T ↔ Desc kids open_ c x := by
  have hmem : ∀ x, x ∈ (kids c).filter (fun y => !open_ y) ++ ((kids c).filter open_).flatMap T ↔ Desc kids open_ c x := by
    intro x
    rw [List.mem_append, List.mem_flatMap, desc_head]
    constructor
    · rintro (h | ⟨y, hy, hx⟩)
      · exact .inl (List.mem_filter.1 h).1
      · obtain ⟨hy, ho⟩ := List.mem_filter.1 hy
        rcases ((hT y hy ho).2 x).1 hx with rfl | hd
        · exact .inl hy
        · exact .inr ⟨y, hy, ho, hd⟩
    · rintro (h | ⟨y, hy, ho, hd⟩)
      · by_cases ho : open_ x = true
        · exact .inr ⟨x, List.mem_filter.2 ⟨h, ho⟩, ((hT x h ho).2 x).2 (.inl rfl)⟩
        · exact .inl (List.mem_filter.2 ⟨h, by simp [ho]⟩)
      · exact .inr ⟨y, List.mem_filter.2 ⟨hy, ho⟩, ((hT y hy ho).2 x).2 (.inr hd)⟩
  refine ⟨?_, hmem⟩
  rw [List.nodup_append]
  refine ⟨(hF.nodup c).filter _, ?_, ?_⟩
  · apply nodup_flatMap ((hF.nodup c).filter _)
    · intro y hy
      obtain ⟨hy, ho⟩ := List.mem_filter.1 hy
      exact (hT y hy ho).1
    · intro y hy z hz hne x hx hx'
      obtain ⟨hy, ho⟩ := List.mem_filter.1 hy
      obtain ⟨hz, hzo⟩ := List.mem_filter.1 hz
      exact kids_disjoint hF hy hz ho hzo hne (((hT y hy ho).2 x).1 hx) (((hT z hz hzo).2 x).1 hx')
  · intro x hx y hy e
    subst e
    obtain ⟨hx, hno⟩ := List.mem_filter.1 hx
    obtain ⟨y, hy, hxy⟩ := List.mem_flatMap.1 hy
    obtain ⟨hy, ho⟩ := List.mem_filter.1 hy
    rcases ((hT y hy ho).2 x).1 hxy with rfl | hd
    · simp [ho] at hno
    · exact kids_apart hF hx hy ho hd

/-- `x` stands before `y` in `l`. -/
def Before (l : List α) (x y : α) : Prop := ∃ p q, l = p ++ x :: q ∧ y ∈ q

theorem Before.append_left {l : List α} {x y : α} (h : Before l x y) (m : List α) : Before (m ++ l) x y := by
  obtain ⟨p, q, rfl, hy⟩ := h
  exact ⟨m ++ p, q, by simp, hy⟩

theorem Before.append_right {l : List α} {x y : α} (h : Before l x y) (m : List α) : Before (l ++ m) x y := by
  obtain ⟨p, q, rfl, hy⟩ := h
  exact ⟨p, q ++ m, by simp, List.mem_append_left _ hy⟩

theorem Before.flatMap {T : α → List α} {l : List α} {z x y : α} (hz : z ∈ l) (h : Before (T z) x y) : Before (l.flatMap T) x y := by
  obtain ⟨p, q, rfl⟩ := List.append_of_mem hz
  rw [List.flatMap_append, List.flatMap_cons]
  exact (h.append_right _).append_left _

end Verif.Forest
