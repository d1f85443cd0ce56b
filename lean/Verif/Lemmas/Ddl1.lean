import Verif.Spec.Ddl1
import Verif.Lemmas.EditDic
import Verif.Lemmas.Validate
/-! Helper lemmas for DDL1 dictionaries: what happens to one block. -/
set_option linter.unusedSectionVars false
namespace Verif.Ddl1
open CifDic Validate Spec
variable [CaseFold]

/-- The value can be stored. -/
def Storable (u : Bool) (v : PyVal) : Prop := ∃ r, regularise v = .ok r ∧ checkItemValue u r.1 = true

theorem okChar {u : Bool} {ch : Char} (h : 32 ≤ ch.toNat ∧ ch.toNat ≤ 126) : okValueChar u ch = true := by
  simp [okValueChar, h.1, h.2]

theorem Solid.printable {s : Str} (h : Solid s) : Printable s := fun ch hc => ⟨by have := (h ch hc).1; omega, (h ch hc).2⟩

theorem Printable.append {s t : Str} (h : Printable s) (h' : Printable t) : Printable (s ++ t) := by
  intro ch hc
  rcases List.mem_append.1 hc with h1 | h1
  · exact h ch h1
  · exact h' ch h1

theorem Printable.checkOne {u : Bool} {s : Str} (h : Printable s) : checkOne u (.str s) = true := by
  simp only [Verif.checkOne, List.all_eq_true]
  exact fun ch hc => okChar (h ch hc)

theorem storable_str {u : Bool} {s : Str} (h : Printable s) : Storable u (.str s) := ⟨(.str s, .none), rfl, h.checkOne⟩

/-- A text or a number. -/
def Atom (v : PyVal) : Prop := (∃ s, v = .str s ∧ Printable s) ∨ ∃ t, v = .num t

theorem Atom.reg {v : PyVal} (h : Atom v) : regularise v = .ok (v, .none) := by
  rcases h with ⟨s, rfl, _⟩ | ⟨t, rfl⟩ <;> rfl

theorem Atom.check {u : Bool} {v : PyVal} (h : Atom v) : Verif.checkOne u v = true := by
  rcases h with ⟨s, rfl, h⟩ | ⟨t, rfl⟩
  · exact h.checkOne
  · rfl

theorem regulariseAll_atoms : ∀ {l : List PyVal}, (∀ v ∈ l, Atom v) → ∃ p, regulariseAll l = .ok (l, p)
  | [], _ => ⟨[], rfl⟩
  | v :: r, h => by
    obtain ⟨p, hp⟩ := regulariseAll_atoms (l := r) (fun v hv => h v (List.mem_cons_of_mem _ hv))
    refine ⟨.none :: p, ?_⟩
    rw [regulariseAll, (h v (by simp)).reg]
    simp only [hp]

theorem storable_list {u : Bool} {l : List PyVal} (hne : l ≠ []) (h : ∀ v ∈ l, Atom v) : Storable u (.list l) := by
  cases l with
  | nil => exact absurd rfl hne
  | cons v r =>
    obtain ⟨p, hp⟩ := regulariseAll_atoms (l := r) (fun v hv => h v (List.mem_cons_of_mem _ hv))
    refine ⟨(.list (v :: r), .list (.none :: p)), ?_, ?_⟩
    · rw [regularise, (h v (by simp)).reg]
      simp only [hp]
    · simp only [checkItemValue, List.all_eq_true]
      exact fun x hx => (h x hx).check

/-! ## Blocks that differ in some attributes -/

/-- The blocks differ at most in the values of the (lower-case) names `l`. -/
structure Kin (b b' : Block) (l : List Str) : Prop where
  wf : b'.WF
  over : b'.overwrite = b.overwrite
  uni : b'.unicode = b.unicode
  max : b'.maxName = b.maxName
  same : ∀ x, x ∉ l → dget b'.block x = dget b.block x

theorem Kin.refl {b : Block} (h : b.WF) (l : List Str) : Kin b b l := ⟨h, rfl, rfl, rfl, fun _ _ => rfl⟩

theorem Kin.trans {b b1 b2 : Block} {l l' : List Str} (h : Kin b b1 l) (h' : Kin b1 b2 l') : Kin b b2 (l ++ l') :=
  ⟨h'.wf, h'.over.trans h.over, h'.uni.trans h.uni, h'.max.trans h.max, fun x hx => by
    simp only [List.mem_append, not_or] at hx
    rw [h'.same x hx.2, h.same x hx.1]⟩

theorem Kin.mono {b b' : Block} {l l' : List Str} (h : Kin b b' l) (hl : ∀ x ∈ l, x ∈ l') : Kin b b' l' :=
  ⟨h.wf, h.over, h.uni, h.max, fun x hx => h.same x fun hm => hx (hl x hm)⟩

theorem contains_dget {b : Block} {a : Str} : b.contains a = (dget b.block (lower a)).isSome := by
  have : b.contains a = true ↔ (dget b.block (lower a)).isSome = true := by
    rw [Block.contains_iff, Block.keys, ← dget_isSome]
    cases dget b.block (lower a) <;> simp
  cases h : b.contains a <;> cases h' : (dget b.block (lower a)).isSome <;> simp_all

theorem contains_of_same {b b' : Block} {a : Str} (h : dget b'.block (lower a) = dget b.block (lower a)) : b'.contains a = b.contains a := by
  rw [contains_dget, contains_dget, h]

theorem getItem_of_same {b b' : Block} {a : Str} (h : dget b'.block (lower a) = dget b.block (lower a)) : b'.getItem a = b.getItem a := by
  unfold Block.getItem Block.getFullItemValue
  rw [h]

theorem lookup_of_same {b b' : Block} {a : Str} (h : dget b'.block (lower a) = dget b.block (lower a)) : b'.lookup a = b.lookup a := by
  unfold Block.lookup
  rw [getItem_of_same h]

theorem has_of_same {b b' : Block} {a : Str} {v : PyVal} (h : dget b'.block (lower a) = dget b.block (lower a)) : Has b' a v ↔ Has b a v := by
  unfold Has
  rw [getItem_of_same h, contains_of_same h]

theorem Has.unique {b : Block} {a : Str} {v w : PyVal} (h : Has b a v) (h' : Has b a w) : v = w := by
  have := h.2.symm.trans h'.2
  injection this

/-- The name can be used in the block. -/
def NameOk (b : Block) (a : Str) : Prop := checkDataName b.unicode b.maxName a = .ok () ∧ a ≠ Block.saves

theorem nameOk {b : Block} (hl : ∀ m, b.maxName = some m → 75 ≤ m) {r : Str} (hs : Solid ('_' :: r)) (hn : ('_' :: r).length ≤ 75) :
    NameOk b ('_' :: r) := by
  refine ⟨?_, ?_⟩
  · have h1 : nameTooLong b.maxName ('_' :: r) = false := by
      unfold nameTooLong
      split
      · rename_i m hm
        have := hl m hm
        exact decide_eq_false (by omega)
      · rfl
    have any (p : Char → Bool) (hp : ∀ ch : Char, 33 ≤ ch.toNat ∧ ch.toNat ≤ 126 → p ch = false) : ('_' :: r).any p = false := by
      rw [List.any_eq_false]
      intro ch hc
      rw [hp ch (hs ch hc)]
      decide
    unfold checkDataName
    rw [if_neg (by rw [h1]; decide)]
    simp only
    rw [if_neg (by decide)]
    cases b.unicode
    · rw [if_pos (by decide), any _ (fun ch h => by simp; omega)]
      rfl
    · rw [if_neg (by decide), any _ (fun ch h => by simp; omega), any _ (fun ch h => by simp; omega), any _ (fun ch h => by simp; omega),
        any _ (fun ch h => by simp; omega), any _ (fun ch h => by simp; omega), any _ (fun ch h => by simp; omega)]
      rfl
  · intro h
    have : '_' = 's' := (List.cons.inj h).1
    exact absurd this (by decide)

theorem NameOk.kin {b b' : Block} {a : Str} {l : List Str} (h : NameOk b a) (hk : Kin b b' l) : NameOk b' a := by
  unfold NameOk
  rw [hk.uni, hk.max]
  exact h

theorem addItem_new {b : Block} (hw : b.WF) {a : Str} {v : PyVal} (hn : NameOk b a) (ho : b.overwrite = true ∨ b.contains a = false)
    (hv : Storable b.unicode v) : ∃ b', b.addItem a v = (b', .ok ()) ∧ Kin b b' [lower a] ∧ Has b' a v := by
  obtain ⟨r, hr, hc⟩ := hv
  have h1 : ∃ sv, b.addItemCheck a v false = .ok sv := by
    unfold Block.addItemCheck
    rw [if_neg (by decide), hn.1]
    have : (b.contains a && !b.overwrite) = false := by
      rcases ho with ho | ho <;> simp [ho]
    simp only [this]
    rw [if_neg (by decide), if_neg (by decide), hr]
    obtain ⟨r1, r2⟩ := r
    simp only at hc ⊢
    rw [if_pos hc]
    split
    · exact ⟨_, rfl⟩
    · exact ⟨_, rfl⟩
  obtain ⟨sv, hsv⟩ := h1
  have h2 : b.addItem a v = (b.store a sv, .ok ()) := by
    unfold Block.addItem
    rw [hsv]
  refine ⟨_, h2, ⟨Block.wf_store hw a sv, rfl, rfl, rfl, fun x hx => ?_⟩, ?_⟩
  · simp only [Block.store, dget_dset]
    rw [if_neg]
    rintro rfl
    exact hx (by simp)
  · refine has_of_val hn.2 ?_
    rw [Block.val_addItem h2 (by simp), if_pos rfl]

theorem setE_new {b : Block} (hw : b.WF) {a : Str} {v : PyVal} (hn : NameOk b a) (ho : b.overwrite = true ∨ b.contains a = false)
    (hv : Storable b.unicode v) : ∃ b', setE b a v = .ok b' ∧ Kin b b' [lower a] ∧ Has b' a v := by
  obtain ⟨b', h1, h2, h3⟩ := addItem_new hw hn ho hv
  refine ⟨b', ?_, h2, h3⟩
  unfold setE Block.setItem
  rw [if_neg hn.2, h1]

theorem kin_overwrite {b b' : Block} {l : List Str} {o : Bool} (h : Kin { b with overwrite := o } b' l) :
    Kin b { b' with overwrite := b.overwrite } l :=
  ⟨Block.wf_settings h.wf _ _ _, rfl, h.uni, h.max, h.same⟩

theorem update_new : ∀ {l : List (Str × PyVal)} {b : Block} (_ : b.WF) (_ : ∀ p ∈ l, NameOk b p.1 ∧ b.contains p.1 = false ∧ Storable b.unicode p.2)
    (_ : (l.map fun p => lower p.1).Nodup), ∃ b', b.update l = (b', .ok ()) ∧ Kin b b' (l.map fun p => lower p.1) ∧ ∀ p ∈ l, Has b' p.1 p.2
  | [], b, hw, _, _ => ⟨b, rfl, Kin.refl hw _, by simp⟩
  | p :: r, b, hw, h, hn => by
    obtain ⟨a, v⟩ := p
    rw [List.map_cons, List.nodup_cons] at hn
    obtain ⟨h1, h2, h3⟩ := h (a, v) (by simp)
    obtain ⟨b1, e1, k1, g1⟩ := addItem_new hw h1 (.inr h2) h3
    have hne : ∀ p ∈ r, lower p.1 ≠ lower a := fun p hp e => hn.1 (List.mem_map.2 ⟨p, hp, e⟩)
    obtain ⟨b2, e2, k2, g2⟩ := update_new (l := r) (b := b1) k1.wf (fun p hp => by
      obtain ⟨q1, q2, q3⟩ := h p (List.mem_cons_of_mem _ hp)
      refine ⟨q1.kin k1, ?_, by rw [k1.uni]; exact q3⟩
      rw [contains_of_same (k1.same _ (by simpa using hne p hp)), q2]) hn.2
    refine ⟨b2, ?_, (k1.trans k2).mono (by simp), ?_⟩
    · simp only [Block.update, e1, e2]
    · intro p hp
      rcases List.mem_cons.1 hp with rfl | hp
      · rw [has_of_same (k2.same _ hn.1)]
        exact g1
      · exact g2 p hp

theorem addLoop_new {b : Block} (hw : b.WF) {names : List Str} {cols : List (List PyVal)} (hl : names.length = cols.length)
    (h : ∀ a ∈ names, NameOk b a ∧ b.contains a = false) (hc : ∀ l ∈ cols, l ≠ [] ∧ ∀ v ∈ l, Atom v)
    (hs : ∃ n, ∀ l ∈ cols, l.length = n)
    (hn : (names.map lower).Nodup) : ∃ b', addLoop b names cols = .ok b' ∧ Kin b b' (names.map lower) ∧
      ∀ p ∈ names.zip cols, Has b' p.1 (.list p.2) := by
  have hz : ((names.zip (cols.map PyVal.list)).map fun p => lower p.1) = names.map lower := by
    have : (names.zip (cols.map PyVal.list)).map (fun p => lower p.1) = ((names.zip (cols.map PyVal.list)).map Prod.fst).map lower := by
      rw [List.map_map]; rfl
    rw [this, List.map_fst_zip (by simp [hl])]
  obtain ⟨b1, e1, k1, g1⟩ := update_new (l := names.zip (cols.map PyVal.list)) hw (fun p hp => by
    obtain ⟨a, v⟩ := p
    have hm := List.of_mem_zip hp
    obtain ⟨l, hlm, rfl⟩ := List.mem_map.1 hm.2
    exact ⟨(h a hm.1).1, (h a hm.1).2, storable_list (hc l hlm).1 (hc l hlm).2⟩) (by rw [hz]; exact hn)
  rw [hz] at k1
  have g : ∀ p ∈ names.zip cols, Has b1 p.1 (.list p.2) := by
    intro p hp
    refine g1 (p.1, .list p.2) ?_
    rw [List.zip_map_right]
    exact List.mem_map.2 ⟨p, hp, rfl⟩
  obtain ⟨n, hs⟩ := hs
  have hcols : ∀ d ∈ names, ∃ l, b1.getItem d = .ok (.list l) ∧ l.length = n := by
    intro d hd
    obtain ⟨i, hi, rfl⟩ := List.mem_iff_getElem.1 hd
    have hm : (names[i], cols[i]'(hl ▸ hi)) ∈ names.zip cols := by
      rw [List.mem_iff_getElem]
      exact ⟨i, by simp; omega, by simp⟩
    exact ⟨_, (g _ hm).2, hs _ (List.getElem_mem _)⟩
  have hcheck : b1.createLoopCheck names = (b1, .ok ()) := by
    have hall : ∀ (ns : List Str), (∀ d ∈ ns, ∃ l, b1.getItem d = .ok (.list l) ∧ l.length = n) →
        ∃ vs, b1.getAll ns = .ok vs ∧ vs.length = ns.length ∧ ∀ v ∈ vs, ∃ l, v = .list l ∧ l.length = n := by
      intro ns
      induction ns with
      | nil => intro _; exact ⟨[], rfl, rfl, by simp⟩
      | cons d r ih =>
        intro hd
        obtain ⟨l, hl, hln⟩ := hd d (by simp)
        obtain ⟨vs, h1, h2, h3⟩ := ih (fun x hx => hd x (List.mem_cons_of_mem _ hx))
        refine ⟨.list l :: vs, ?_, by simp [h2], ?_⟩
        · simp only [Block.getAll, hl, h1]
        · intro v hv
          rcases List.mem_cons.1 hv with rfl | hv
          · exact ⟨l, rfl, hln⟩
          · exact h3 v hv
    obtain ⟨vs, h1, h2, h3⟩ := hall names hcols
    unfold Block.createLoopCheck
    rw [h1]
    simp only
    have hf : vs.filter PyVal.isColumn = vs := by
      rw [List.filter_eq_self]
      intro v hv
      obtain ⟨l, rfl, _⟩ := h3 v hv
      rfl
    rw [hf, if_pos h2, if_neg]
    simp only [List.any_eq_true, List.mem_map, not_exists, not_and, decide_eq_true_eq]
    rintro _ ⟨v, hv, rfl⟩ _ ⟨w, hw, rfl⟩
    obtain ⟨l, rfl, e⟩ := h3 v hv
    obtain ⟨l', rfl, e'⟩ := h3 w hw
    simp only [Block.colLen, e, e', ne_eq, not_true_eq_false, not_false_eq_true]
  have e2 : b1.createLoop names = b1.makeLoop names (-1) := by
    unfold Block.createLoop
    rw [if_pos rfl, hcheck]
  have hmk := Block.makeLoop_eq k1.wf names (-1)
  have hwf := Block.wf_createLoop k1.wf names (-1) true hn
  rw [e2, hmk] at hwf
  refine ⟨(b1.makeLoop names (-1)).1, ?_, ?_, ?_⟩
  · unfold addLoop
    rw [e1]
    simp only [e2, hmk]
  · rw [hmk]
    exact ⟨hwf, k1.over, k1.uni, k1.max, k1.same⟩
  · intro p hp
    rw [hmk]
    exact g p hp

/-! ## The names of attributes -/

theorem low_name : lower nameAttr = nameAttr := CaseFold.lower_ascii _ (by decide)
theorem low_list : lower listAttr = listAttr := CaseFold.lower_ascii _ (by decide)
theorem low_cond : lower condAttr = condAttr := CaseFold.lower_ascii _ (by decide)
theorem low_range : lower rangeAttr = rangeAttr := CaseFold.lower_ascii _ (by decide)
theorem low_max : lower maxAttr = maxAttr := CaseFold.lower_ascii _ (by decide)
theorem low_min : lower minAttr = minAttr := CaseFold.lower_ascii _ (by decide)
theorem low_construct : lower constructAttr = constructAttr := CaseFold.lower_ascii _ (by decide)
theorem low_type : lower typeAttr = typeAttr := CaseFold.lower_ascii _ (by decide)
theorem low_category : lower categoryAttr = categoryAttr := CaseFold.lower_ascii _ (by decide)
theorem low_catId : lower catIdAttr = catIdAttr := CaseFold.lower_ascii _ (by decide)
theorem low_code : lower codeAttr = codeAttr := CaseFold.lower_ascii _ (by decide)
theorem low_codeConstruct : lower codeConstructAttr = codeConstructAttr := CaseFold.lower_ascii _ (by decide)
theorem low_primitive : lower primitiveAttr = primitiveAttr := CaseFold.lower_ascii _ (by decide)
theorem low_mandatory : lower mandatoryAttr = mandatoryAttr := CaseFold.lower_ascii _ (by decide)
theorem low_unique : lower uniqueAttr = uniqueAttr := CaseFold.lower_ascii _ (by decide)
theorem low_catMandatory : lower catMandatoryAttr = catMandatoryAttr := CaseFold.lower_ascii _ (by decide)
theorem low_catKey : lower catKeyAttr = catKeyAttr := CaseFold.lower_ascii _ (by decide)
theorem low_dic : lower dicBlock = dicBlock := CaseFold.lower_ascii _ (by decide)

/-- The attributes set by the code. -/
def setAttrs' : List Str :=
  [nameAttr, listAttr, condAttr, maxAttr, minAttr, typeAttr, catIdAttr, categoryAttr, codeAttr, codeConstructAttr, primitiveAttr,
    catMandatoryAttr, catKeyAttr]

theorem attrOk {b : Block} (hl : ∀ m, b.maxName = some m → 75 ≤ m) {a : Str} (ha : a ∈ setAttrs') : NameOk b a := by
  have h : ∀ a ∈ setAttrs', a.head? = some '_' ∧ (∀ ch ∈ a, 33 ≤ ch.toNat ∧ ch.toNat ≤ 126) ∧ a.length ≤ 75 := by decide
  obtain ⟨h1, h2, h3⟩ := h a ha
  cases a with
  | nil => cases h1
  | cons ch r =>
    simp only [List.head?_cons, Option.some.injEq] at h1
    subst h1
    exact nameOk hl h2 h3

/-! ## The changes to one definition -/

/-- A block the second loop can deal with. -/
structure Ready (b : Block) : Prop where
  wf : b.WF
  limit : ∀ m, b.maxName = some m → 75 ≤ m
  range : b.contains rangeAttr = true → ∃ s lo hi, Has b rangeAttr (.str s) ∧ RangeText s lo hi
  construct : b.contains constructAttr = true → ∃ n s t, Has b nameAttr (.str n) ∧ Printable n ∧ Has b constructAttr (.str s) ∧ Has b typeAttr (.str t)
  category : b.contains categoryAttr = true → ∃ v, Has b categoryAttr v
  over : Overview b → ∃ n i t, Has b nameAttr (.str n) ∧ n = '_' :: (i ++ '_' :: t) ∧ '_' ∉ t ∧ Printable i
  fresh : b.contains rangeAttr = true → b.contains maxAttr = false ∧ b.contains minAttr = false

/-- The two columns made from a range. -/
def maxCol (lo hi : Option Numeral) : List PyVal := (closedBounds lo hi).map fun p => p.2.written
def minCol (lo hi : Option Numeral) : List PyVal := (closedBounds lo hi).map fun p => p.1.written

/-- What the second loop makes of a block. -/
structure Norm (b b' : Block) : Prop where
  kin : Kin b b' [listAttr, condAttr, maxAttr, minAttr, typeAttr, catIdAttr]
  list : (b.contains listAttr = true → dget b'.block listAttr = dget b.block listAttr) ∧
    (b.contains listAttr = false → Has b' listAttr (.str "no".toList))
  cond : (b.contains condAttr = true → dget b'.block condAttr = dget b.block condAttr) ∧
    (b.contains condAttr = false → Has b' condAttr (.str "none".toList))
  range : ∀ s lo hi, Has b rangeAttr (.str s) → RangeText s lo hi → Has b' maxAttr (.list (maxCol lo hi)) ∧ Has b' minAttr (.list (minCol lo hi))
  noRange : b.contains rangeAttr = false → dget b'.block maxAttr = dget b.block maxAttr ∧ dget b'.block minAttr = dget b.block minAttr
  type : (b.contains constructAttr = true → ∀ n, Has b nameAttr (.str n) → Has b' typeAttr (.str (n ++ "_type".toList))) ∧
    (b.contains constructAttr = false → dget b'.block typeAttr = dget b.block typeAttr)
  ident : (Overview b → ∀ n i t, Has b nameAttr (.str n) → n = '_' :: (i ++ '_' :: t) → '_' ∉ t → Has b' catIdAttr (.str i)) ∧
    (¬ Overview b → dget b'.block catIdAttr = dget b.block catIdAttr)

/-- The type a block gives rise to. -/
def NewType (b : Block) (row : PyVal × PyVal × PyVal) : Prop :=
  ∃ n s t, Has b nameAttr (.str n) ∧ Has b constructAttr (.str s) ∧ Has b typeAttr (.str t) ∧
    row = (.str (n ++ "_type".toList), .str (s ++ ['$']), .str t)

/-- The category a block defines. -/
def NewCat (b : Block) (cat : Str) : Prop :=
  Overview b ∧ ∃ n t, Has b nameAttr (.str n) ∧ n = '_' :: (cat ++ '_' :: t) ∧ '_' ∉ t

theorem middle_eq {i t : Str} (ht : '_' ∉ t) : middle ('_' :: (i ++ '_' :: t)) = .ok i := by
  unfold middle
  rw [if_pos (by simp)]
  have h : (('_' :: (i ++ '_' :: t)).reverse) = t.reverse ++ '_' :: (i.reverse ++ ['_']) := by simp
  rw [h, List.dropWhile_append_of_pos]
  · simp
  · intro ch hc
    rw [decide_eq_true_eq]
    rintro rfl
    exact ht (List.mem_reverse.1 hc)

theorem defaultTo_ok {b : Block} (hw : b.WF) (hl : ∀ m, b.maxName = some m → 75 ≤ m) {a : Str} (ha : a ∈ setAttrs') (hlow : lower a = a) {s : Str}
    (hs : Printable s) : ∃ b', defaultTo a s b = .ok b' ∧ Kin b b' [a] ∧ (b.contains a = true → dget b'.block a = dget b.block a) ∧
      (b.contains a = false → Has b' a (.str s)) := by
  unfold defaultTo
  cases h : b.contains a with
  | true => exact ⟨b, by simp, Kin.refl hw _, fun _ => rfl, nofun⟩
  | false =>
    obtain ⟨b', h1, h2, h3⟩ := setE_new hw (attrOk hl ha) (.inr h) (storable_str (u := b.unicode) hs)
    rw [hlow] at h2
    exact ⟨b', by simp [h1], h2, nofun, fun _ => h3⟩

theorem closedBounds_atom {lo hi : Option Numeral} : ∀ p ∈ closedBounds lo hi, Atom p.1.written ∧ Atom p.2.written := by
  have h0 : Atom Bound.open_.written := .inl ⟨['.'], rfl, by intro ch hc; simp at hc; subst hc; decide⟩
  have hn (n : Numeral) : Atom (Bound.number n).written := .inr ⟨n.text, rfl⟩
  have hs (o : Option Numeral) : Atom (side o).written := by
    cases o
    · exact h0
    · exact hn _
  intro p hp
  unfold closedBounds at hp
  split at hp
  · simp only [List.mem_cons, List.not_mem_nil, or_false] at hp
    rcases hp with rfl | rfl
    · exact ⟨hs _, hs _⟩
    · exact ⟨h0, hs _⟩
  · simp only [List.mem_cons, List.not_mem_nil, or_false] at hp
    rcases hp with rfl | rfl
    · exact ⟨hn _, h0⟩
    · exact ⟨hn _, hn _⟩
  · simp only [List.mem_cons, List.not_mem_nil, or_false] at hp
    rcases hp with rfl | rfl | rfl <;> exact ⟨hn _, hn _⟩

theorem closedBounds_ne (lo hi : Option Numeral) : closedBounds lo hi ≠ [] := by
  unfold closedBounds
  split <;> simp

theorem RangeText.side_unique {s : Str} {lo hi lo' hi' : Option Numeral} (h : RangeText s lo hi) (h' : RangeText s lo' hi') :
    maxCol lo hi = maxCol lo' hi' ∧ minCol lo hi = minCol lo' hi' := by
  obtain ⟨e, h1, h2⟩ := h
  obtain ⟨e', h1', h2'⟩ := h'
  have g := getMaxMin_sides h1 h2
  have g' := getMaxMin_sides h1' h2'
  rw [← e, e', g'] at g
  injection g with g
  injection g with g1 g2
  have c := rangeColumns_sides lo hi
  have c' := rangeColumns_sides lo' hi'
  rw [← g1, ← g2, c'] at c
  injection c with c1 c2
  exact ⟨c1.symm, c2.symm⟩

theorem addRange_ok {b : Block} (hw : b.WF) (hl : ∀ m, b.maxName = some m → 75 ≤ m)
    (hr : b.contains rangeAttr = true → ∃ s lo hi, Has b rangeAttr (.str s) ∧ RangeText s lo hi)
    (hf : b.contains rangeAttr = true → b.contains maxAttr = false ∧ b.contains minAttr = false) :
    ∃ b', addRange b = .ok b' ∧ Kin b b' [maxAttr, minAttr] ∧
      (∀ s lo hi, Has b rangeAttr (.str s) → RangeText s lo hi → Has b' maxAttr (.list (maxCol lo hi)) ∧ Has b' minAttr (.list (minCol lo hi))) ∧
      (b.contains rangeAttr = false → b' = b) := by
  unfold addRange
  cases h : b.contains rangeAttr with
  | false =>
    refine ⟨b, by simp, Kin.refl hw _, ?_, fun _ => rfl⟩
    intro s lo hi hh
    rw [hh.1] at h
    cases h
  | true =>
    obtain ⟨s, lo, hi, h1, h2⟩ := hr h
    have hg : getMaxMin s = .ok ((side hi).written, (side lo).written) := by
      obtain ⟨rfl, h3, h4⟩ := h2
      exact getMaxMin_sides h3 h4
    have hmm : ([maxAttr, minAttr].map lower) = [maxAttr, minAttr] := by simp [low_max, low_min]
    obtain ⟨b', e, k, g⟩ := addLoop_new (b := b) hw (names := [maxAttr, minAttr]) (cols := [maxCol lo hi, minCol lo hi]) rfl
      (by
        intro a ha
        simp only [List.mem_cons, List.not_mem_nil, or_false] at ha
        rcases ha with rfl | rfl
        · exact ⟨attrOk hl (by simp [setAttrs']), (hf h).1⟩
        · exact ⟨attrOk hl (by simp [setAttrs']), (hf h).2⟩)
      (by
        intro l hm
        simp only [List.mem_cons, List.not_mem_nil, or_false] at hm
        have ne := closedBounds_ne lo hi
        rcases hm with rfl | rfl
        · refine ⟨by simpa [maxCol] using ne, ?_⟩
          intro v hv
          obtain ⟨p, hp, rfl⟩ := List.mem_map.1 hv
          exact (closedBounds_atom p hp).2
        · refine ⟨by simpa [minCol] using ne, ?_⟩
          intro v hv
          obtain ⟨p, hp, rfl⟩ := List.mem_map.1 hv
          exact (closedBounds_atom p hp).1)
      ⟨(closedBounds lo hi).length, by
        intro l hm
        simp only [List.mem_cons, List.not_mem_nil, or_false] at hm
        rcases hm with rfl | rfl <;> simp [maxCol, minCol]⟩
      (by rw [hmm]; decide)
    rw [hmm] at k
    refine ⟨b', ?_, k, ?_, nofun⟩
    · rw [if_pos rfl, h1.2]
      simp only [hg]
      rw [rangeColumns_sides]
      exact e
    · intro s' lo' hi' h1' h2'
      have := Has.unique h1 h1'
      injection this with this
      subst this
      obtain ⟨q1, q2⟩ := h2'.side_unique h2
      rw [q1, q2]
      exact ⟨g (maxAttr, maxCol lo hi) (by simp), g (minAttr, minCol lo hi) (by simp)⟩

theorem addType_ok {b : Block} (hw : b.WF) (ho : b.overwrite = true) (hl : ∀ m, b.maxName = some m → 75 ≤ m)
    (hc : b.contains constructAttr = true → ∃ n s t, Has b nameAttr (.str n) ∧ Printable n ∧ Has b constructAttr (.str s) ∧ Has b typeAttr (.str t))
    (f : Found) :
    ∃ b' f', addType b f = .ok (b', f') ∧ Kin b b' [typeAttr] ∧
      (b.contains constructAttr = true → ∀ n, Has b nameAttr (.str n) → Has b' typeAttr (.str (n ++ "_type".toList))) ∧
      (b.contains constructAttr = false → b' = b) ∧ f'.cats = f.cats ∧ ∀ row, row ∈ f'.types ↔ row ∈ f.types ∨ NewType b row := by
  unfold addType
  cases h : b.contains constructAttr with
  | false =>
    refine ⟨b, f, by simp, Kin.refl hw _, nofun, fun _ => rfl, rfl, fun row => ⟨.inl, ?_⟩⟩
    rintro (h' | ⟨n, s, t, _, h1, _⟩)
    · exact h'
    · rw [h1.1] at h; cases h
  | true =>
    obtain ⟨n, s, t, h1, h2, h3, h4⟩ := hc h
    have hp : Printable (n ++ "_type".toList) := h2.append (by unfold Printable; decide)
    obtain ⟨b', e, k, g⟩ := setE_new hw (attrOk hl (a := typeAttr) (by simp [setAttrs'])) (.inl ho) (storable_str (u := b.unicode) hp)
    rw [low_type] at k
    refine ⟨b', { f with types := f.types ++ [(.str (n ++ "_type".toList), .str (s ++ ['$']), .str t)] }, ?_, k, ?_, nofun, rfl, ?_⟩
    · rw [if_pos rfl, h1.2]
      simp only [h3.2, h4.2, e]
    · intro _ n' h1'
      have := Has.unique h1 h1'
      injection this with this
      subst this
      exact g
    · intro row
      simp only [List.mem_append, List.mem_singleton]
      refine or_congr .rfl ⟨?_, ?_⟩
      · rintro rfl
        exact ⟨n, s, t, h1, h3, h4, rfl⟩
      · rintro ⟨n', s', t', q1, q2, q3, rfl⟩
        have e1 := Has.unique h1 q1
        have e2 := Has.unique h3 q2
        have e3 := Has.unique h4 q3
        injection e1 with e1
        injection e2 with e2
        injection e3 with e3
        rw [e1, e2, e3]

theorem mem_addCat (f : Found) (cat x : Str) : x ∈ (addCat f cat).cats ↔ x ∈ f.cats ∨ x = cat := by
  unfold addCat
  split
  · rename_i h
    exact ⟨.inl, fun h' => h'.elim id (fun e => e ▸ h)⟩
  · simp

theorem addCat_types (f : Found) (cat : Str) : (addCat f cat).types = f.types := by
  unfold addCat
  split <;> rfl

theorem addCatId_ok {b : Block} (hw : b.WF) (ho : b.overwrite = true) (hl : ∀ m, b.maxName = some m → 75 ≤ m)
    (hc : b.contains categoryAttr = true → ∃ v, Has b categoryAttr v)
    (hv : Overview b → ∃ n i t, Has b nameAttr (.str n) ∧ n = '_' :: (i ++ '_' :: t) ∧ '_' ∉ t ∧ Printable i) (f : Found) :
    ∃ b' f', addCatId b f = .ok (b', f') ∧ Kin b b' [catIdAttr] ∧
      (Overview b → ∀ n i t, Has b nameAttr (.str n) → n = '_' :: (i ++ '_' :: t) → '_' ∉ t → Has b' catIdAttr (.str i)) ∧
      (¬ Overview b → b' = b) ∧ f'.types = f.types ∧ ∀ cat, cat ∈ f'.cats ↔ cat ∈ f.cats ∨ NewCat b cat := by
  have hget : ∃ v, getD b categoryAttr .none = .ok v ∧ (v = .str overview ↔ Overview b) := by
    unfold getD
    cases h : b.contains categoryAttr with
    | false => exact ⟨.none, by simp, ⟨nofun, fun h' => by rw [h'.1] at h; cases h⟩⟩
    | true =>
      obtain ⟨v, hv⟩ := hc h
      refine ⟨v, by rw [if_pos rfl, hv.2], ⟨?_, fun h' => Has.unique hv h'⟩⟩
      rintro rfl
      exact hv
  obtain ⟨v, hg, hiff⟩ := hget
  unfold addCatId
  rw [hg]
  simp only
  by_cases h : Overview b
  · obtain ⟨n, i, t, h1, h2, h3, h4⟩ := hv h
    obtain ⟨b', e, k, g⟩ := setE_new hw (attrOk hl (a := catIdAttr) (by simp [setAttrs'])) (.inl ho) (storable_str (u := b.unicode) h4)
    rw [low_catId] at k
    have hm : middle n = .ok i := by rw [h2]; exact middle_eq h3
    have uniq : ∀ n' i' t', Has b nameAttr (.str n') → n' = '_' :: (i' ++ '_' :: t') → '_' ∉ t' → i' = i := by
      intro n' i' t' q1 q2 q3
      have e1 := Has.unique h1 q1
      injection e1 with e1
      rw [e1, q2, middle_eq q3] at hm
      injection hm
    refine ⟨b', addCat f i, ?_, k, ?_, fun h' => absurd h h', addCat_types _ _, ?_⟩
    · rw [if_pos (hiff.2 h), h1.2]
      simp only [hm, e]
    · intro _ n' i' t' q1 q2 q3
      rw [uniq n' i' t' q1 q2 q3]
      exact g
    · intro cat
      rw [mem_addCat]
      refine or_congr .rfl ⟨?_, ?_⟩
      · rintro rfl
        exact ⟨h, n, t, h1, h2, h3⟩
      · rintro ⟨_, n', t', q1, q2, q3⟩
        exact uniq n' cat t' q1 q2 q3
  · refine ⟨b, f, ?_, Kin.refl hw _, fun h' => absurd h' h, fun _ => rfl, rfl, fun cat => ⟨.inl, ?_⟩⟩
    · rw [if_neg (fun e => h (hiff.1 e))]
    · rintro (h' | h')
      · exact h'
      · exact absurd h'.1 h

theorem normalise_ok {b : Block} (h : Ready b) (f : Found) :
    ∃ b' f', normalise b f = .ok (b', f') ∧ Norm b b' ∧ (∀ row, row ∈ f'.types ↔ row ∈ f.types ∨ NewType b row) ∧
      ∀ cat, cat ∈ f'.cats ↔ cat ∈ f.cats ∨ NewCat b cat := by
  have hw0 : Block.WF { b with overwrite := true } := Block.wf_settings h.wf _ _ _
  obtain ⟨b1, e1, k1, l1, l1'⟩ := defaultTo_ok (b := { b with overwrite := true }) hw0 h.limit (a := listAttr) (by simp [setAttrs']) low_list
    (s := "no".toList) (by unfold Printable; decide)
  have lim1 : ∀ m, b1.maxName = some m → 75 ≤ m := by rw [k1.max]; exact h.limit
  obtain ⟨b2, e2, k2, l2, l2'⟩ := defaultTo_ok (b := b1) k1.wf lim1 (a := condAttr) (by simp [setAttrs']) low_cond
    (s := "none".toList) (by unfold Printable; decide)
  have k12 := k1.trans k2
  have s12 : ∀ x, x ∉ [listAttr, condAttr] → dget b2.block x = dget b.block x := fun x hx => k12.same x hx
  have has12 {a : Str} (hlow : lower a = a) (ha : a ∉ [listAttr, condAttr]) {v : PyVal} : Has b2 a v ↔ Has b a v :=
    has_of_same (by rw [hlow]; exact s12 a ha)
  have con12 {a : Str} (hlow : lower a = a) (ha : a ∉ [listAttr, condAttr]) : b2.contains a = b.contains a :=
    contains_of_same (by rw [hlow]; exact s12 a ha)
  have lim2 : ∀ m, b2.maxName = some m → 75 ≤ m := by rw [k12.max]; exact h.limit
  obtain ⟨b3, e3, k3, r3, r3'⟩ := addRange_ok (b := b2) k2.wf lim2
    (by
      rw [con12 low_range (by decide)]
      intro hc
      obtain ⟨s, lo, hi, q1, q2⟩ := h.range hc
      exact ⟨s, lo, hi, (has12 low_range (by decide)).2 q1, q2⟩)
    (by
      rw [con12 low_range (by decide), con12 low_max (by decide), con12 low_min (by decide)]
      exact h.fresh)
  have k13 := k12.trans k3
  have s13 : ∀ x, x ∉ [listAttr, condAttr, maxAttr, minAttr] → dget b3.block x = dget b.block x := fun x hx => k13.same x hx
  have has13 {a : Str} (hlow : lower a = a) (ha : a ∉ [listAttr, condAttr, maxAttr, minAttr]) {v : PyVal} : Has b3 a v ↔ Has b a v :=
    has_of_same (by rw [hlow]; exact s13 a ha)
  have con13 {a : Str} (hlow : lower a = a) (ha : a ∉ [listAttr, condAttr, maxAttr, minAttr]) : b3.contains a = b.contains a :=
    contains_of_same (by rw [hlow]; exact s13 a ha)
  have lim3 : ∀ m, b3.maxName = some m → 75 ≤ m := by rw [k13.max]; exact h.limit
  obtain ⟨b4, f4, e4, k4, t4, t4', c4, ty4⟩ := addType_ok (b := b3) k3.wf k13.over lim3
    (by
      rw [con13 low_construct (by decide)]
      intro hc
      obtain ⟨n, s, t, q1, q2, q3, q4⟩ := h.construct hc
      exact ⟨n, s, t, (has13 low_name (by decide)).2 q1, q2, (has13 low_construct (by decide)).2 q3, (has13 low_type (by decide)).2 q4⟩) f
  have k14 := k13.trans k4
  have s14 : ∀ x, x ∉ [listAttr, condAttr, maxAttr, minAttr, typeAttr] → dget b4.block x = dget b.block x := fun x hx => k14.same x hx
  have has14 {a : Str} (hlow : lower a = a) (ha : a ∉ [listAttr, condAttr, maxAttr, minAttr, typeAttr]) {v : PyVal} : Has b4 a v ↔ Has b a v :=
    has_of_same (by rw [hlow]; exact s14 a ha)
  have con14 {a : Str} (hlow : lower a = a) (ha : a ∉ [listAttr, condAttr, maxAttr, minAttr, typeAttr]) : b4.contains a = b.contains a :=
    contains_of_same (by rw [hlow]; exact s14 a ha)
  have lim4 : ∀ m, b4.maxName = some m → 75 ≤ m := by rw [k14.max]; exact h.limit
  have ov : Overview b4 ↔ Overview b := has14 low_category (by decide)
  obtain ⟨b5, f5, e5, k5, i5, i5', ty5, ca5⟩ := addCatId_ok (b := b4) k4.wf k14.over lim4
    (by
      rw [con14 low_category (by decide)]
      intro hc
      obtain ⟨v, q⟩ := h.category hc
      exact ⟨v, (has14 low_category (by decide)).2 q⟩)
    (by
      intro ho
      obtain ⟨n, i, t, q1, q2⟩ := h.over (ov.1 ho)
      exact ⟨n, i, t, (has14 low_name (by decide)).2 q1, q2⟩) f4
  have k15 := k14.trans k5
  have kin : Kin b { b5 with overwrite := b.overwrite } [listAttr, condAttr, maxAttr, minAttr, typeAttr, catIdAttr] :=
    kin_overwrite (o := true) k15
  refine ⟨{ b5 with overwrite := b.overwrite }, f5, ?_, ⟨kin, ?_, ?_, ?_, ?_, ?_, ?_⟩, ?_, ?_⟩
  · unfold normalise
    simp only [e1, e2, e3, e4, e5]
  · have s : dget b5.block listAttr = dget b1.block listAttr := by
      rw [k5.same _ (by decide), k4.same _ (by decide), k3.same _ (by decide), k2.same _ (by decide)]
    refine ⟨fun hc => s.trans (l1 hc), fun hc => ?_⟩
    exact (has_of_same (b := b1) (by rw [low_list]; exact s)).2 (l1' hc)
  · have s : dget b5.block condAttr = dget b2.block condAttr := by
      rw [k5.same _ (by decide), k4.same _ (by decide), k3.same _ (by decide)]
    have s' : dget b1.block condAttr = dget b.block condAttr := k1.same _ (by decide)
    have c' : b1.contains condAttr = b.contains condAttr := contains_of_same (by rw [low_cond]; exact s')
    refine ⟨fun hc => s.trans ((l2 (by rw [c']; exact hc)).trans s'), fun hc => ?_⟩
    exact (has_of_same (b := b2) (by rw [low_cond]; exact s)).2 (l2' (by rw [c']; exact hc))
  · intro s lo hi q1 q2
    obtain ⟨g1, g2⟩ := r3 s lo hi ((has12 low_range (by decide)).2 q1) q2
    refine ⟨(has_of_same (b := b3) ?_).2 g1, (has_of_same (b := b3) ?_).2 g2⟩
    · rw [low_max]; exact (k5.same _ (by decide)).trans (k4.same _ (by decide))
    · rw [low_min]; exact (k5.same _ (by decide)).trans (k4.same _ (by decide))
  · intro hc
    have e : b3 = b2 := r3' (by rw [con12 low_range (by decide)]; exact hc)
    constructor
    · refine ((k5.same _ (by decide)).trans (k4.same _ (by decide))).trans ?_
      rw [e]; exact s12 _ (by decide)
    · refine ((k5.same _ (by decide)).trans (k4.same _ (by decide))).trans ?_
      rw [e]; exact s12 _ (by decide)
  · constructor
    · intro hc n hn
      refine (has_of_same (b := b4) ?_).2 (t4 (by rw [con13 low_construct (by decide)]; exact hc) n ((has13 low_name (by decide)).2 hn))
      rw [low_type]; exact k5.same _ (by decide)
    · intro hc
      have e : b4 = b3 := t4' (by rw [con13 low_construct (by decide)]; exact hc)
      refine (k5.same _ (by decide)).trans ?_
      rw [e]; exact s13 _ (by decide)
  · constructor
    · intro ho n i t q1 q2 q3
      exact i5 (ov.2 ho) n i t ((has14 low_name (by decide)).2 q1) q2 q3
    · intro ho
      have e : b5 = b4 := i5' (fun h' => ho (ov.1 h'))
      show dget b5.block catIdAttr = _
      rw [e]; exact s14 _ (by decide)
  · intro row
    rw [ty5, ty4]
    refine or_congr .rfl ?_
    unfold NewType
    simp only [has13 low_name (by decide), has13 low_construct (by decide), has13 low_type (by decide)]
  · intro cat
    rw [ca5, c4]
    refine or_congr .rfl ?_
    unfold NewCat
    simp only [has14 low_name (by decide), ov]

end Verif.Ddl1
