import Verif.Lemmas.CifDicOrder
import Verif.Lemmas.ValidateLoop
import Verif.Props.CifDicTree
/-! # C57: the order in which definitions are written -/
set_option linter.unusedSectionVars false
namespace Verif.CifDic
open Validate
variable [CaseFold]

theorem removeEach_eq : ∀ (l rem : List Str), rem.Nodup → l.Nodup → (∀ x ∈ l, x ∈ rem) →
    removeEach rem l = .ok (rem.filter fun a => decide (a ∉ l))
  | [], rem, _, _, _ => by
    have : (rem.filter fun a => decide (a ∉ ([] : List Str))) = rem := List.filter_eq_self.2 (by simp)
    rw [this, removeEach]
  | x :: xs, rem, hr, hl, hm => by
    rw [List.nodup_cons] at hl
    rw [removeEach, if_pos (hm x (by simp)), removeEach_eq xs (rem.erase x) (hr.erase x) hl.2
      (fun y hy => hr.mem_erase_iff.2 ⟨by rintro rfl; exact hl.1 hy, hm y (by simp [hy])⟩)]
    congr 1
    rw [hr.erase_eq_filter, List.filter_filter]
    apply List.filter_congr
    intro y _
    by_cases h1 : y = x <;> by_cases h2 : y ∈ xs <;> simp [h1, h2]

section
variable {d : CifDic}

/-- An unattached category with its children. -/
def group (d : CifDic) (u : List Str) (x : Str) : List Str := x :: u.filter fun a => decide (catOf d a = x)

theorem placeUnrooted_eq {u : List Str} (hR : Readable d) (hk : ∀ x ∈ u, x ∈ d.keys) (hu : u.Nodup)
    (hl : (∃ x ∈ u, isCat d x = true) → ∀ y ∈ u, ∃ c, InCategory d c y)
    (hg : ∀ x ∈ u, isCat d x = true → (group d u x).Nodup)
    (hd : ∀ x ∈ u, ∀ y ∈ u, isCat d x = true → isCat d y = true → x ≠ y → ∀ z ∈ group d u x, z ∉ group d u y) :
    ∀ (xs names rem : List Str), xs.Nodup → (∀ x ∈ xs, x ∈ u) → rem.Nodup →
    (∀ x ∈ xs, isCat d x = true → ∀ z ∈ group d u x, z ∈ rem) →
    placeUnrooted d u xs (names, rem) = .ok (names ++ (xs.filter (isCat d)).flatMap (group d u),
      rem.filter fun a => decide (a ∉ (xs.filter (isCat d)).flatMap (group d u)))
  | [], names, rem, _, _, _, _ => by
    have : (rem.filter fun a => decide (a ∉ (([] : List Str).filter (isCat d)).flatMap (group d u))) = rem := List.filter_eq_self.2 (by simp)
    rw [this, placeUnrooted]
    simp
  | x :: xs, names, rem, hx, hs, hr, hm => by
    rw [List.nodup_cons] at hx
    have hxu := hs x (by simp)
    obtain ⟨b, hb, hp⟩ := hR.found x (hk x hxu)
    rw [placeUnrooted, isScope_cat hb hp]
    cases hc : isCat d x with
    | false =>
      simp only
      rw [placeUnrooted_eq hR hk hu hl hg hd xs names rem hx.2 (fun y hy => hs y (by simp [hy])) hr (fun y hy => hm y (by simp [hy])),
        List.filter_cons, hc]
      simp
    | true =>
      simp only
      have hgx := hg x hxu hc
      have hsel : select (inCatI d x) u = .ok (u.filter fun a => decide (catOf d a = x)) := by
        apply select_ok
        intro a hau
        obtain ⟨c, ba, s, hba, hbs, _⟩ := hl ⟨x, hxu, hc⟩ a hau
        unfold inCatI attrI catOf
        simp only [hba, hbs.2, getD_has hbs, lowered, hR.low x (hk x hxu)]
      have hxr : x ∈ rem := hm x (by simp) hc x (by simp [group])
      have h1 := removeEach_eq [x] rem hr (by simp) (by simpa using hxr)
      have hgn := List.nodup_cons.1 hgx
      have h2 := removeEach_eq (u.filter fun a => decide (catOf d a = x)) (rem.filter fun a => decide (a ∉ [x])) (hr.filter _) hgn.2
        (fun y hy => List.mem_filter.2 ⟨hm x (by simp) hc y (by unfold group; exact List.mem_cons_of_mem _ hy), by
          simp only [List.mem_singleton, decide_eq_true_eq]
          rintro rfl
          exact hgn.1 hy⟩)
      simp only [h1, hsel, h2]
      rw [placeUnrooted_eq hR hk hu hl hg hd xs _ _ hx.2 (fun y hy => hs y (by simp [hy])) ((hr.filter _).filter _)
        (fun y hy hyc z hz => by
          have hne : y ≠ x := by rintro rfl; exact hx.1 hy
          have hz' := hd y (hs y (by simp [hy])) x hxu hyc hc hne z hz
          unfold group at hz'
          rw [List.mem_cons, not_or] at hz'
          refine List.mem_filter.2 ⟨List.mem_filter.2 ⟨hm y (by simp [hy]) hyc z hz, by simp [hz'.1]⟩, ?_⟩
          rw [decide_eq_true_eq]
          exact hz'.2)]
      rw [List.filter_cons, hc, if_pos rfl, List.flatMap_cons]
      congr 2
      · simp [group]
      · rw [List.filter_filter, List.filter_filter]
        apply List.filter_congr
        intro a _
        rw [Bool.eq_iff_iff]
        simp only [Bool.and_eq_true, decide_eq_true_eq, List.mem_append, group, List.mem_cons, List.not_mem_nil, or_false, not_or]
        constructor
        · rintro ⟨⟨h1, h2⟩, h3⟩; exact ⟨⟨h3, h2⟩, h1⟩
        · rintro ⟨⟨h3, h2⟩, h1⟩; exact ⟨⟨h1, h2⟩, h3⟩

theorem takeWhile_append_stop {p : Char → Bool} : ∀ (c : Str) {x : Char} {o : Str}, (∀ a ∈ c, p a = true) → p x = false →
    (c ++ x :: o).takeWhile p = c ∧ (c ++ x :: o).dropWhile p = x :: o
  | [], x, o, _, hx => by simp [hx]
  | a :: c, x, o, h, hx => by
    have ih := takeWhile_append_stop c (x := x) (o := o) (fun b hb => h b (by simp [hb])) hx
    simp [h a (by simp), ih.1, ih.2]

theorem catFromName_ok {x : Str} (h : Dotted x) : ∃ c, catFromName x = .ok c := by
  obtain ⟨c, o, rfl, hc, h1, h2⟩ := h
  have := takeWhile_append_stop (p := fun a => decide (a ≠ '.')) c (x := '.') (o := o)
    (fun a ha => by rw [decide_eq_true_eq]; rintro rfl; exact h1 ha) (by simp)
  cases c with
  | nil => exact absurd rfl hc
  | cons a r =>
    refine ⟨if a = '_' then r else a :: r, ?_⟩
    unfold catFromName
    simp only [this.1, this.2, if_neg h2]

theorem extCat_ok (hR : Readable d) {x : Str} (hk : x ∈ d.keys) (h : Dotted x) : ∃ c, extCat d x = .ok c := by
  obtain ⟨b, hb, hp⟩ := hR.found x hk
  obtain ⟨c, hc⟩ := catFromName_ok h
  unfold extCat
  simp only [hb, hc]
  cases hcon : b.contains catAttr with
  | false => exact ⟨lower c, by simp only [getD_not hcon, lowered]⟩
  | true =>
    obtain ⟨s, hs⟩ := hp.1 hcon
    exact ⟨lower s, by simp only [getD_has (d := .str c) ⟨hcon, hs⟩, lowered]⟩

theorem placeExternal_perm : ∀ (es names rem : List Str), rem.Nodup → (∀ x ∈ rem, ∃ c, extCat d x = .ok c) →
    ∃ q rem', placeExternal d es (names, rem) = .ok (names ++ q, rem') ∧ (q ++ rem').Perm rem
  | [], names, rem, _, _ => ⟨[], rem, by simp [placeExternal], by simp⟩
  | e :: es, names, rem, hr, hx => by
    have hf : ∃ f : Str → Str, ∀ x ∈ rem, extCat d x = .ok (f x) :=
      ⟨fun x => match extCat d x with | .ok c => c | .error _ => [], fun x hm => by
        obtain ⟨c, hc⟩ := hx x hm
        simp only [hc]⟩
    obtain ⟨f, hf⟩ := hf
    have hs : select (extIs d e) rem = .ok (rem.filter fun x => decide (f x = e)) :=
      select_ok fun a ha => by rw [extIs, hf a ha]
    have hrm := removeEach_eq (rem.filter fun x => decide (f x = e)) rem hr (hr.filter _) (fun x hm => (List.mem_filter.1 hm).1)
    obtain ⟨q, rem', h1, h2⟩ := placeExternal_perm es (names ++ rem.filter fun x => decide (f x = e))
      (rem.filter fun a => decide (a ∉ rem.filter fun x => decide (f x = e))) (hr.filter _) (fun x hm => hx x (List.mem_filter.1 hm).1)
    refine ⟨rem.filter (fun x => decide (f x = e)) ++ q, rem', ?_, ?_⟩
    · rw [placeExternal, hs]
      simp only [hrm, h1, List.append_assoc]
    · rw [List.append_assoc]
      refine (List.Perm.append_left _ h2).trans ?_
      have : (rem.filter fun a => decide (a ∉ rem.filter fun x => decide (f x = e))) = rem.filter fun x => !decide (f x = e) := by
        apply List.filter_congr
        intro a ha
        simp [List.mem_filter, ha]
      rw [this]
      exact List.filter_append_perm _ _

end

theorem recurse_eq {d : CifDic} {top root : Str} (hR : Readable d) (ha : Acyclic d) (hF : Filed d top) (hT : Tidy d top root)
    (hr : root ∈ d.keys) :
    ∃ l, recurseChildList d root = .ok (root :: l) ∧ l.Nodup ∧ (∀ x, x ∈ l ↔ Forest.Desc (kidsB d root) (isCat d) root x) ∧
      ∀ p x, p = root ∨ (isCat d p = true ∧ Forest.Desc (kidsB d root) (isCat d) root p) → x ∈ kidsB d root p → Forest.Before (root :: l) p x := by
  apply recurseFuel_eq hR ha hF hT _ root (opens_root hT hr) (.inl rfl) (.inl rfl)
  have := Forest.size_le (kids := kidsB d root) (open_ := isCat d) (K := dkeys d.coll.childTable) root
  unfold dkeys at this
  rw [List.length_map] at this
  unfold dkeys
  omega

/-- C57: the part of the order below the `Head` consists of the `Head` and exactly the blocks of the definitions that reach it,
each once, and categories stand before the definitions in them.
Missing: categories kept in blocks that are not named by their identifiers, which `Tidy` excludes (`C57_lost_fails`). -/
theorem C57_rooted_partial {d : CifDic} {top root : Str} (hR : Readable d) (ha : Acyclic d) (hF : Filed d top) (hT : Tidy d top root)
    (hr : root ∈ d.keys) :
    ∃ l, recurseChildList d root = .ok (root :: l) ∧ l.Nodup ∧ root ∉ l ∧ (∀ x ∈ l, ∃ i, dget d.table i = some x) ∧
      (∀ i k, dget d.table i = some k → (k ∈ l ↔ Below d root i)) ∧
      ∀ p x i, p = root ∨ (IsCategory d p ∧ Below d root p) → dget d.table i = some x → InCategory d p i → Precedes (root :: l) p x := by
  have hB := forestB hR ha hF hT
  obtain ⟨l, h1, h2, h3, h4⟩ := recurse_eq hR ha hF hT hr
  have hro := opens_root hT hr
  have hbel : ∀ i k, dget d.table i = some k → (k ∈ l ↔ Below d root i) := by
    intro i k hg
    rw [h3, descB_iff hR hF hT hro hg, below_iff hR (hR.low root hr) (hR.named root hr)]
  refine ⟨l, h1, h2, fun hh => hB.acyclic root ((h3 root).1 hh), fun x hx => ?_, hbel, ?_⟩
  · have hd := (h3 x).1 hx
    refine hF.ident x (hd.mem hB) ?_
    rcases hd with h | ⟨_, _, h⟩ <;> exact kid_ne_top hR hF hT h
  · intro p x i hp hg hin
    have hi : i ∈ d.keys := dget_isSome.1 ⟨x, hg⟩
    have hop : Opens d root p ∧ (p = root ∨ (isCat d p = true ∧ Forest.Desc (kidsB d root) (isCat d) root p)) := by
      rcases hp with rfl | ⟨hc, hb⟩
      · exact ⟨hro, .inl rfl⟩
      · obtain ⟨b, hbb, hpl⟩ := hR.found p hb.key
        have hcc := (isCategory_iff hbb hpl).1 hc
        obtain ⟨k, hgk⟩ := dget_isSome.2 hb.key
        have := hT.cats p k hgk (.inl hc)
        subst this
        exact ⟨⟨hb.key, hgk, .inl hcc⟩, .inr ⟨hcc, (h3 k).1 ((hbel k k hgk).2 hb)⟩⟩
    refine h4 p x hop.2 ((mem_kidsB hop.1).2 ⟨(hF.blocks i x hg).1, ?_⟩)
    obtain ⟨b, hbb, hpl⟩ := hR.found i hi
    have hpk := hop.1.1
    rw [catOf_same hR hF hT hg, (inCategory_iff hbb hpl (by rw [hR.low p hpk]; exact hR.named p hpk)).1 hin, hR.low p hpk]

/-- C57: every block of the dictionary is in the order of output exactly once, and every category stands before the definitions
in it, in whatever order sets are gone through.
Missing: what `Tidy` and `Loose` exclude, where definitions are lost, names that are no blocks are listed, or exceptions are
raised (`C57_lost_fails`, `C57_name_fails`, `C57_nested_fails`, `C57_point_fails`). -/
theorem C57_order_partial {d : CifDic} {top root : Str} (hR : Readable d) (ha : Acyclic d) (hh : ∀ a, IsHead d a ↔ a = root)
    (hF : Filed d top) (hT : Tidy d top root) (hL : Loose d root) (pick : List Str → List Str) (hpk : ∀ l, (pick l).Perm l) :
    ∃ l, fullChildList d pick = .ok l ∧ l.Perm (dkeys d.coll.childTable) ∧
      ∀ p i x, p ∈ d.keys → IsCategory d p ∨ p = root → dget d.table i = some x → InCategory d p i → Precedes l p x := by
  have hr : root ∈ d.keys := ((hh root).2 rfl).1
  obtain ⟨lB, h1, h2, h3, h4, h5, h6⟩ := C57_rooted_partial hR ha hF hT hr
  obtain ⟨dang, g1, g2, g3⟩ := C56_danglers hR ha hh
  have hgd : ∀ x, x ∈ dang ↔ Dangling d root x := g3
  generalize hu : pick dang = u
  have hup : u.Perm dang := by rw [← hu]; exact hpk dang
  have hun : u.Nodup := hup.nodup_iff.2 g2
  have hum : ∀ x, x ∈ u ↔ Dangling d root x := fun x => by rw [hup.mem_iff, hgd]
  have huk : ∀ x ∈ u, x ∈ d.keys := fun x hx => ((hum x).1 hx).1
  have hcat : ∀ x ∈ u, (isCat d x = true ↔ IsCategory d x) := fun x hx => by
    obtain ⟨b, hb, hp⟩ := hR.found x (huk x hx)
    exact (isCategory_iff hb hp).symm
  have hin : ∀ x ∈ u, ∀ y ∈ u, (catOf d y = x ↔ InCategory d x y) := fun x hx y hy => by
    obtain ⟨b, hb, hp⟩ := hR.found y (huk y hy)
    rw [inCategory_iff hb hp (by rw [hR.low x (huk x hx)]; exact hR.named x (huk x hx)), hR.low x (huk x hx)]
  have hroot : dget d.table root = some root := (opens_root hT hr).2.1
  -- no unattached name among the names so far
  have hno : ∀ n ∈ u, n ∉ top :: root :: lB := by
    intro n hn hm
    have hd := (hum n).1 hn
    have hg := hL.named n hd
    rcases List.mem_cons.1 hm with rfl | hm
    · exact (hF.blocks n n hg).2 rfl
    · rcases List.mem_cons.1 hm with rfl | hm
      · exact hd.2.1 rfl
      · exact hd.2.2 ((h5 n n hg).1 hm)
  have hany : (u.any fun n => decide (n ∈ top :: root :: lB)) = false := by
    rw [List.any_eq_false]
    intro n hn
    rw [decide_eq_true_eq]
    exact hno n hn
  -- groups
  have hgn : ∀ x ∈ u, isCat d x = true → (group d u x).Nodup := by
    intro x hx hc
    unfold group
    rw [List.nodup_cons]
    refine ⟨fun hm => ?_, hun.filter _⟩
    have := (List.mem_filter.1 hm).2
    rw [decide_eq_true_eq, hin x hx x hx] at this
    have hc' := (hcat x hx).1 hc
    exact hL.nested x x ((hum x).1 hx) ((hum x).1 hx) hc' hc' this
  have hgd' : ∀ x ∈ u, ∀ y ∈ u, isCat d x = true → isCat d y = true → x ≠ y → ∀ z ∈ group d u x, z ∉ group d u y := by
    intro x hx y hy hcx hcy hne z hz hz'
    unfold group at hz hz'
    rw [List.mem_cons] at hz hz'
    have hX := (hcat x hx).1 hcx
    have hY := (hcat y hy).1 hcy
    have hf : ∀ w, z ∈ u.filter (fun a => decide (catOf d a = w)) → z ∈ u ∧ catOf d z = w := fun w h => by
      have := List.mem_filter.1 h
      exact ⟨this.1, by simpa using this.2⟩
    rcases hz with rfl | hz
    · rcases hz' with rfl | hz'
      · exact hne rfl
      · exact hL.nested y z ((hum y).1 hy) ((hum z).1 hx) hY hX ((hin y hy z hx).1 (hf y hz').2)
    · rcases hz' with rfl | hz'
      · exact hL.nested x z ((hum x).1 hx) ((hum z).1 hy) hX hY ((hin x hx z hy).1 (hf x hz).2)
      · exact hne ((hf x hz).2.symm.trans (hf y hz').2)
  have hgsub : ∀ x ∈ u, ∀ z ∈ group d u x, z ∈ u := by
    intro x hx z hz
    unfold group at hz
    rcases List.mem_cons.1 hz with rfl | hz
    · exact hx
    · exact (List.mem_filter.1 hz).1
  have hpl := placeUnrooted_eq hR huk hun (fun ⟨x, hx, hc⟩ y hy => hL.linked ⟨x, (hum x).1 hx, (hcat x hx).1 hc⟩ y ((hum y).1 hy)) hgn hgd' u
    (top :: root :: lB) u hun (fun x hx => hx) hun (fun x hx _ z hz => hgsub x hx z hz)
  generalize hP : (u.filter (isCat d)).flatMap (group d u) = P at hpl
  have hPn : P.Nodup := by
    rw [← hP]
    exact Forest.nodup_flatMap (hun.filter _) (fun x hx => hgn x (List.mem_filter.1 hx).1 (List.mem_filter.1 hx).2)
      (fun x hx y hy hne => hgd' x (List.mem_filter.1 hx).1 y (List.mem_filter.1 hy).1 (List.mem_filter.1 hx).2 (List.mem_filter.1 hy).2 hne)
  have hPu : ∀ z ∈ P, z ∈ u := by
    intro z hz
    rw [← hP] at hz
    obtain ⟨x, hx, hz⟩ := List.mem_flatMap.1 hz
    exact hgsub x (List.mem_filter.1 hx).1 z hz
  generalize hrem : (u.filter fun a => decide (a ∉ P)) = rem at hpl
  have hremn : rem.Nodup := by rw [← hrem]; exact hun.filter _
  have hPrem : (P ++ rem).Perm u := by
    rw [List.perm_ext_iff_of_nodup (List.nodup_append.2 ⟨hPn, hremn, fun a ha b hb e => by
      subst e
      rw [← hrem] at hb
      have := (List.mem_filter.1 hb).2
      rw [decide_eq_true_eq] at this
      exact this ha⟩) hun]
    intro z
    rw [List.mem_append, ← hrem, List.mem_filter, decide_eq_true_eq]
    constructor
    · rintro (h | h)
      · exact hPu z h
      · exact h.1
    · intro h
      by_cases hz : z ∈ P
      · exact .inl hz
      · exact .inr ⟨h, hz⟩
  have hext : ∀ x ∈ rem, ∃ c, extCat d x = .ok c := by
    intro x hx
    rw [← hrem, List.mem_filter, decide_eq_true_eq] at hx
    refine extCat_ok hR (huk x hx.1) (hL.dotted x ((hum x).1 hx.1) ?_ ?_)
    · intro hc
      apply hx.2
      rw [← hP]
      exact List.mem_flatMap.2 ⟨x, List.mem_filter.2 ⟨hx.1, (hcat x hx.1).2 hc⟩, by simp [group]⟩
    · rintro ⟨y, hy, hyc, hyx⟩
      have hyu := (hum y).2 hy
      apply hx.2
      rw [← hP]
      refine List.mem_flatMap.2 ⟨y, List.mem_filter.2 ⟨hyu, (hcat y hyu).2 hyc⟩, ?_⟩
      unfold group
      exact List.mem_cons_of_mem _ (List.mem_filter.2 ⟨hx.1, by rw [decide_eq_true_eq]; exact (hin y hyu x hx.1).2 hyx⟩)
  obtain ⟨cats, hcats, _⟩ := mapE_exists hext
  obtain ⟨q, rem', he, hq⟩ := placeExternal_perm (d := d) (pick cats.eraseDups) ((top :: root :: lB) ++ P) rem hremn hext
  have hfull : fullChildList d pick = .ok ((top :: root :: lB) ++ P ++ q ++ rem') := by
    unfold fullChildList
    rw [hF.top_only]
    simp only [root_eq hR hh, h1, g1, hu, hany, hpl, hcats, he]
    rfl
  refine ⟨_, hfull, ?_, ?_⟩
  · have hperm : ((top :: root :: lB) ++ P ++ q ++ rem').Perm ((top :: root :: lB) ++ u) := by
      rw [List.append_assoc, List.append_assoc]
      exact List.Perm.append_left _ ((List.Perm.append_left _ hq).trans hPrem)
    refine hperm.trans ?_
    have hlt : top ∉ root :: lB := by
      intro hm
      rcases List.mem_cons.1 hm with e | hm
      · exact (hF.blocks root root hroot).2 e.symm
      · obtain ⟨i, hg⟩ := h4 top hm
        exact (hF.blocks i top hg).2 rfl
    rw [List.perm_ext_iff_of_nodup (List.nodup_append.2 ⟨by
      rw [List.nodup_cons, List.nodup_cons]
      exact ⟨hlt, h3, h2⟩, hun, fun a hA b hb e => by
        subst e
        exact hno a hb hA⟩) hF.cons.nd_table]
    intro x
    rw [List.mem_append]
    constructor
    · rintro (h | h)
      · rcases List.mem_cons.1 h with rfl | h
        · exact top_mem hF
        · rcases List.mem_cons.1 h with rfl | h
          · exact (hF.blocks _ _ hroot).1
          · obtain ⟨i, hg⟩ := h4 x h
            exact (hF.blocks _ _ hg).1
      · exact (hF.blocks _ _ (hL.named x ((hum x).1 h))).1
    · intro hx
      by_cases e : x = top
      · exact .inl (by rw [e]; simp)
      · obtain ⟨i, hg⟩ := hF.ident x hx e
        have hi : i ∈ d.keys := dget_isSome.1 ⟨x, hg⟩
        by_cases hir : i = root
        · subst hir
          rw [hroot] at hg
          injection hg with hg
          exact .inl (by rw [← hg]; simp)
        · by_cases hb : Below d root i
          · exact .inl (List.mem_cons_of_mem _ (List.mem_cons_of_mem _ ((h5 i x hg).2 hb)))
          · have hd : Dangling d root i := ⟨hi, hir, hb⟩
            have := hL.named i hd
            rw [hg] at this
            injection this with this
            subst this
            exact .inr ((hum x).2 hd)
  · intro p i x hp hor hg hin'
    have hi : i ∈ d.keys := dget_isSome.1 ⟨x, hg⟩
    by_cases hpr : p = root ∨ Below d root p
    · have hb : Precedes (root :: lB) p x := by
        refine h6 p x i ?_ hg hin'
        rcases hpr with e | hb
        · exact .inl e
        · rcases hor with hc | e
          · exact .inr ⟨hc, hb⟩
          · exact .inl e
      obtain ⟨a, b, e, hx⟩ := hb
      exact ⟨top :: a, b ++ (P ++ (q ++ rem')), by simp [e], List.mem_append_left _ hx⟩
    · rw [not_or] at hpr
      have hpc : IsCategory d p := hor.resolve_right hpr.1
      have hpd : Dangling d root p := ⟨hp, hpr.1, hpr.2⟩
      have hpu := (hum p).2 hpd
      by_cases hir : i = root ∨ Below d root i
      · exfalso
        have hlow : ∀ c ∈ d.keys, InCategory d c i → c = p := by
          intro c hc hci
          obtain ⟨b, hb, hpl'⟩ := hR.found i hi
          have e1 := (inCategory_iff hb hpl' (by rw [hR.low c hc]; exact hR.named c hc)).1 hci
          have e2 := (inCategory_iff hb hpl' (by rw [hR.low p hp]; exact hR.named p hp)).1 hin'
          rw [hR.low c hc] at e1
          rw [hR.low p hp] at e2
          exact e1.symm.trans e2
        rcases hir with rfl | hb
        · exact hL.head p hpd hin'
        · cases hb with
          | child _ h => exact hpr.1 (hlow root hr h).symm
          | @deeper y _ hy _ _ h =>
            have := hlow y hy.key h
            subst this
            exact hpr.2 hy
      · rw [not_or] at hir
        have hid : Dangling d root i := ⟨hi, hir.1, hir.2⟩
        have hiu := (hum i).2 hid
        have hgi := hL.named i hid
        rw [hg] at hgi
        injection hgi with hgi
        subst hgi
        have : x ∈ u.filter (fun a => decide (catOf d a = p)) :=
          List.mem_filter.2 ⟨hiu, by rw [decide_eq_true_eq]; exact (hin p hpu x hiu).2 hin'⟩
        have hB : Forest.Before P p x := by
          rw [← hP]
          exact Forest.Before.flatMap (T := group d u) (List.mem_filter.2 ⟨hpu, (hcat p hpu).2 hpc⟩) ⟨[], _, rfl, this⟩
        have := ((hB.append_left (top :: root :: lB)).append_right q).append_right rem'
        exact this

/-! ## Samples -/

theorem filed_of_check {d : CifDic} {top : Str} (hc : d.coll.Consistent) (ht : d.coll.topLevel = [top])
    (h1 : (d.table.all fun a => decide (a.2 ∈ dkeys d.coll.childTable) && decide (a.2 ≠ top)) = true)
    (h2 : ((dkeys d.coll.childTable).all fun k => decide (k = top) || decide (k ∈ d.table.map (·.2))) = true)
    (h3 : (d.table.map (·.2)).Nodup) (h4 : (dkeys d.table).Nodup) : Filed d top := by
  rw [List.all_eq_true] at h1 h2
  refine ⟨hc, ht, fun i k hg => ?_, fun k hk hne => ?_, fun i i' k hg hg' => ?_⟩
  · have := h1 (i, k) (dget_mem hg)
    simpa using this
  · have := h2 k hk
    simp only [Bool.or_eq_true, decide_eq_true_eq, hne, false_or, List.mem_map] at this
    obtain ⟨⟨i, k'⟩, hm, rfl⟩ := this
    exact ⟨i, dget_of_mem h4 hm⟩
  · have := (nodup_map_iff (f := fun a : Str × Str => a.2) (l := d.table) (by
      have := h4
      unfold dkeys at this
      exact List.Pairwise.of_map _ (fun a b h e => h (by rw [e])) this)).1 h3 (i, k) (dget_mem hg) (i', k) (dget_mem hg') rfl
    exact congrArg Prod.fst this

theorem tidy_of_check {d : CifDic} {top root : Str} (hR : Readable d)
    (h1 : ((dkeys d.coll.childTable).all fun k => match dget d.table k with | none => true | some k' => decide (k' = k)) = true)
    (h2 : (d.table.all fun a => (!isCat d a.1 && decide (a.1 ≠ root)) || decide (a.2 = a.1)) = true)
    (h3 : ∃ b, d.coll.getItem top = .ok b ∧ b.contains catAttr = false ∧ b.contains scopeAttr = false ∧ b.contains classAttr = false)
    (h4 : (d.keys.all fun i => decide (i = root) || isCat d i || match d.getItem i with
      | .error _ => false
      | .ok b => !b.contains scopeAttr || decide (b.getItem scopeAttr = .ok (.str "Item".toList))) = true) : Tidy d top root := by
  rw [List.all_eq_true] at h1 h2 h4
  refine ⟨fun k hk k' hg => ?_, fun i k hg hor => ?_, ?_, fun i hi hne => ?_⟩
  · have := h1 k hk
    rw [hg] at this
    simpa using this
  · have := h2 (i, k) (dget_mem hg)
    have hi : i ∈ d.keys := dget_isSome.1 ⟨k, hg⟩
    obtain ⟨b, hb, hp⟩ := hR.found i hi
    simp only [Bool.or_eq_true, Bool.and_eq_true, Bool.not_eq_true', decide_eq_true_eq] at this
    rcases this with ⟨h, hne⟩ | h
    · rcases hor with hc | e
      · rw [(isCategory_iff hb hp).1 hc] at h; cases h
      · exact absurd e hne
    · exact h
  · obtain ⟨b, hb, e1, e2, e3⟩ := h3
    refine ⟨b, hb, ⟨?_, ?_, ?_⟩, e1⟩ <;> intro h
    · rw [e1] at h; cases h
    · rw [e2] at h; cases h
    · rw [e3] at h; cases h
  · have := h4 i hi
    obtain ⟨b, hb, hp⟩ := hR.found i hi
    rw [hb] at this
    simp only [Bool.or_eq_true, Bool.not_eq_true', decide_eq_true_eq, hne, false_or] at this
    rcases this with h | h
    · exact .inl ((isCategory_iff hb hp).2 h)
    · refine .inr ⟨b, hb, ?_⟩
      rcases h with h | h
      · exact .inl h
      · cases hc : b.contains scopeAttr with
        | false => exact .inl rfl
        | true => exact .inr ⟨hc, h⟩

end Verif.CifDic

namespace Verif.CifDic

/-- Frames with definitions that do not reach the head: an item in an unknown category, and a category with an item. -/
def looseFrames : List (String × List (String × String)) :=
  cellFrames ++
  [("_x.y", [("_definition.id", "_x.y"), ("_name.category_id", "x")]),
   ("_ext.a", [("_definition.id", "_ext.a"), ("_name.category_id", "ext")]),
   ("EXT", [("_definition.id", "EXT"), ("_definition.scope", "Category"), ("_name.category_id", "OTHER")])]

/-- The dictionary of `looseFrames`. -/
def looseDic : CifDic := framesDic looseFrames

theorem looseColl_reachable : letI := asciiFold
    (frames looseFrames).Reachable := by
  letI := asciiFold
  unfold frames looseFrames cellFrames
  simp only [List.cons_append, List.nil_append, List.map_cons, List.map_nil, Coll.run]
  refine .step _ (.step _ (.step _ (.step _ (.step _ (.step _ (.step _ (.step _ (.step _ (.start _ _ _) ?_) ?_) ?_) ?_) ?_) ?_) ?_) ?_) ?_ <;>
    refine ⟨?_, fun h => ?_⟩
  all_goals first
    | (exact absurd h (by decide +kernel))
    | (intro q hq; cases hq; done)
    | (intro q hq; injection hq with hq; subst hq; decide +kernel)

theorem looseDic_readable : letI := asciiFold; Readable looseDic := by
  letI := asciiFold
  exact readable_of_check (by decide +kernel)

theorem looseDic_acyclic : letI := asciiFold; Acyclic looseDic := by
  letI := asciiFold
  exact acyclic_of_rank looseDic_readable
    (fun a => if a = "head".toList then 1 else if a = "cell".toList then 2 else if a = "ext".toList then 2 else if a ∈ looseDic.keys then 3 else 0)
    (by decide +kernel)

theorem looseDic_head : letI := asciiFold; ∀ a, IsHead looseDic a ↔ a = "head".toList := by
  letI := asciiFold
  intro a
  rw [← mem_heads looseDic_readable]
  have : looseDic.keys.filter (headIs looseDic) = ["head".toList] := by decide +kernel
  rw [this, List.mem_singleton]

theorem looseDic_filed : letI := asciiFold; Filed looseDic "demo".toList := by
  letI := asciiFold
  exact filed_of_check (Coll.reachable_consistent looseColl_reachable) (by decide +kernel) (by decide +kernel) (by decide +kernel)
    (by decide +kernel) (by decide +kernel)

theorem looseDic_tidy : letI := asciiFold; Tidy looseDic "demo".toList "head".toList := by
  letI := asciiFold
  exact tidy_of_check looseDic_readable (by decide +kernel) (by decide +kernel)
    ⟨itemsBlock [("_dictionary.title", "DEMO")], by decide +kernel, by decide +kernel, by decide +kernel, by decide +kernel⟩ (by decide +kernel)

theorem looseDic_loose : letI := asciiFold; Loose looseDic "head".toList := by
  letI := asciiFold
  have hR := looseDic_readable
  obtain ⟨l, h1, _, h3⟩ := C56_danglers hR looseDic_acyclic looseDic_head
  have hl : l = ["_x.y".toList, "_ext.a".toList, "ext".toList] := by
    have : danglers looseDic = .ok ["_x.y".toList, "_ext.a".toList, "ext".toList] := by decide +kernel
    rw [this] at h1
    injection h1 with h1
    exact h1.symm
  subst hl
  have hd : ∀ x, Dangling looseDic "head".toList x ↔ x ∈ ["_x.y".toList, "_ext.a".toList, "ext".toList] := fun x => (h3 x).symm
  have hcat : ∀ x, x ∈ ["_x.y".toList, "_ext.a".toList, "ext".toList] → (IsCategory looseDic x ↔ isCat looseDic x = true) := fun x hx => by
    obtain ⟨b, hb, hp⟩ := hR.found x ((hd x).2 hx).1
    exact isCategory_iff hb hp
  have hin : ∀ x y, x ∈ ["_x.y".toList, "_ext.a".toList, "ext".toList] → y ∈ looseDic.keys →
      (InCategory looseDic x y ↔ catOf looseDic y = x) := fun x y hx hy => by
    obtain ⟨b, hb, hp⟩ := hR.found y hy
    have hk := ((hd x).2 hx).1
    rw [inCategory_iff hb hp (by rw [hR.low x hk]; exact hR.named x hk), hR.low x hk]
  refine ⟨fun p hp h => ?_, fun i hi => ?_, fun x y hx hy hcx hcy h => ?_, fun _ y hy => ?_, fun y hy hc hno => ?_⟩
  · rw [hin p _ ((hd p).1 hp) (by decide +kernel)] at h
    have hp' := (hd p).1 hp
    revert h
    revert hp'
    generalize p = p
    have : ∀ p ∈ ["_x.y".toList, "_ext.a".toList, "ext".toList], ¬ catOf looseDic "head".toList = p := by decide +kernel
    exact fun hp' h => this p hp' h
  · have : ∀ i ∈ ["_x.y".toList, "_ext.a".toList, "ext".toList], dget looseDic.table i = some i := by decide +kernel
    exact this i ((hd i).1 hi)
  · rw [hin x y ((hd x).1 hx) hy.1] at h
    rw [hcat x ((hd x).1 hx)] at hcx
    rw [hcat y ((hd y).1 hy)] at hcy
    have : ∀ x ∈ ["_x.y".toList, "_ext.a".toList, "ext".toList], ∀ y ∈ ["_x.y".toList, "_ext.a".toList, "ext".toList],
        isCat looseDic x = true → isCat looseDic y = true → ¬ catOf looseDic y = x := by decide +kernel
    exact this x ((hd x).1 hx) y ((hd y).1 hy) hcx hcy h
  · obtain ⟨b, hb, hp⟩ := hR.found y hy.1
    have : ∀ y ∈ ["_x.y".toList, "_ext.a".toList, "ext".toList], lower (catOf looseDic y) ≠ [] ∧ lower (catOf looseDic y) = catOf looseDic y := by
      decide +kernel
    obtain ⟨e1, e2⟩ := this y ((hd y).1 hy)
    exact ⟨catOf looseDic y, (inCategory_iff hb hp e1).2 e2.symm⟩
  · rw [hcat y ((hd y).1 hy)] at hc
    have hy' := (hd y).1 hy
    rcases List.mem_cons.1 hy' with rfl | hy'
    · exact ⟨"_x".toList, "y".toList, by decide +kernel, by decide +kernel, by decide +kernel, by decide +kernel⟩
    · rcases List.mem_cons.1 hy' with rfl | hy'
      · exact ⟨"_ext".toList, "a".toList, by decide +kernel, by decide +kernel, by decide +kernel, by decide +kernel⟩
      · rw [List.mem_singleton] at hy'
        subst hy'
        exact absurd (by decide +kernel) hc

/-- All hypotheses of C57 are met by a dictionary with unattached definitions. -/
example : letI := asciiFold
    Readable looseDic ∧ Acyclic looseDic ∧ (∀ a, IsHead looseDic a ↔ a = "head".toList) ∧ Filed looseDic "demo".toList ∧
    Tidy looseDic "demo".toList "head".toList ∧ Loose looseDic "head".toList ∧
    fullChildList looseDic List.reverse = .ok ["demo".toList, "head".toList, "cell".toList, "cell.length_a".toList, "cell.length_b".toList,
      "angle".toList, "ext".toList, "_ext.a".toList, "_x.y".toList] :=
  letI := asciiFold
  ⟨looseDic_readable, looseDic_acyclic, looseDic_head, looseDic_filed, looseDic_tidy, looseDic_loose, by decide +kernel⟩

/-- C57 fails for a category kept in a block that is not named by its identifier: the definitions in it are left out, and so
are not written. -/
theorem C57_lost_fails : letI := asciiFold
    fullChildList (framesDic [("HEAD", [("_definition.id", "HEAD"), ("_definition.scope", "Category"), ("_definition.class", "Head"), ("_name.category_id", "D")]),
      ("the_cell", [("_definition.id", "CELL"), ("_definition.scope", "Category"), ("_name.category_id", "HEAD")]),
      ("_cell.a", [("_definition.id", "_cell.a"), ("_name.category_id", "cell")])]) id =
    .ok ["demo".toList, "head".toList, "the_cell".toList] := by
  decide +kernel

/-- C57 fails for an unattached item kept in a block that is not named by its identifier: the order contains a name that is
no block. -/
theorem C57_name_fails : letI := asciiFold
    let d := framesDic [("HEAD", [("_definition.id", "HEAD"), ("_definition.scope", "Category"), ("_definition.class", "Head"), ("_name.category_id", "D")]),
      ("x.y", [("_definition.id", "_x.y"), ("_name.category_id", "x")])]
    fullChildList d id = .ok ["demo".toList, "head".toList, "_x.y".toList] ∧ "_x.y".toList ∉ dkeys d.coll.childTable := by
  decide +kernel

/-- C57 fails for an unattached category inside another one: the dictionary cannot be written. -/
theorem C57_nested_fails : letI := asciiFold
    fullChildList (framesDic [("HEAD", [("_definition.id", "HEAD"), ("_definition.scope", "Category"), ("_definition.class", "Head"), ("_name.category_id", "D")]),
      ("EXT", [("_definition.id", "EXT"), ("_definition.scope", "Category"), ("_name.category_id", "OTHER")]),
      ("SUB", [("_definition.id", "SUB"), ("_definition.scope", "Category"), ("_name.category_id", "EXT")])]) id = .error .value := by
  decide +kernel

/-- C57 fails for an unattached item whose name has no point. -/
theorem C57_point_fails : letI := asciiFold
    fullChildList (framesDic [("HEAD", [("_definition.id", "HEAD"), ("_definition.scope", "Category"), ("_definition.class", "Head"), ("_name.category_id", "D")]),
      ("_cell_length", [("_definition.id", "_cell_length"), ("_name.category_id", "x")])]) id = .error .value := by
  decide +kernel

end Verif.CifDic
