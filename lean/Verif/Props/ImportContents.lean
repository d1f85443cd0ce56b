import Verif.Props.FullImport
import Verif.Props.Import
/-! # C55: heavy imports of attributes into a dictionary -/
set_option linter.unusedSectionVars false
namespace Verif.CifDic
open Validate Ddl1 Import

section
variable [CaseFold]

/-- A reference that asks for the attributes of a definition: it names a file that can be read and a definition in it, and its mode is `Contents`, written anyhow, or left out. -/
def AsksFor (load : Str → Except PyErr CifDic) (r : Dict Str PyVal) (target : Block) : Prop :=
  ∃ f k imp, dget r "file".toList = some (.str f) ∧ load f = .ok imp ∧ dget r "save".toList = some (.str k) ∧ imp.getItem k = .ok target ∧
    (dget r "mode".toList = none ∨ ∃ m, dget r "mode".toList = some (.str m) ∧ lower m = "contents".toList)

theorem heavyRef_contents {load : Str → Except PyErr CifDic} {d : CifDic} {parent : Str} {own target : Block} {r : Dict Str PyVal} (hd : Kept d) (hp : parent ∈ d.keys)
    (ho : d.getItem parent = .ok own) (hr : AsksFor load r target) :
    (heavyRef load parent d (.sdict r)).2 = (heavyContents own target).2 ∧
    ((heavyContents own target).2 = .ok () → Like d (heavyRef load parent d (.sdict r)).1 ∧
      ∀ i, look (heavyRef load parent d (.sdict r)).1 i = if i = parent then some (heavyContents own target).1 else look d i) := by
  obtain ⟨f, k, imp, hf, hl, hk, ht, hm⟩ := hr
  have e : ∀ n dflt, fieldD (.sdict r) n dflt = .ok ((dget r n.toList).elim (.str dflt.toList) id) := by
    intro n dflt
    unfold fieldD
    simp only
    cases dget r n.toList <;> rfl
  have hmo : modeOf (.sdict r) = .ok contentsMode := by
    unfold modeOf
    rw [e]
    rcases hm with hm | ⟨m, hm, hc⟩
    · simp only [hm, Option.elim_none, lowered]
      rw [show lower "Contents".toList = contentsMode from CaseFold.lower_ascii _ (by decide)]
    · simp only [hm, Option.elim_some, id, lowered, hc]
      rfl
  have hne : decide (contentsMode = fullMode) = false := by decide
  have hrun : heavyRef load parent d (.sdict r) = ddlmImport d parent imp target k contentsMode := by
    simp only [heavyRef, CifDic.read, field, hf, openImport, hl, e, hk, importTarget, ht, hmo, duplicate, hne, Bool.and_false, Bool.false_eq_true, if_false]
  have hcf := contains_of_mem hd hp
  have hlp := hd.low parent hp
  rw [hrun]
  unfold ddlmImport importContents heavyContents
  rw [if_pos rfl, ho]
  simp only
  cases hmg : own.merge target .strict with
  | mk b1 res =>
    obtain ⟨l1, v1⟩ := hd.putBlock hcf b1
    cases res with
    | error x => exact ⟨rfl, fun h => nomatch h⟩
    | ok u =>
      have hk1 := l1.kept hd
      have hl1 : look (CifDic.putBlock d parent b1) parent = some b1 := by rw [v1, hlp, if_pos rfl]
      have hg1 := getItem_of_look hk1 hl1
      obtain ⟨l2, v2⟩ := hk1.putBlock (key := parent) (by rw [l1.contains]; exact hcf) (b1.removeItem importAttr).1
      simp only [seq, delAttr, hg1]
      refine ⟨trivial, fun _ => ⟨l1.trans l2, fun i => ?_⟩⟩
      rw [v2, v1, hlp]
      split <;> rfl

/-- C55: a heavy import of attributes, when it succeeds, gives the importing definition those of the other one beside its own and takes the request away. The list of definitions and all
other definitions stay as they are. -/
theorem C55_heavy_dictionary {load : Str → Except PyErr CifDic} {d d' : CifDic} {parent : Str} {own target : Block} {r : Dict Str PyVal} (hd : Kept d) (hp : parent ∈ d.keys)
    (ho : d.getItem parent = .ok own) (hr : AsksFor load r target) (hro : Block.Reachable own) (hrt : Block.Reachable target) (hrect : target.Rect)
    (h : heavyRef load parent d (.sdict r) = (d', .ok ())) :
    d'.keys = d.keys ∧ (∀ x ∈ d.keys, x ≠ parent → d'.getItem x = d.getItem x) ∧
    ∃ b', d'.getItem parent = .ok b' ∧ ∀ name, name ≠ Block.saves →
      b'.lookup name = if lower name = lower importAttr then none else if own.contains name then own.lookup name else target.lookup name := by
  obtain ⟨h1, h2⟩ := heavyRef_contents hd hp ho hr
  rw [h] at h1 h2
  obtain ⟨h3, h4⟩ := h2 h1.symm
  have hk' := h3.kept hd
  refine ⟨h3.keys, fun x hx hne => ?_, (heavyContents own target).1, getItem_of_look hk' (by rw [h4, if_pos rfl]), fun name hn => ?_⟩
  · obtain ⟨b, hb⟩ := hd.look_some.2 hx
    rw [getItem_of_look hd hb, getItem_of_look hk' (by rw [h4, if_neg hne]; exact hb)]
  · exact C55_heavy hro hrt hrect (Prod.ext rfl h1.symm) hn

/-- C55: it does not succeed if the two definitions have an attribute in common. -/
theorem C55_heavy_refused {load : Str → Except PyErr CifDic} {d : CifDic} {parent name : Str} {own target : Block} {r : Dict Str PyVal} (hd : Kept d) (hp : parent ∈ d.keys)
    (ho : d.getItem parent = .ok own) (hr : AsksFor load r target) (hrt : Block.Reachable target) (h1 : own.contains name = true) (h2 : target.contains name = true) :
    (heavyRef load parent d (.sdict r)).2 ≠ .ok () := by
  rw [(heavyRef_contents hd hp ho hr).1]
  exact C55_heavy_clash hrt h1 h2

theorem contains_of_lookup {b : Block} {name : Str} {v : PyVal} (hn : name ≠ Block.saves) (h : b.lookup name = some v) : b.contains name = true := by
  rw [Block.lookup_val _ _ hn] at h
  cases hc : b.contains name with
  | true => rfl
  | false =>
    unfold Block.val at h
    rw [dget_eq_none.2 (fun hm => by
      have := Block.contains_iff.2 hm
      rw [this] at hc
      cases hc)] at h
    cases h

/-- C55: all references of a definition are followed: if they all ask for attributes and there is no error, then the definition keeps its own attributes, gets those of every definition
that is referred to, and loses the request. The list of definitions and all other definitions stay as they are. -/
theorem C55_heavy_all {load : Str → Except PyErr CifDic} {parent : Str} : ∀ (l : List (Dict Str PyVal × Block)) {d d' : CifDic} {own : Block}, Kept d → parent ∈ d.keys →
    d.getItem parent = .ok own → Block.Reachable own → (∀ p ∈ l, AsksFor load p.1 p.2 ∧ Block.Reachable p.2 ∧ p.2.Rect) →
    heavyRefs load parent d (l.map fun p => .sdict p.1) = (d', .ok ()) →
    d'.keys = d.keys ∧ (∀ x ∈ d.keys, x ≠ parent → d'.getItem x = d.getItem x) ∧
    ∃ b', d'.getItem parent = .ok b' ∧ ∀ name, name ≠ Block.saves →
      (lower name = lower importAttr → l ≠ [] → b'.lookup name = none) ∧
      (lower name ≠ lower importAttr → ∀ v, (own.lookup name = some v → b'.lookup name = some v) ∧ ∀ p ∈ l, p.2.lookup name = some v → b'.lookup name = some v)
  | [], d, d', own, _, _, ho, _, _, h => by
    simp only [List.map_nil, heavyRefs, Prod.mk.injEq, and_true] at h
    subst h
    exact ⟨rfl, fun _ _ _ => rfl, own, ho, fun name _ => ⟨fun _ h => absurd rfl h, fun _ v => ⟨id, fun p hp => nomatch hp⟩⟩⟩
  | (r, t) :: l, d, d', own, hd, hp, ho, hro, hl, h => by
    obtain ⟨ha, hrt, hrect⟩ := hl _ List.mem_cons_self
    simp only [List.map_cons, heavyRefs] at h
    cases hx : heavyRef load parent d (.sdict r) with
    | mk d1 res =>
      rw [hx] at h
      cases res with
      | error e => simp [seq] at h
      | ok u =>
        simp only [seq] at h
        obtain ⟨h1, h2⟩ := heavyRef_contents hd hp ho ha
        rw [hx] at h1 h2
        obtain ⟨h3, h4⟩ := h2 h1.symm
        have hk1 := h3.kept hd
        have hc : heavyContents own t = ((heavyContents own t).1, .ok ()) := Prod.ext rfl h1.symm
        have hg1 : d1.getItem parent = .ok (heavyContents own t).1 := getItem_of_look hk1 (by rw [h4, if_pos rfl])
        have hr1 : Block.Reachable (heavyContents own t).1 := by
          have hm := Block.Reachable.merge own t .strict [] hro hrt
          unfold heavyContents
          split
          · rename_i e
            rw [e] at hm
            exact hm
          · rename_i e
            rw [e] at hm
            exact .step _ (.remove importAttr) hm trivial
        obtain ⟨i1, i2, b', i3, i4⟩ := C55_heavy_all l hk1 (by rw [h3.keys]; exact hp) hg1 hr1 (fun p hp => hl p (List.mem_cons_of_mem _ hp)) h
        refine ⟨i1.trans h3.keys, fun x hx hne => ?_, b', i3, fun name hn => ?_⟩
        · rw [i2 x (by rw [h3.keys]; exact hx) hne]
          obtain ⟨b, hb⟩ := hd.look_some.2 hx
          rw [getItem_of_look hd hb, getItem_of_look hk1 (by rw [h4, if_neg hne]; exact hb)]
        · have hv := C55_heavy hro hrt hrect hc hn
          obtain ⟨j1, j2⟩ := i4 name hn
          refine ⟨fun he _ => ?_, fun hne v => ⟨fun ho' => ?_, fun p hp hv' => ?_⟩⟩
          · rw [if_pos he] at hv
            cases l with
            | nil =>
              simp only [List.map_nil, heavyRefs, Prod.mk.injEq, and_true] at h
              subst h
              rw [hg1] at i3
              injection i3 with i3
              rw [← i3]
              exact hv
            | cons => exact j1 he (by simp)
          · refine (j2 hne v).1 ?_
            rw [hv, if_neg hne, if_pos (contains_of_lookup hn ho')]
            exact ho'
          · rcases List.mem_cons.mp hp with rfl | hp
            · refine (j2 hne v).1 ?_
              have hno : ¬ own.contains name = true := fun hc' => C55_heavy_clash hrt hc' (contains_of_lookup hn hv') h1.symm
              rw [hv, if_neg hne, if_neg hno]
              exact hv'
            · exact (j2 hne v).2 p hp hv'

/-- The definition has its own attributes and those of all the others, and no request if there were any others. -/
def Gathers (own : Block) (l : List (Dict Str PyVal × Block)) (b' : Block) : Prop :=
  ∀ name, name ≠ Block.saves →
    (lower name = lower importAttr → l ≠ [] → b'.lookup name = none) ∧
    (lower name ≠ lower importAttr → ∀ v, (own.lookup name = some v → b'.lookup name = some v) ∧ ∀ p ∈ l, p.2.lookup name = some v → b'.lookup name = some v)

theorem heavyRefs_kept {load : Str → Except PyErr CifDic} {parent : Str} : ∀ (l : List (Dict Str PyVal × Block)) {d d' : CifDic}, Kept d → parent ∈ d.keys →
    (∀ p ∈ l, AsksFor load p.1 p.2) → heavyRefs load parent d (l.map fun p => .sdict p.1) = (d', .ok ()) → Kept d'
  | [], d, d', hd, _, _, h => by
    simp only [List.map_nil, heavyRefs, Prod.mk.injEq, and_true] at h
    exact h ▸ hd
  | (r, t) :: l, d, d', hd, hp, hl, h => by
    simp only [List.map_cons, heavyRefs] at h
    cases hx : heavyRef load parent d (.sdict r) with
    | mk d1 res =>
      rw [hx] at h
      cases res with
      | error e => simp [seq] at h
      | ok u =>
        simp only [seq] at h
        obtain ⟨b, hb⟩ := hd.look_some.2 hp
        obtain ⟨h1, h2⟩ := heavyRef_contents hd hp (getItem_of_look hd hb) (hl _ List.mem_cons_self)
        rw [hx] at h1 h2
        obtain ⟨h3, _⟩ := h2 h1.symm
        exact heavyRefs_kept l (h3.kept hd) (by rw [h3.keys]; exact hp) (fun p hp => hl p (List.mem_cons_of_mem _ hp)) h

theorem heavyFrames_contents {load : Str → Except PyErr CifDic} (L : Str → List (Dict Str PyVal × Block)) : ∀ (names : List Str) {d d' : CifDic}, Kept d → names.Nodup →
    (∀ i ∈ names, i ∈ d.keys ∧ (∀ b, d.getItem i = .ok b → b.Reachable) ∧ ∀ p ∈ L i, AsksFor load p.1 p.2 ∧ Block.Reachable p.2 ∧ p.2.Rect) →
    heavyFrames load d (names.map fun i => (i, (L i).map fun p => .sdict p.1)) = (d', .ok ()) →
    d'.keys = d.keys ∧ ∀ i ∈ d.keys, ∃ b b', d.getItem i = .ok b ∧ d'.getItem i = .ok b' ∧ (i ∉ names → b' = b) ∧ (i ∈ names → Gathers b (L i) b')
  | [], d, d', hd, _, _, h => by
    simp only [List.map_nil, heavyFrames, Prod.mk.injEq, and_true] at h
    subst h
    refine ⟨rfl, fun i hi => ?_⟩
    obtain ⟨b, hb⟩ := hd.look_some.2 hi
    exact ⟨b, b, getItem_of_look hd hb, getItem_of_look hd hb, fun _ => rfl, fun h => nomatch h⟩
  | n :: names, d, d', hd, hnd, hn, h => by
    simp only [List.map_cons, heavyFrames] at h
    obtain ⟨hnk, hnr, hnl⟩ := hn n List.mem_cons_self
    cases hx : heavyRefs load n d ((L n).map fun p => .sdict p.1) with
    | mk d1 res =>
      rw [hx] at h
      cases res with
      | error e => simp [seq] at h
      | ok u =>
        simp only [seq] at h
        obtain ⟨own, ho⟩ := hd.look_some.2 hnk
        have hg := getItem_of_look hd ho
        obtain ⟨a1, a2, b1, a3, a4⟩ := C55_heavy_all (L n) hd hnk hg (hnr own hg) hnl hx
        have hd1 := heavyRefs_kept (L n) hd hnk (fun p hp => (hnl p hp).1) hx
        obtain ⟨hnn, hnd'⟩ := List.nodup_cons.mp hnd
        obtain ⟨c1, c2⟩ := heavyFrames_contents L names hd1 hnd' (fun i hi => by
          obtain ⟨g1, g2, g3⟩ := hn i (List.mem_cons_of_mem _ hi)
          refine ⟨by rw [a1]; exact g1, fun b hb => ?_, g3⟩
          rw [a2 i g1 (fun e => hnn (e ▸ hi))] at hb
          exact g2 b hb) h
        refine ⟨c1.trans a1, fun i hi => ?_⟩
        obtain ⟨b, b', e1, e2, e3, e4⟩ := c2 i (by rw [a1]; exact hi)
        by_cases he : i = n
        · subst he
          rw [a3] at e1
          injection e1 with e1
          subst e1
          have e5 := e3 hnn
          subst e5
          exact ⟨own, b', hg, e2, fun h => absurd List.mem_cons_self h, fun _ => a4⟩
        · rw [a2 i hi he] at e1
          refine ⟨b, b', e1, e2, fun h => e3 fun h' => h (List.mem_cons_of_mem _ h'), fun h => ?_⟩
          rcases List.mem_cons.mp h with h | h
          · exact absurd h he
          · exact e4 h

/-- C55: heavy imports of attributes in a whole dictionary: if all references of all definitions ask for attributes and there is no error, then afterwards every definition that imports
has its own attributes and those of all definitions it refers to, and no request any more. Definitions that do not import, and the list of definitions, are as before. -/
theorem C55_heavy_whole {load : Str → Except PyErr CifDic} {d d' : CifDic} (L : Str → List (Dict Str PyVal × Block)) (hd : Kept d)
    (hr : ∀ i ∈ d.keys, ∀ b, d.getItem i = .ok b → b.Reachable)
    (hL : ∀ i ∈ d.keys, ∀ b, d.getItem i = .ok b → b.contains importAttr = true →
      b.getItem importAttr = .ok (.slist ((L i).map fun p => .sdict p.1)) ∧ ∀ p ∈ L i, AsksFor load p.1 p.2 ∧ Block.Reachable p.2 ∧ p.2.Rect)
    (h : obtainHeavy load d = (d', .ok ())) :
    d'.keys = d.keys ∧ ∀ i ∈ d.keys, ∃ b b', d.getItem i = .ok b ∧ d'.getItem i = .ok b' ∧
      (b.contains importAttr = false → b' = b) ∧ (b.contains importAttr = true → Gathers b (L i) b') := by
  have hg : ∀ i ∈ d.keys, ∃ b, d.getItem i = .ok b := fun i hi => by
    obtain ⟨b, hb⟩ := hd.look_some.2 hi
    exact ⟨b, getItem_of_look hd hb⟩
  let asks : Str → Bool := fun i => match d.getItem i with | .ok b => b.contains importAttr | .error _ => false
  have hasks : ∀ i b, d.getItem i = .ok b → asks i = b.contains importAttr := fun i b hb => by simp only [asks, hb]
  have hf : importFrames d = .ok ((d.keys.filter asks).map fun i => (i, (L i).map fun p => .sdict p.1)) := by
    unfold importFrames
    rw [select_ok (p := asks) (fun a ha => by
      obtain ⟨b, hb⟩ := hg a ha
      simp only [hb, hasks a b hb])]
    refine mapE_ok (fun a ha => ?_)
    obtain ⟨ha1, ha2⟩ := List.mem_filter.mp ha
    obtain ⟨b, hb⟩ := hg a ha1
    rw [hasks a b hb] at ha2
    simp only [attrI, hb, (hL a ha1 b hb ha2).1, Block.pyIter]
  unfold obtainHeavy CifDic.read at h
  rw [hf] at h
  obtain ⟨c1, c2⟩ := heavyFrames_contents L _ hd (hd.nodup.filter _) (fun i hi => by
    obtain ⟨hi1, hi2⟩ := List.mem_filter.mp hi
    obtain ⟨b, hb⟩ := hg i hi1
    rw [hasks i b hb] at hi2
    exact ⟨hi1, hr i hi1, (hL i hi1 b hb hi2).2⟩) h
  refine ⟨c1, fun i hi => ?_⟩
  obtain ⟨b, b', e1, e2, e3, e4⟩ := c2 i hi
  refine ⟨b, b', e1, e2, fun hc => e3 fun hm => ?_, fun hc => e4 (List.mem_filter.mpr ⟨hi, by rw [hasks i b e1]; exact hc⟩)⟩
  have := (List.mem_filter.mp hm).2
  rw [hasks i b e1, hc] at this
  cases this

end

section Samples
attribute [local instance] asciiFold

/-- The attributes of a template. -/
def templItems : List (String × String) := [("_units.code", "angstroms"), ("_type.contents", "Real")]

/-- A file with templates. -/
def templDic : CifDic := nestedDic [("templ", "Demo", templItems)]

/-- A reference to a template. -/
def templRef : Dict Str PyVal := [("file".toList, .str "templ.cif".toList), ("save".toList, .str "templ".toList), ("mode".toList, .str "CONTENTS".toList)]

/-- The attributes of another template. -/
def moreItems : List (String × String) := [("_description.text", "length")]

/-- A second file. -/
def moreDic : CifDic := nestedDic [("more", "Demo", moreItems)]

/-- A reference to it, without a mode. -/
def moreRef : Dict Str PyVal := [("file".toList, .str "more.cif".toList), ("save".toList, .str "more".toList)]

end Samples

theorem templ_asked : letI := asciiFold
    AsksFor (fun _ => .ok templDic) templRef (itemsBlock templItems) := by
  letI := asciiFold
  exact ⟨"templ.cif".toList, "templ".toList, templDic, rfl, rfl, rfl, by decide +kernel, .inr ⟨"CONTENTS".toList, rfl, by decide +kernel⟩⟩

/-- The hypotheses are met: the definition gets the attributes of the template. -/
example : letI := asciiFold
    ∃ d' b', heavyRef (fun _ => .ok templDic) "_cell.a".toList hostDic (.sdict templRef) = (d', .ok ()) ∧ d'.keys = hostDic.keys ∧
      d'.getItem "host".toList = hostDic.getItem "host".toList ∧ d'.getItem "_cell.a".toList = .ok b' ∧
      b'.lookup "_units.code".toList = some (.str "angstroms".toList) ∧ b'.lookup "_name.object_id".toList = some (.str "a".toList) := by
  letI := asciiFold
  have h : (heavyRef (fun _ => .ok templDic) "_cell.a".toList hostDic (.sdict templRef)).2 = .ok () := by decide +kernel
  obtain ⟨h1, h2, b', h3, h4⟩ := C55_heavy_dictionary (parent := "_cell.a".toList) (own := blockOf hostDic "_cell.a") hostDic_filled.sound.toKept (by decide +kernel)
    (by decide +kernel) templ_asked
    (by
      obtain ⟨b, g1, g2, _⟩ := hostDic_filled.blocks "_cell.a".toList (by decide +kernel)
      have : hostDic.getItem "_cell.a".toList = .ok (blockOf hostDic "_cell.a") := by decide +kernel
      rw [this] at g1
      injection g1 with g1
      rw [g1]
      exact g2)
    (itemsBlock_reachable _ (by decide +kernel))
    (by
      have : (itemsBlock templItems).loops = [] := by decide +kernel
      intro n l hl
      rw [this] at hl
      cases hl)
    (Prod.ext rfl h)
  refine ⟨_, b', Prod.ext rfl h, h1, h2 _ (by decide +kernel) (by decide), h3, ?_, ?_⟩
  · rw [h4 _ (by decide)]
    decide +kernel
  · rw [h4 _ (by decide)]
    decide +kernel

/-- The hypotheses are met with two references. -/
example : letI := asciiFold
    ∃ d' b', heavyRefs (fun f => .ok (if f = "more.cif".toList then moreDic else templDic)) "_cell.a".toList hostDic [.sdict templRef, .sdict moreRef] = (d', .ok ()) ∧
      d'.getItem "_cell.a".toList = .ok b' ∧ b'.lookup "_units.code".toList = some (.str "angstroms".toList) ∧
      b'.lookup "_description.text".toList = some (.str "length".toList) := by
  letI := asciiFold
  have h : (heavyRefs (fun f => .ok (if f = "more.cif".toList then moreDic else templDic)) "_cell.a".toList hostDic [.sdict templRef, .sdict moreRef]).2 = .ok () := by decide +kernel
  have hrect : ∀ b : Block, b.loops = [] → b.Rect := fun b hb n l hl => by
    rw [hb] at hl
    cases hl
  obtain ⟨_, _, b', h3, h4⟩ := C55_heavy_all (load := fun f => .ok (if f = "more.cif".toList then moreDic else templDic)) (parent := "_cell.a".toList)
    [(templRef, itemsBlock templItems), (moreRef, itemsBlock moreItems)] (own := blockOf hostDic "_cell.a") hostDic_filled.sound.toKept (by decide +kernel) (by decide +kernel)
    (by
      obtain ⟨b, g1, g2, _⟩ := hostDic_filled.blocks "_cell.a".toList (by decide +kernel)
      have : hostDic.getItem "_cell.a".toList = .ok (blockOf hostDic "_cell.a") := by decide +kernel
      rw [this] at g1
      injection g1 with g1
      rw [g1]
      exact g2)
    (by
      intro p hp
      simp only [List.mem_cons, List.not_mem_nil, or_false] at hp
      rcases hp with rfl | rfl
      · exact ⟨⟨"templ.cif".toList, "templ".toList, templDic, rfl, rfl, rfl, by decide +kernel, .inr ⟨"CONTENTS".toList, rfl, by decide +kernel⟩⟩,
          itemsBlock_reachable _ (by decide +kernel), hrect _ (by decide +kernel)⟩
      · exact ⟨⟨"more.cif".toList, "more".toList, moreDic, rfl, rfl, rfl, by decide +kernel, .inl rfl⟩,
          itemsBlock_reachable _ (by decide +kernel), hrect _ (by decide +kernel)⟩)
    (Prod.ext rfl h)
  refine ⟨_, b', Prod.ext rfl h, h3, ?_, ?_⟩
  · exact ((h4 _ (by decide)).2 (by decide +kernel) _).2 (templRef, itemsBlock templItems) (by simp) (by decide +kernel)
  · exact ((h4 _ (by decide)).2 (by decide +kernel) _).2 (moreRef, itemsBlock moreItems) (by simp) (by decide +kernel)

section Samples
attribute [local instance] asciiFold

/-- Definitions without imports. -/
def askFrames : List (String × String × List (String × String)) :=
  [("HOST", "Demo", defn "HOST" "DEMO" "HOST" "Head" "Category"),
   ("CELL", "Demo", defn "CELL" "HOST" "CELL" "Set" "Category"),
   ("cell.a", "Demo", defn "_cell.a" "CELL" "a" "Datum" "Item")]

/-- A dictionary with them. -/
def askBase : CifDic := nestedDic askFrames

/-- The dictionary with a request in one definition. -/
def askDic : CifDic := (setAttr askBase "_cell.a".toList importAttr (.slist [.sdict templRef])).1

end Samples

theorem askBase_kept : letI := asciiFold
    Kept askBase := by
  letI := asciiFold
  refine (sound_of_check (Coll.reachable_consistent ?_) (by decide +kernel)).toKept
  unfold askBase nestedDic nestedColl askFrames
  simp only [List.map_cons, List.map_nil, Coll.run]
  refine .step _ (.step _ (.step _ (.step _ (.start _ _ _) ?_) ?_) ?_) ?_ <;>
    refine ⟨?_, fun h => ?_⟩
  all_goals first
    | (exact absurd h (by decide +kernel))
    | (intro q hq; cases hq; done)
    | (intro q hq; injection hq with hq; subst hq; decide +kernel)

/-- The hypotheses are met by a dictionary with a request. -/
example : letI := asciiFold
    ∃ d', obtainHeavy (fun _ => .ok templDic) askDic = (d', .ok ()) ∧ d'.keys = askDic.keys ∧ d'.getItem "cell".toList = askDic.getItem "cell".toList ∧
      ∃ b', d'.getItem "_cell.a".toList = .ok b' ∧ b'.lookup "_units.code".toList = some (.str "angstroms".toList) ∧ b'.lookup importAttr = none := by
  letI := asciiFold
  have h : (obtainHeavy (fun _ => .ok templDic) askDic).2 = .ok () := by decide +kernel
  have hset : setAttr askBase "_cell.a".toList importAttr (.slist [.sdict templRef]) = (askDic, .ok ()) := Prod.ext rfl (by decide +kernel)
  obtain ⟨hlike, _⟩ := askBase_kept.setAttr (by decide +kernel) hset
  have hblk : ∀ i ∈ askDic.keys, ∀ b, askDic.getItem i = .ok b → b.Reachable := by
    have hall : ∀ i ∈ askDic.keys, ∃ a ∈ askFrames, askDic.getItem i = .ok (itemsBlock a.2.2) ∨
        askDic.getItem i = .ok ((itemsBlock a.2.2).addItem importAttr (.slist [.sdict templRef])).1 := by decide +kernel
    have hsav : ∀ a ∈ askFrames, ∀ e ∈ a.2.2, lower e.1.toList ≠ Block.saves := by decide +kernel
    have himp : lower importAttr ≠ Block.saves := by decide +kernel
    intro i hi b hb
    obtain ⟨a, ha, h1 | h1⟩ := hall i hi
    all_goals
      rw [hb] at h1
      injection h1 with h1
      subst h1
    · exact itemsBlock_reachable _ (hsav a ha)
    · exact .step _ (.add importAttr (.slist [.sdict templRef]) false) (itemsBlock_reachable _ (hsav a ha)) himp
  obtain ⟨h1, h2⟩ := C55_heavy_whole (fun i => if i = "_cell.a".toList then [(templRef, itemsBlock templItems)] else []) (hlike.kept askBase_kept) hblk
    (by
      intro i hi b hb hc
      have hone : ∀ i ∈ askDic.keys, (match askDic.getItem i with | .ok b => b.contains importAttr | .error _ => false) = true → i = "_cell.a".toList := by decide +kernel
      have hi1 := hone i hi (by simp only [hb, hc])
      subst hi1
      refine ⟨?_, ?_⟩
      · have : (match askDic.getItem "_cell.a".toList with | .ok b => b.getItem importAttr | .error e => .error e) = .ok (.slist [.sdict templRef]) := by decide +kernel
        rw [hb] at this
        exact this
      · intro p hp
        simp only [if_true, List.mem_singleton] at hp
        subst hp
        refine ⟨templ_asked, itemsBlock_reachable _ (by decide +kernel), fun n l hl => ?_⟩
        have : (itemsBlock templItems).loops = [] := by decide +kernel
        rw [this] at hl
        cases hl)
    (Prod.ext rfl h)
  refine ⟨(obtainHeavy (fun _ => .ok templDic) askDic).1, Prod.ext rfl h, h1, ?_, ?_⟩
  · obtain ⟨b, b', e1, e2, e3, _⟩ := h2 "cell".toList (by decide +kernel)
    have : (match askDic.getItem "cell".toList with | .ok b => b.contains importAttr | .error _ => false) = false := by decide +kernel
    rw [e1] at this
    rw [e1, e2, e3 this]
  · obtain ⟨b, b', e1, e2, _, e4⟩ := h2 "_cell.a".toList (by decide +kernel)
    have : (match askDic.getItem "_cell.a".toList with | .ok b => b.contains importAttr | .error _ => false) = true := by decide +kernel
    rw [e1] at this
    have hg := e4 this
    exact ⟨b', e2, ((hg _ (by decide)).2 (by decide +kernel) _).2 (templRef, itemsBlock templItems) (by simp) (by decide +kernel), (hg _ (by decide)).1 rfl (by simp)⟩

/-- The case of an attribute in common occurs: the reference cannot be followed twice. -/
example : letI := asciiFold
    (itemsBlock templItems).contains "_units.code".toList = true ∧
    (heavyRef (fun _ => .ok templDic) "_cell.a".toList (heavyRef (fun _ => .ok templDic) "_cell.a".toList hostDic (.sdict templRef)).1 (.sdict templRef)).2 = .error .star := by
  decide +kernel

end Verif.CifDic
