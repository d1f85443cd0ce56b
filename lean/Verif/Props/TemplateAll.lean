import Verif.Lemmas.TemplateAll
import Verif.Props.TemplateHeader
import Verif.Props.Template
import Verif.Props.Order
/-! # C118: whole templates -/
namespace Verif
namespace Template
open Print

section samples
/-- A template with an item between two loops. -/
def wholeText : Str := "data_t\n  loop_\n   _a\n   _b\n   1    2\n_c     'x'\n      loop_\n  _d\n    5\n".toList
/-- The block of the template. -/
def wholeBlock : Block := letI := asciiFold
  ({} : Block).run [.add "_a".toList (.list [.str "1".toList]) false, .add "_b".toList (.list [.str "2".toList]) false, .createLoop ["_a".toList, "_b".toList] (-1) true,
    .add "_c".toList (.str "x".toList) false, .add "_d".toList (.list [.str "5".toList]) false, .createLoop ["_d".toList] (-1) true]
end samples

/-- **C118** The hints from a template are for the names of the block of the template, in its order, with one for `loop` before the names of each loop. -/
theorem C118_names (t : Block) (text : Str) (hs : List Hint) (h : processTemplate t text = some (.ok hs)) : hs.map (·.dataname) = Block.hintNames t := by
  rw [hintNames_eq]
  exact allHints_names _ _ _ _ h

section Laws
variable [CaseFold]

/-- **C118** Any block can be ordered by any template that has been read: everything is written once, and no loop loses a column. -/
theorem C118_order (b t : Block) (text : Str) (hs : List Hint) (hr : Block.Reachable b) (ht : Block.Reachable t) (h : processTemplate t text = some (.ok hs)) :
    ∃ b' out, b.createOrdering (hs.map (·.dataname)) [] [] = .ok (b', out) ∧ out.Perm b.order ∧ ({ b' with order := out } : Block).printed.Perm b.keys ∧
      ∀ n l, dget b.loops n = some l → ∃ l', dget b'.loops n = some l' ∧ l'.Perm l := by
  rw [C118_names t text hs h]
  exact Block.C25_template b t hr ht

/-- **C118** The first hint for an item of the template is the one that is made from its line (C116). -/
theorem C118_item (t : Block) (text item : Str) (hs : List Hint) (ht : Block.Reachable t) (hp : Plain item) (hi : Ref.name item ∈ t.order) (h : processTemplate t text = some (.ok hs)) :
    ∃ hs1 x hs2, hs = hs1 ++ x :: hs2 ∧ itemHint item text = some (.ok x) ∧ ∀ y ∈ hs1, lower y.dataname ≠ lower item := by
  obtain ⟨a, c, ho⟩ := List.append_of_mem hi
  unfold processTemplate at h
  rw [ho] at h
  obtain ⟨ha, hr, hc, e1, e2, e3, rfl⟩ := allHints_split _ _ a _ c hs h
  have hne := before_ne (Block.reachable_wf ht).1 ho hp.1
  rw [hintsOf] at e2
  split at e2
  · cases e2
  · cases e2
  · rename_i x hx
    simp only [Option.some.injEq, Except.ok.injEq] at e2
    subst e2
    refine ⟨ha, x, hc, rfl, hx, fun y hy => ?_⟩
    refine hne y.dataname ?_
    rw [← allHints_names _ _ _ _ e1]
    exact List.mem_map.mpr ⟨y, hy, rfl⟩

/-- **C118** The hints for a loop of the template stand together, and are those of `C117_template_partial`. -/
theorem C118_loop (t : Block) (text : Str) (n : Nat) (names : List Str) (hs : List Hint) (ht : Block.Reachable t) (hn : dget t.loops n = some names)
    (h : processTemplate t text = some (.ok hs)) : ∃ hs1 hl hs2, hs = hs1 ++ (hl ++ hs2) ∧ templateLoop names text = some (.ok hl) := by
  have hi : Ref.loop n ∈ t.order := ((Block.reachable_wf ht).1.orderLoop n).mpr (dget_isSome.mp ⟨names, hn⟩)
  obtain ⟨a, c, ho⟩ := List.append_of_mem hi
  unfold processTemplate at h
  rw [ho] at h
  obtain ⟨ha, hr, hc, e1, e2, e3, rfl⟩ := allHints_split _ _ a _ c hs h
  rw [hintsOf, hn] at e2
  exact ⟨ha, hr, hc, rfl, e2⟩

/-- Two hints for the same name are the same. -/
theorem hints_unique {t : Block} {text : Str} {hs : List Hint} (ht : Block.Reachable t) (h : processTemplate t text = some (.ok hs)) :
    (∀ x ∈ hs, lower x.dataname = x.dataname) ∧ ∀ x ∈ hs, ∀ y ∈ hs, x.dataname ≠ Block.loopMark → x.dataname = y.dataname → x = y := by
  obtain ⟨h1, h2⟩ := Block.template_names ht
  rw [← C118_names t text hs h] at h1 h2
  unfold Block.requestedOrder at h1 h2
  refine ⟨fun x hx => ?_, fun x hx y hy hne he => ?_⟩
  · by_cases hl : x.dataname = Block.loopMark
    · rw [hl]; exact lower_loopMark
    · exact h2 _ (List.mem_filter.mpr ⟨List.mem_map.mpr ⟨x, hx, rfl⟩, by simpa using hl⟩)
  · have key : ∀ l : List Hint, ((l.map (·.dataname)).filter fun h => decide (h ≠ Block.loopMark)).Nodup → x ∈ l → y ∈ l → x = y := by
      intro l
      induction l with
      | nil => intro _ hx _; cases hx
      | cons z l ih =>
        intro hn hx hy
        rw [List.map_cons, List.filter_cons] at hn
        by_cases hz : z.dataname = Block.loopMark
        · rw [if_neg (by simpa using hz)] at hn
          have hx' : x ∈ l := (List.mem_cons.mp hx).resolve_left fun e => hne (by rw [e, hz])
          have hy' : y ∈ l := (List.mem_cons.mp hy).resolve_left fun e => hne (by rw [he, e, hz])
          exact ih hn hx' hy'
        · rw [if_pos (by simpa using hz), List.nodup_cons] at hn
          have hin : ∀ w ∈ l, w.dataname ≠ Block.loopMark → w.dataname ≠ z.dataname := by
            intro w hw hwl e
            refine hn.1 (List.mem_filter.mpr ⟨List.mem_map.mpr ⟨w, hw, e⟩, by simpa using hz⟩)
          rcases List.mem_cons.mp hx with e1 | hx1
          · rcases List.mem_cons.mp hy with e2 | hy1
            · rw [e1, e2]
            · exact absurd (by rw [← he, e1]) (hin y hy1 (by rw [← he]; exact hne))
          · rcases List.mem_cons.mp hy with e2 | hy1
            · exact absurd (by rw [he, e2]) (hin x hx1 hne)
            · exact ih hn.2 hx1 hy1
    exact key hs h1 hx hy

/-- **C118** Every hint is the one that is used for its name, for items as well as in loops. -/
theorem C118_hint (t : Block) (text : Str) (hs : List Hint) (ht : Block.Reachable t) (h : processTemplate t text = some (.ok hs)) (x : Hint) (hx : x ∈ hs)
    (hl : x.dataname ≠ Block.loopMark) : (hs.find? fun y => decide (lower y.dataname = lower x.dataname)) = some x ∧ loopHint hs x.dataname = some x := by
  obtain ⟨hlow, huniq⟩ := hints_unique ht h
  have key : ∀ (l : List Hint) (p : Hint → Bool), x ∈ l → p x = true → (∀ y ∈ l, p y = true → x = y) → l.find? p = some x := by
    intro l p hxl hp hall
    cases hf : l.find? p with
    | none => exact absurd hp (by simpa using List.find?_eq_none.mp hf x hxl)
    | some y => rw [hall y (List.mem_of_find?_eq_some hf) (List.find?_some hf)]
  refine ⟨key hs _ hx (by simp) fun y hy hp => huniq x hx y hy hl ?_, ?_⟩
  · have := of_decide_eq_true hp
    rw [hlow y hy, hlow x hx] at this
    exact this.symm
  · unfold loopHint
    refine key _ _ (by simpa using hx) (by simp) fun y hy hp => huniq x hx y (by simpa using hy) hl ?_
    exact (of_decide_eq_true hp).symm

/-- **C118** A row of a loop is written with every value at the column, and with the delimiter, that the template has for its name, whatever else is in the template, for all columns
that leave room. -/
theorem C118_row (t : Block) (text : Str) (hs : List Hint) (ht : Block.Reachable t) (h : processTemplate t text = some (.ok hs)) (st : Style) (l : List Placed) (s : Sink)
    (hok : ∀ x ∈ l, ∃ y ∈ hs, y.dataname = x.name ∧ x.name ≠ Block.loopMark ∧ y.column = x.column ∧
      ((∃ v, x.value = .str v ∧ formatString st v y.delimiter = .ok x.word) ∨ x.value = .num x.word) ∧ '\n' ∉ x.word ∧ ∃ c, x.word.getLast? = some c ∧ c ≠ ' ' ∧ c ≠ '\n' ∧ c ≠ '\t')
    (hr : Room s.width s.pos (l.map fun x => (x.column, x.word))) :
    ∃ s', formatRow st hs s (l.map (·.name)) (l.map (·.value)) = .ok s' ∧ s'.out = s.out ++ rowAt s.pos (l.map fun x => (x.column, x.word)) := by
  refine C117_row st hs l s (fun x hx => ?_) hr
  obtain ⟨y, hy, h1, h2, h3, h4, h5, h6⟩ := hok x hx
  have := (C118_hint t text hs ht h y hy (by rw [h1]; exact h2)).2
  rw [h1] at this
  exact ⟨y, this, h3, h4, h5, h6⟩

/-- **C118** An item is written as it stands in the template, whatever else is in the template. Missing: what is missing from `C116_columns_partial`. -/
theorem C118_columns_partial (st : Style) (hs : List Hint) (tb b : Block) (s : Sink) (item name t pre indent nm gap val : Str) (v : PyVal) (ht : Block.Reachable tb)
    (hmem : Ref.name item ∈ tb.order) (hs' : processTemplate tb (pre ++ (indent ++ (nm ++ (gap ++ val)))) = some (.ok hs))
    (hp : Plain item) (hnl : '\n' ∉ item) (hl : LineStart pre) (hi : Blank indent) (hsame : Same item nm) (hg : Blank gap) (hg2 : 2 ≤ gap.length)
    (hv : ∃ c r, val = c :: r ∧ isSpace c = false ∧ c ≠ ';')
    (he : ∀ a b, pre = a ++ b → b ≠ [] → LineStart a → ¬Begins item (b ++ (indent ++ (nm ++ (gap ++ val)))))
    (hb : b.getItem item = .ok v) (hc : dget b.trueCase item = some name)
    (hwd : (∃ x, v = .str x ∧ formatString st x (delimiterOf val) = .ok t) ∨ v = .num t) (hw : ∀ c ∈ name, isSpace c = false) (hlen : name.length = nm.length) (h0 : s.indent = 0)
    (hroom : indent.length + name.length + 1 + t.length ≤ s.width) :
    ∃ s', printItem st hs b s item = .ok s' ∧
      s'.out = s.out ++ '\n' :: (List.replicate indent.length ' ' ++ name ++ List.replicate gap.length ' ' ++ t) := by
  obtain ⟨hs1, x, hs2, rfl, hx, hne⟩ := C118_item tb _ item hs ht hp hmem hs'
  obtain ⟨h, s', h1, h2, h3⟩ := C116_columns_partial st hs1 hs2 b s item item name t pre indent nm gap val v hp hnl hl hi hsame hg hg2 hv he hne rfl hb hc hwd hw hlen h0 hroom
  rw [hx] at h1
  simp only [Option.some.injEq, Except.ok.injEq] at h1
  subst h1
  exact ⟨s', h2, h3⟩

end Laws

/-- **C118** If an item of the block of the template begins no line of the text, with a value after it, the template cannot be used. -/
theorem C118_missing (t : Block) (text item : Str) (hp : Plain item) (hi : Ref.name item ∈ t.order) (he : ∀ a b, text = a ++ b → LineStart a → ¬Begins item b) :
    ∀ hs, processTemplate t text ≠ some (.ok hs) := by
  intro hs h
  obtain ⟨a, c, ho⟩ := List.append_of_mem hi
  unfold processTemplate at h
  rw [ho] at h
  obtain ⟨ha, hr, hc, e1, e2, e3, rfl⟩ := allHints_split _ _ a _ c hs h
  rw [hintsOf, C116_missing item text hp he] at e2
  cases e2

/-- The block of the template arises by calls. -/
theorem wholeBlock_reachable : letI := asciiFold; Block.Reachable wholeBlock := by
  letI := asciiFold
  have h0 : Block.Reachable ({} : Block) := .fresh _ ⟨rfl, rfl, rfl, rfl⟩
  have h1 := Block.Reachable.step _ (.add "_a".toList (.list [.str "1".toList]) false) h0 (by show _ ≠ _; decide +kernel)
  have h2 := Block.Reachable.step _ (.add "_b".toList (.list [.str "2".toList]) false) h1 (by show _ ≠ _; decide +kernel)
  have h3 := Block.Reachable.step _ (.createLoop ["_a".toList, "_b".toList] (-1) true) h2 ⟨by decide +kernel, .inl rfl⟩
  have h4 := Block.Reachable.step _ (.add "_c".toList (.str "x".toList) false) h3 (by show _ ≠ _; decide +kernel)
  have h5 := Block.Reachable.step _ (.add "_d".toList (.list [.str "5".toList]) false) h4 (by show _ ≠ _; decide +kernel)
  exact Block.Reachable.step _ (.createLoop ["_d".toList] (-1) true) h5 ⟨by decide +kernel, .inl rfl⟩

/-- The hypotheses are met: the template can be used. -/
example : letI := asciiFold
    Ref.name "_c".toList ∈ wholeBlock.order ∧ dget wholeBlock.loops 1 = some ["_a".toList, "_b".toList] ∧
    Block.hintNames wholeBlock = ["loop".toList, "_a".toList, "_b".toList, "_c".toList, "loop".toList, "_d".toList] ∧
    (processTemplate wholeBlock wholeText).map (·.toOption.map (·.map fun h => (h.dataname, h.column, h.namePos))) =
      some (some [("loop".toList, -1, some 2), ("_a".toList, 4, some 3), ("_b".toList, 9, some 3), ("_c".toList, 7, some 0), ("loop".toList, -1, some 6), ("_d".toList, 5, some 2)]) := by
  decide +kernel

/-- The hypotheses of `C118_row` are met by the same template: columns 4 and 9 leave room for the words. -/
example : letI := asciiFold
    Room ({} : Sink).width ({} : Sink).pos [(4, "u".toList), (9, "v".toList)] ∧
    (processTemplate wholeBlock wholeText).map (fun r => r.toOption.map fun hs =>
      (formatRow .v20 hs {} ["_a".toList, "_b".toList] [.str "u".toList, .str "v".toList]).toOption.map (·.out)) = some (some (some (rowAt 0 [(4, "u".toList), (9, "v".toList)]))) := by
  refine ⟨by simp [Room], by decide +kernel⟩

/-- **C118** (fails) `loop_` stands in the same column in all loops, that of the first loop of the template: the second one is in column 2 here, and in column 6 of the template. -/
theorem C118_loops_fails : letI := asciiFold
    (processTemplate wholeBlock wholeText).map (fun r => r.toOption.map fun hs => printSection .v20 hs wholeBlock) =
      some (some (.ok "\n  loop_\n   _a\n   _b\n   1    2 \n_c     'x'\n  loop_\n  _d\n    5 ".toList)) := by decide +kernel

end Template
end Verif
