import Verif.Lemmas.TypeInfo
/-! # The type expressions of a dictionary (C112) -/
namespace Verif
namespace TypeInfo
open Spec

/-- **C112.** In an expression on one line in which `\{` and `\n` occur once each at most, and between brackets, a backslash is added before `\{` and `\r` after `\n`;
nothing else changes.
Missing: several marks of the same kind (`C112_twice_fails`), marks outside brackets (`C112_outside_fails`), directly after the bracket (`C112_first_fails`), and
several lines (`C112_lines_fails`): the code does something else. -/
theorem C112_fixed_partial (s : Str) (hl : '\n' ∉ s) (hb : Regular '\\' '{' s) (hn : Regular '\\' 'n' s) : regexFiddle s = Spec.fixed s := by
  unfold regexFiddle Spec.fixed
  have h1 : replaceIn brace ('\\' :: brace) s = replacePairs '\\' '{' ['\\', '\\', '{'] s := replaceIn_regular hl hb
  rw [h1]
  refine replaceIn_regular ?_ (regular_ra hn)
  intro hh
  rcases ra_mem _ (Nat.le_refl _) hh with hh | hh
  · exact hl hh
  · revert hh; decide

/-- **C112.** An expression without `\{` and `\n` between brackets is used as it is. -/
theorem C112_same (s : Str) (hb : ∀ u v, s = u ++ ['\\', '{'] ++ v → ¬ Enclosed u v) (hn : ∀ u v, s = u ++ ['\\', 'n'] ++ v → ¬ Enclosed u v) : regexFiddle s = s := by
  have h1 : replaceIn brace ('\\' :: brace) s = s := replaceIn_none hb
  unfold regexFiddle
  rw [h1]
  exact replaceIn_none hn

theorem fixed_dollar {c : Str} (h : '\n' ∉ c ∧ Regular '\\' '{' c ∧ Regular '\\' 'n' c) : regexFiddle (c ++ ['$']) = Spec.fixed c ++ ['$'] := by
  obtain ⟨h1, h2, h3⟩ := h
  rw [C112_fixed_partial _ (by simp [h1]) (regular_dollar (by decide) h2) (regular_dollar (by decide) h3)]
  unfold Spec.fixed
  have e1 : replacePairs '\\' '{' ['\\', '\\', '{'] (c ++ ['$']) = replacePairs '\\' '{' ['\\', '\\', '{'] c ++ ['$'] :=
    ra_split (by decide) (by decide) _ (Nat.le_refl _)
  rw [e1]
  exact ra_split (by decide) (by decide) _ (Nat.le_refl _)

/-- **C112.** The table of a dictionary: when the codes differ, each is given the compiled form of its own construct, closed by `$`, and its own primitive code, and
there is nothing else in the tables. -/
theorem C112_types [CaseFold] {M : Type} (compile : Str → Except PyErr M) (b : Block) (ts ps cs : List Str) (ms : List M)
    (ht : b.getItem "_item_type_list.code".toList = .ok (.list (ts.map .str))) (hp : b.getItem "_item_type_list.primitive_code".toList = .ok (.list (ps.map .str)))
    (hc : b.getItem "_item_type_list.construct".toList = .ok (.list (cs.map .str))) (hk : b.contains "_item_type_list.construct".toList = true)
    (hd : ts.Nodup) (hlc : ts.length = cs.length) (hlp : ts.length = ps.length)
    (hr : ∀ c ∈ cs, '\n' ∉ c ∧ Regular '\\' '{' c ∧ Regular '\\' 'n' c)
    (hm : Validate.mapE compile (cs.map fun c => Spec.fixed c ++ ['$']) = .ok ms) :
    addTypeInfo compile b = .ok (ts.zip ms, ts.zip ps) := by
  have hfix : ∀ c ∈ cs, regexFiddle (c ++ ['$']) = Spec.fixed c ++ ['$'] := fun c hcs => fixed_dollar (hr c hcs)
  have hcomp : Validate.mapE (fun c => compile (regexFiddle c)) (cs.map (· ++ ['$'])) = .ok ms := by
    rw [← hm]
    clear hm hlc hr hc
    induction cs with
    | nil => rfl
    | cons c r ih =>
      simp only [List.map_cons, Validate.mapE]
      rw [hfix c (by simp), ih (fun c' h => hfix c' (by simp [h]))]
  have h1 := compileAll_ok (compile := compile) (ts := ts) (cs := cs.map (· ++ ['$'])) (d := []) (by simpa using hlc) (by simpa [dkeys] using hd) hcomp
  have h2 : (ts.zip ps).foldl (fun d p => dset d p.1 p.2) [] = ts.zip ps := by
    rw [Block.foldl_dset_new]
    · rfl
    · simp only [dkeys, List.map_nil, List.nil_append]
      rw [List.map_fst_zip (by omega)]
      exact hd
  unfold addTypeInfo
  simp only [if_pos hk, ht, hp, hc, texts_list, h1, h2, bind, Except.bind]
  rfl

/-- A loop of two types. -/
def twoTypes : Block :=
  { block := [("_item_type_list.code".toList, (.list [.str "code".toList, .str "line".toList], .none)),
              ("_item_type_list.primitive_code".toList, (.list [.str "char".toList, .str "char".toList], .none)),
              ("_item_type_list.construct".toList, (.list [.str "[a-z]*".toList, .str "[a \\n]*".toList], .none))] }

/-- The hypotheses of `C112_types` and `C112_fixed_partial` are met. -/
example : @addTypeInfo asciiFold Str (fun s => .ok s) twoTypes =
    .ok ([("code".toList, "[a-z]*$".toList), ("line".toList, "[a \\n\\r]*$".toList)], [("code".toList, "char".toList), ("line".toList, "char".toList)]) := by
  refine @C112_types asciiFold Str (fun s => .ok s) twoTypes ["code".toList, "line".toList] ["char".toList, "char".toList] ["[a-z]*".toList, "[a \\n]*".toList]
    ["[a-z]*$".toList, "[a \\n\\r]*$".toList] rfl rfl rfl rfl (by decide) rfl rfl ?_ rfl
  intro c hc
  simp only [List.mem_cons, List.not_mem_nil, or_false] at hc
  rcases hc with rfl | rfl
  · exact ⟨by decide, regular_free (by decide), regular_free (by decide)⟩
  · refine ⟨by decide, ?_, ?_⟩
    · constructor
      · intro u v _ _ h _
        exact absurd (show '{' ∈ "[a \\n]*".toList by rw [h]; simp) (by decide)
      · intro u v h
        exact absurd (show '{' ∈ "[a \\n]*".toList by rw [h]; simp) (by decide)
    · exact regular_one (u := "[a ".toList) (v := "]*".toList) (by decide) (by decide) (by decide)
        ⟨⟨[], "a ".toList, rfl, by decide⟩, ⟨[], "*".toList, rfl, by decide⟩, by decide⟩

/-- **C112.** A construct that is no regular expression is an error, whatever the other constructs are, and the error is that of such a construct. -/
theorem C112_bad [CaseFold] {M : Type} (compile : Str → Except PyErr M) (b : Block) (ts ps cs : List Str)
    (ht : b.getItem "_item_type_list.code".toList = .ok (.list (ts.map .str))) (hp : b.getItem "_item_type_list.primitive_code".toList = .ok (.list (ps.map .str)))
    (hc : b.getItem "_item_type_list.construct".toList = .ok (.list (cs.map .str))) (hk : b.contains "_item_type_list.construct".toList = true)
    (hlc : ts.length = cs.length) (hr : ∀ c ∈ cs, '\n' ∉ c ∧ Regular '\\' '{' c ∧ Regular '\\' 'n' c)
    (hm : ∃ c ∈ cs, ∃ e, compile (Spec.fixed c ++ ['$']) = .error e) :
    ∃ e, (∃ c ∈ cs, compile (Spec.fixed c ++ ['$']) = .error e) ∧ addTypeInfo compile b = .error e := by
  have key : ∀ (ts cs : List Str) (d : Dict Str M), ts.length = cs.length → (∀ c ∈ cs, '\n' ∉ c ∧ Regular '\\' '{' c ∧ Regular '\\' 'n' c) →
      (∃ c ∈ cs, ∃ e, compile (Spec.fixed c ++ ['$']) = .error e) →
      ∃ e, (∃ c ∈ cs, compile (Spec.fixed c ++ ['$']) = .error e) ∧ compileAll compile d (ts.zip (cs.map (· ++ ['$']))) = .error e := by
    intro ts
    induction ts with
    | nil =>
      intro cs d hl _ hm
      have : cs = [] := List.eq_nil_of_length_eq_zero hl.symm
      subst this
      obtain ⟨c, hc, _⟩ := hm
      cases hc
    | cons t ts ih =>
      intro cs d hl hr hm
      cases cs with
      | nil => cases hl
      | cons c cs =>
        have hfix := fixed_dollar (hr c List.mem_cons_self)
        simp only [List.map_cons, List.zip_cons_cons, compileAll, hfix]
        cases hcc : compile (Spec.fixed c ++ ['$']) with
        | error e => exact ⟨e, ⟨c, List.mem_cons_self, hcc⟩, rfl⟩
        | ok m =>
          obtain ⟨c', hc', e, he⟩ := hm
          have hne : c' ∈ cs := by
            rcases List.mem_cons.mp hc' with rfl | h
            · rw [hcc] at he; cases he
            · exact h
          obtain ⟨e, ⟨x, hx, hx'⟩, h⟩ := ih cs (dset d t m) (by simpa using hl) (fun x hx => hr x (List.mem_cons_of_mem _ hx)) ⟨c', hne, e, he⟩
          exact ⟨e, ⟨x, List.mem_cons_of_mem _ hx, hx'⟩, h⟩
  obtain ⟨e, h1, h2⟩ := key ts cs [] hlc hr hm
  refine ⟨e, h1, ?_⟩
  unfold addTypeInfo
  simp only [if_pos hk, ht, hp, hc, texts_list, h2, bind, Except.bind]

/-- The case occurs. -/
example : @addTypeInfo asciiFold Str (fun s => if s = "[a \\n\\r]*$".toList then .error .value else .ok s) twoTypes = .error .value := by rfl

/-- **C112.** A dictionary without constructs has no types, and that is no error. -/
theorem C112_none [CaseFold] {M : Type} (compile : Str → Except PyErr M) (b : Block) (hk : b.contains "_item_type_list.construct".toList = false) :
    addTypeInfo compile b = .ok ([], []) := by
  unfold addTypeInfo
  rw [hk]
  rfl

/-- The case occurs. -/
example : @Block.contains asciiFold { block := [("_dictionary.title".toList, (.str "core".toList, .none))] } "_item_type_list.construct".toList = false := by decide +kernel

/-- A dictionary with the expression for text of mmCIF. -/
def sampleConstruct : Str := "[][ \\n\\t()_,.;:\"&<>/\\{}'`~!@#$%?+=*A-Za-z0-9|^-]*".toList

example : regexFiddle (sampleConstruct ++ ['$']) = "[][ \\n\\r\\t()_,.;:\"&<>/\\\\{}'`~!@#$%?+=*A-Za-z0-9|^-]*$".toList := by decide +kernel
example : Spec.fixed (sampleConstruct ++ ['$']) = "[][ \\n\\r\\t()_,.;:\"&<>/\\\\{}'`~!@#$%?+=*A-Za-z0-9|^-]*$".toList := by decide +kernel

/-! ## Where the code departs from this -/

/-- **C112 fails.** Of several `\n` between brackets only the last one is given its `\r`. -/
theorem C112_twice_fails (u v w : Str) (he : Enclosed (u ++ newline ++ v) w) (hl : '\n' ∉ w) (hw : '\\' ∉ w)
    (hb : ∀ x y, u ++ newline ++ v ++ newline ++ w = x ++ brace ++ y → ¬ Enclosed x y) :
    regexFiddle (u ++ newline ++ v ++ newline ++ w) = u ++ newline ++ v ++ newline ++ ['\\', 'r'] ++ w := by
  unfold regexFiddle
  rw [replaceIn_none hb, replaceIn_last (mark := newline) rfl he (fun _ _ h _ => last_of (c := '\\') (d := 'n') (by decide) hw h), lineLen_all hl, List.take_length]
  simp

example : regexFiddle "[ \\n]*[ \\n]$".toList = "[ \\n]*[ \\n\\r]$".toList := by decide +kernel

/-- **C112 fails.** A `\{` outside brackets, which means a brace, is changed when a bracket is opened before and closed after it. -/
theorem C112_outside_fails : regexFiddle "[a]\\{[b]$".toList = "[a]\\\\{[b]$".toList := by decide +kernel

/-- **C112 fails.** A mark that comes directly after the only opening bracket is left as it is. -/
theorem C112_first_fails (a v : Str) (ha : '[' ∉ a ∧ '\\' ∉ a) (hv : '\\' ∉ v) : regexFiddle (a ++ '[' :: newline ++ v) = a ++ '[' :: newline ++ v := by
  have key : ∀ (mark : Str) (u w : Str), (mark = ['\\', '{'] ∨ mark = ['\\', 'n']) → a ++ '[' :: newline ++ v = u ++ mark ++ w → ¬ Enclosed u w := by
    intro mark u w hm hs he
    obtain ⟨⟨p, x, rfl, hx⟩, -, -⟩ := he
    have h1 : (a ++ ['[']) ++ '\\' :: 'n' :: v = (p ++ '[' :: x) ++ '\\' :: (mark.tail ++ w) := by
      rcases hm with rfl | rfl <;> simpa [newline] using hs
    have h2 : a ++ ['['] = p ++ '[' :: x := by
      have hfree : '\\' ∉ a ++ ['['] := by simp [ha.2]
      have hlast : '\\' ∉ 'n' :: v := by simp [hv]
      rcases List.append_eq_append_iff.mp h1 with ⟨m, h3, h4⟩ | ⟨m, h3, h4⟩
      · cases m with
        | nil => simpa using h3.symm
        | cons c m =>
          simp only [List.cons_append, List.cons.injEq] at h4
          exact absurd (by rw [h4.2]; simp) hlast
      · cases m with
        | nil => simpa using h3
        | cons c m =>
          simp only [List.cons_append, List.cons.injEq] at h4
          exact absurd (by rw [h3, ← h4.1]; simp) hfree
    rcases List.eq_nil_or_concat x with rfl | ⟨y, z, rfl⟩
    · exact hx rfl
    · have h5 : a ++ ['['] = (p ++ '[' :: y) ++ [z] := by rw [h2]; simp
      have h6 := (List.append_inj' h5 rfl).1
      exact ha.1 (by rw [h6]; simp)
  exact C112_same _ (fun u w h => key _ u w (.inl rfl) h) (fun u w h => key _ u w (.inr rfl) h)

example : regexFiddle "[\\n ]*$".toList = "[\\n ]*$".toList := by decide +kernel

/-- **C112 fails.** When a mark on the first line is replaced, the further lines of the expression are lost, and with them the `$`. -/
theorem C112_lines_fails (u v r : Str) (he : Enclosed u v) (hl : '\n' ∉ v) (hr : '\\' ∉ v ++ '\n' :: r)
    (hb : ∀ x y, u ++ newline ++ (v ++ '\n' :: r) = x ++ brace ++ y → ¬ Enclosed x y) :
    regexFiddle (u ++ newline ++ (v ++ '\n' :: r)) = u ++ newline ++ ['\\', 'r'] ++ v := by
  obtain ⟨ho, ⟨b, c, hv, hb'⟩, hu⟩ := he
  have he' : Enclosed u (v ++ '\n' :: r) := ⟨ho, ⟨b, c ++ '\n' :: r, by rw [hv]; simp, hb'⟩, hu⟩
  have h1 : lineLen (v ++ '\n' :: r) = v.length := by
    apply Nat.le_antisymm
    · apply Nat.le_of_not_lt
      intro hlt
      have h2 := (le_lineLen.mp (Nat.succ_le_of_lt hlt)).2
      apply h2
      have h3 : v ++ '\n' :: r = (v ++ ['\n']) ++ r := by simp
      rw [h3, List.take_append_of_le_length (by simp), List.take_of_length_le (by simp)]
      simp
    · apply le_lineLen.mpr
      refine ⟨by simp, ?_⟩
      rw [List.take_left]
      exact hl
  unfold regexFiddle
  rw [replaceIn_none hb, replaceIn_last (mark := newline) rfl he' (fun _ _ h _ => last_of (c := '\\') (d := 'n') (by decide) hr h), h1, List.take_left]
  simp

example : regexFiddle "[ \\n]*\nabc$".toList = "[ \\n\\r]*".toList := by decide +kernel

/-- A block with one type that is not looped. -/
def oneType : Block :=
  { block := [("_item_type_list.code".toList, (.str "code".toList, .none)), ("_item_type_list.primitive_code".toList, (.str "char".toList, .none)),
              ("_item_type_list.construct".toList, (.str ".*".toList, .none))] }

/-- **C112 fails.** A type that is not in a loop is taken apart: its characters are the codes, and each is given one character of the construct. -/
theorem C112_single_fails : @addTypeInfo asciiFold Str (fun s => .ok s) oneType =
    .ok ([("c".toList, ".$".toList), ("o".toList, "*$".toList)],
      [("c".toList, "c".toList), ("o".toList, "h".toList), ("d".toList, "a".toList), ("e".toList, "r".toList)]) := by
  rfl

end TypeInfo
end Verif
