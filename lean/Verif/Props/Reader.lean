import Verif.Lemmas.Reader
/-! # C08 Loop construction, C09 Duplicate data names -/
set_option linter.unusedSectionVars false
namespace Verif.Reader
open Block

section Samples
/-- A block as the parser creates it. -/
def sampleBlock : Block := { overwrite := false }
def sampleName (s : String) : Str := s.toList
def sampleVals (l : List String) : List PyVal := l.map fun s => .str s.toList
end Samples

variable [CaseFold]

/-- The entries are like those the parser delivers: names are not the reserved key, values contain no `None`, and loops
are filled and do not end in an empty list. -/
def Proper (es : List Entry) : Prop := ∀ e ∈ es, NamesOk e ∧ e.Plain ∧ e.NoEmptyEnd ∧ e.Filled

theorem filling_storeEntries {b0 b : Block} (h0 : Fresh b0) (hl : b0.overwrite = false) {es : List Entry} (hp : Proper es)
    (h : storeEntries b0 es = (b, .ok ())) : Filling b ∧ Entry.Distinct es ∧ b.keys = (Entry.allNames es).map lower := by
  have hd := (storeEntries_ok es (wf_fresh h0) hl h).1
  have hk0 : b0.keys = [] := by simp [keys, h0.1, dkeys]
  obtain ⟨h1, h2⟩ := storeEntries_eq es (filling_fresh h0 hl) hd (by simp [hk0]) hp
  rw [h1] at h
  simp only [Prod.mk.injEq, and_true] at h
  rw [h] at h2
  refine ⟨h2, hd, ?_⟩
  rw [← h]
  have : ∀ (es : List Entry) (b : Block), (es.foldl addEntry b).keys = b.keys ++ (Entry.allNames es).map lower := by
    intro es
    induction es with
    | nil => simp [Entry.allNames]
    | cons e es ih => intro b; rw [List.foldl_cons, ih, keys_addEntry]; simp [Entry.allNames]
  rw [this, hk0, List.nil_append]

theorem lookup_addLoop {b : Block} {ns : List Str} {cs : List (Str × PyVal)} (hcs : cs.map (·.1) = ns)
    (hn : (ns.map lower).Nodup) (hk : ∀ n ∈ ns, lower n ∉ b.keys) {n : Str} {v : PyVal} (h : (n, v) ∈ cs) (hv : notNone v = true)
    {k : Str} (hs : k ≠ saves) (e : lower k = lower n) : (addLoop b ns cs).lookup k = some v := by
  have hnd : (cs.map fun c => lower c.1).Nodup := by
    have : (cs.map fun c => lower c.1) = (cs.map (·.1)).map lower := by simp
    rw [this, hcs]; exact hn
  have hm : n ∈ ns := by rw [← hcs]; exact List.mem_map_of_mem (f := (·.1)) h
  rw [lookup_eq _ _ hs, e]
  have : dget (addLoop b ns cs).block (lower n) = dget (addCells b cs).block (lower n) := rfl
  rw [this, dget_addCells_new hnd h (hk n hm)]
  cases v <;> simp_all [Block.readEntry, Except.toOption]

/-- **C08**, when a loop can be made. In a block to which any entries have been added, a loop with new, different names
and any values is accepted exactly if the values fill whole rows; otherwise there is an error. -/
theorem C08_accepted (b0 b : Block) (h0 : Fresh b0) (hl : b0.overwrite = false) (es : List Entry) (hp : Proper es)
    (hb : storeEntries b0 es = (b, .ok ())) (ns : List Str) (vals : List PyVal) (hne : ns ≠ []) (hvne : vals ≠ [])
    (hn : (ns.map lower).Nodup) (hk : ∀ n ∈ ns, b.contains n = false) (hs : ∀ n ∈ ns, n ≠ saves)
    (hv : ∀ v ∈ vals, notNone v = true) (hlast : (Entry.loop ns vals).NoEmptyEnd) :
    (makeLoop b ns vals).2 = if ns.length ∣ vals.length then .ok () else .error .value := by
  obtain ⟨hf, -, -⟩ := filling_storeEntries h0 hl hp hb
  rw [makeLoop_eq' hf hne hvne hn (fun n h => contains_false.1 (hk n h)) hs hv hlast]
  split <;> rfl

example : (sampleVals ["1", "2", "3"]) ≠ [] ∧ ¬ 2 ∣ (sampleVals ["1", "2", "3"]).length ∧
    (Entry.loop [sampleName "_a", sampleName "_b"] (sampleVals ["1", "2", "3"])).NoEmptyEnd := by
  refine ⟨by simp [sampleVals], by decide, ?_, ?_⟩ <;> decide +kernel

/-- **C08**, where the values go. After reading a loop of `n` names, value number `k` of the flat list is in row `k / n` of the
column with the name number `k % n`, whatever the capitals used to ask for it, and every column has the same number of rows. -/
theorem C08_places (b0 b b' : Block) (h0 : Fresh b0) (hl : b0.overwrite = false) (es : List Entry) (hp : Proper es)
    (hb : storeEntries b0 es = (b, .ok ())) (ns : List Str) (vals : List PyVal) (hne : ns ≠ []) (hvne : vals ≠ [])
    (hn : (ns.map lower).Nodup) (hk : ∀ n ∈ ns, b.contains n = false) (hs : ∀ n ∈ ns, n ≠ saves)
    (hv : ∀ v ∈ vals, notNone v = true) (hlast : (Entry.loop ns vals).NoEmptyEnd) (h : makeLoop b ns vals = (b', .ok ())) :
    (∀ k v, vals[k]? = some v → ∀ name, ns[k % ns.length]? = some name → ∀ key, key ≠ saves → lower key = lower name →
      ∃ col, b'.lookup key = some (.list col) ∧ col[k / ns.length]? = some v) ∧
    ∃ rows, vals.length = rows * ns.length ∧ ∀ name ∈ ns, ∃ col, b'.lookup name = some (.list col) ∧ col.length = rows := by
  obtain ⟨hf, -, -⟩ := filling_storeEntries h0 hl hp hb
  have hk' : ∀ n ∈ ns, lower n ∉ b.keys := fun n h => contains_false.1 (hk n h)
  have hpos : 0 < ns.length := List.length_pos_iff.2 hne
  rw [makeLoop_eq' hf hne hvne hn hk' hs hv hlast] at h
  split at h
  · rename_i hd
    simp only [Prod.mk.injEq, and_true] at h
    subst h
    have hcol : ∀ j, notNone (.list (everyFrom ns.length j vals)) = true := by
      intro j
      rw [notNone, notNoneAll_iff]
      exact fun v h => hv v (everyFrom_mem h)
    have look : ∀ j (hj : j < ns.length) key, key ≠ saves → lower key = lower ns[j] →
        (addLoop b ns (colCells ns.length vals 0 ns)).lookup key = some (.list (everyFrom ns.length j vals)) := by
      intro j hj key h1 h2
      have := colCells_get ns.length vals 0 ns j hj
      rw [Nat.zero_add] at this
      exact lookup_addLoop (colCells_names _ _ _ _) hn hk' this (hcol j) h1 h2
    constructor
    · intro k v hkv name hname key h1 h2
      have hj : k % ns.length < ns.length := Nat.mod_lt _ hpos
      rw [List.getElem?_eq_getElem hj] at hname
      simp only [Option.some.injEq] at hname
      refine ⟨_, look _ hj key h1 (by rw [hname]; exact h2), ?_⟩
      rw [everyFrom_get _ hpos, Nat.mul_comm, Nat.div_add_mod]
      exact hkv
    · obtain ⟨rows, hr⟩ := hd
      refine ⟨rows, by rw [hr, Nat.mul_comm], ?_⟩
      intro name hm
      obtain ⟨j, hj, rfl⟩ := List.getElem_of_mem hm
      exact ⟨_, look j hj _ (hs _ hm) rfl, everyFrom_length _ rows _ _ hj (by rw [hr, Nat.mul_comm])⟩
  · simp at h

/-- **C08**, the rest of the block. Reading a loop makes one loop of exactly its names, prints it last, and changes no other item. -/
theorem C08_rest (b0 b b' : Block) (h0 : Fresh b0) (hl : b0.overwrite = false) (es : List Entry) (hp : Proper es)
    (hb : storeEntries b0 es = (b, .ok ())) (ns : List Str) (vals : List PyVal) (hne : ns ≠ []) (hvne : vals ≠ [])
    (hn : (ns.map lower).Nodup) (hk : ∀ n ∈ ns, b.contains n = false) (hs : ∀ n ∈ ns, n ≠ saves)
    (hv : ∀ v ∈ vals, notNone v = true) (hlast : (Entry.loop ns vals).NoEmptyEnd) (h : makeLoop b ns vals = (b', .ok ())) :
    (∀ name ∈ ns, b'.loopOf name = ns.map lower) ∧ b'.printed = b.printed ++ ns.map lower ∧
    ∀ key, b.contains key = true → b'.lookup key = b.lookup key ∧ b'.loopOf key = b.loopOf key := by
  obtain ⟨hf, -, -⟩ := filling_storeEntries h0 hl hp hb
  have hk' : ∀ n ∈ ns, lower n ∉ b.keys := fun n h => contains_false.1 (hk n h)
  rw [makeLoop_eq' hf hne hvne hn hk' hs hv hlast] at h
  split at h
  · simp only [Prod.mk.injEq, and_true] at h
    have hw := (filling_addLoop hf (colCells_names ns.length vals 0 ns) hne hn hk').wf
    rw [h] at hw
    have hnone : ∀ x, x ∉ b.keys → (b.loops.find? fun p => decide (x ∈ p.2)) = none := by
      intro x hx
      rw [List.find?_eq_none]
      intro p hp' h'
      exact hx (hf.full _ (mem_allLooped.2 ⟨p.1, p.2, hp', of_decide_eq_true h'⟩))
    refine ⟨?_, ?_, ?_⟩
    · intro name hm
      rw [← h]
      simp only [loopOf, addLoop, List.find?_append, hnone _ (hk' name hm), Option.none_or, List.find?_cons]
      have : decide (lower name ∈ ns.map lower) = true := decide_eq_true (List.mem_map_of_mem hm)
      simp only [this]
    · have hnew : newLoopNo b.loops ∉ dkeys b.loops := by
        have := hw.loopsNodup
        rw [← h] at this
        simp only [addLoop, dkeys_append, List.nodup_append] at this
        intro h'
        exact this.2.2 _ h' (newLoopNo b.loops) (by simp [dkeys]) rfl
      rw [← h]
      simp only [printed, addLoop, List.flatMap_append]
      congr 1
      · rw [List.flatMap_def, List.flatMap_def]
        congr 1
        apply List.map_congr_left
        intro r hr
        cases r with
        | name s => rfl
        | loop n =>
          obtain ⟨l, hl'⟩ := dget_isSome.2 ((hf.wf.orderLoop n).1 hr)
          simp [dget_append, hl']
      · simp [dget_append, dget_eq_none.2 hnew, dget]
    · intro key hkey
      have hkey' := contains_iff.1 hkey
      constructor
      · by_cases e : key = saves
        · rw [e, lookup_saves, lookup_saves]
        · rw [lookup_eq _ _ e, lookup_eq _ _ e, ← h]
          have : dget (addLoop b ns (colCells ns.length vals 0 ns)).block (lower key) =
              dget (addCells b (colCells ns.length vals 0 ns)).block (lower key) := rfl
          rw [this, dget_addCells_old hkey']
      · rw [← h]
        simp only [loopOf, addLoop, List.find?_append, List.find?_cons, List.find?_nil]
        have : decide (lower key ∈ ns.map lower) = false := by
          apply decide_eq_false
          intro h'
          obtain ⟨n, hn', e⟩ := List.mem_map.1 h'
          exact hk' n hn' (e ▸ hkey')
        simp only [this, Option.or_none]
  · simp at h

/-- Concrete loops meet the hypotheses of the C08 theorems. -/
example : letI := asciiFold
    ∃ b b', storeEntries sampleBlock [.item (sampleName "_x") (.str (sampleName "0"))] = (b, .ok ()) ∧
      makeLoop b [sampleName "_a", sampleName "_B"] (sampleVals ["1", "2", "3", "4"]) = (b', .ok ()) ∧
      b'.lookup (sampleName "_b") = some (.list (sampleVals ["2", "4"])) := by
  exact ⟨_, _, rfl, rfl, by decide +kernel⟩

/-- C08 is false of a loop that ends in an empty list (CIF 2.0): the last value is lost, here silently. -/
theorem C08_empty_list_fails : letI := asciiFold
    ∃ b', makeLoop sampleBlock [sampleName "_a"] [.slist [.str (sampleName "1")], .slist []] = (b', .ok ()) ∧
      b'.lookup (sampleName "_a") = some (.list [.slist [.str (sampleName "1")]]) := by
  exact ⟨_, rfl, by decide +kernel⟩

/-- C08 is false of a loop without names: its values are lost silently. -/
theorem C08_no_names_fails : letI := asciiFold
    ∃ b', makeLoop sampleBlock [] (sampleVals ["1", "2"]) = (b', .ok ()) ∧ b'.keys = [] := ⟨_, rfl, rfl⟩

/-! ## C09 -/

/-- **C09**, repetitions. If a data name occurs twice among the entries of a block, in any combination of capitals, looped or not, reading
fails. -/
theorem C09_rejected (b0 : Block) (h0 : Fresh b0) (hl : b0.overwrite = false) (es : List Entry) (i j : Nat) (n m : Str) (hij : i < j)
    (hi : (Entry.allNames es)[i]? = some n) (hj : (Entry.allNames es)[j]? = some m) (he : lower n = lower m) :
    (storeEntries b0 es).2 ≠ .ok () := by
  intro h
  obtain ⟨b', r, e⟩ : ∃ b' r, storeEntries b0 es = (b', r) := ⟨_, _, rfl⟩
  rw [e] at h
  simp only at h
  rw [h] at e
  have hd := (storeEntries_ok es (wf_fresh h0) hl e).1
  have h1 : ((Entry.allNames es).map lower)[i]? = some (lower n) := by rw [List.getElem?_map, hi]; rfl
  have h2 : ((Entry.allNames es).map lower)[j]? = some (lower n) := by rw [List.getElem?_map, hj, he]; rfl
  obtain ⟨a1, a2⟩ := List.getElem?_eq_some_iff.1 h1
  obtain ⟨c1, c2⟩ := List.getElem?_eq_some_iff.1 h2
  exact List.pairwise_iff_getElem.1 hd i j a1 c1 hij (a2.trans c2.symm)

example : letI := asciiFold
    (Entry.allNames [.item (sampleName "_a") (.str []), .loop [sampleName "_b", sampleName "_A"] (sampleVals ["1", "2"])])[0]? = some (sampleName "_a") ∧
    (Entry.allNames [.item (sampleName "_a") (.str []), .loop [sampleName "_b", sampleName "_A"] (sampleVals ["1", "2"])])[2]? = some (sampleName "_A") ∧
    lower (sampleName "_a") = lower (sampleName "_A") := ⟨rfl, rfl, by decide +kernel⟩

/-- **C09**, the link with the text. The parser rule for a sequence of items and loops succeeds exactly if the text consists
of such entries and they can be stored one after the other; the block is then the one given by storing them. -/
theorem C09_text (g : Gram) (fuel : Nat) (b b' : Block) (p p' : PState) :
    moreData g fuel b p = .ok (b', p') ↔ ∃ es, Says g fuel es p p' ∧ storeEntries b es = (b', .ok ()) :=
  moreData_iff g fuel b p b' p'

/-- **C09**, from the text. If reading the items of a block succeeds, the text is a sequence of entries without a repeated name. -/
theorem C09_read (g : Gram) (fuel : Nat) (b b' : Block) (p p' : PState) (h0 : Fresh b) (hl : b.overwrite = false)
    (h : dataSeq g fuel b p = .ok (b', p')) :
    ∃ e es p1, readEntry g fuel p = .ok (e, p1) ∧ Says g fuel es p1 p' ∧ Entry.Distinct (e :: es) ∧
      ∀ x, x ∈ b'.keys ↔ x ∈ (Entry.allNames (e :: es)).map lower := by
  unfold dataSeq at h
  split at h
  · simp at h
  · rename_i b1 p1 hd
    obtain ⟨e, h1, h2⟩ := (datum_iff _ _ _ _ _ _).1 hd
    obtain ⟨es, h3, h4⟩ := (moreData_iff _ _ _ _ _ _).1 h
    have hs : storeEntries b (e :: es) = (b', .ok ()) := by rw [storeEntries, h2]; exact h4
    obtain ⟨a1, -, -, -, a5⟩ := storeEntries_ok (e :: es) (wf_fresh h0) hl hs
    refine ⟨e, es, p1, h1, h3, a1, ?_⟩
    intro x
    rw [a5]
    simp [keys, h0.1, dkeys]

theorem lookup_addEntry_old {b : Block} (e : Entry) {key : Str} (h : lower key ∈ b.keys) :
    (addEntry b e).lookup key = b.lookup key := by
  by_cases hs : key = saves
  · rw [hs, lookup_saves, lookup_saves]
  · rw [lookup_eq _ _ hs, lookup_eq _ _ hs]
    cases e with
    | item n v => rw [addEntry, dget_addCells_old h]
    | loop ns vals =>
      have : dget (addLoop b ns (colCells ns.length vals 0 ns)).block (lower key) =
          dget (addCells b (colCells ns.length vals 0 ns)).block (lower key) := rfl
      rw [addEntry, this, dget_addCells_old h]

theorem lookup_foldl_old : ∀ (es : List Entry) {b : Block} {key : Str}, lower key ∈ b.keys →
    (es.foldl addEntry b).lookup key = b.lookup key
  | [], _, _, _ => rfl
  | e :: es, b, key, h => by
    rw [List.foldl_cons, lookup_foldl_old es, lookup_addEntry_old e h]
    rw [keys_addEntry]; exact List.mem_append_left _ h

/-- **C09**, without repetitions. If all names are different and the loops are filled, reading succeeds; the block has exactly the
names read; each single item has its value, and each looped name the column of its values, whatever the capitals. -/
theorem C09_stored (b0 : Block) (h0 : Fresh b0) (hl : b0.overwrite = false) (es : List Entry) (hd : Entry.Distinct es) (hp : Proper es) :
    ∃ b', storeEntries b0 es = (b', .ok ()) ∧ (∀ key, b'.contains key = true ↔ ∃ n ∈ Entry.allNames es, lower key = lower n) ∧
      (∀ n v, .item n v ∈ es → ∀ key, key ≠ saves → lower key = lower n → b'.lookup key = some v) ∧
      (∀ ns vals, .loop ns vals ∈ es → ∀ i n, ns[i]? = some n → ∀ key, key ≠ saves → lower key = lower n →
        ∃ col, b'.lookup key = some (.list col) ∧ Entry.IsColumn ns.length i vals col) := by
  have hk0 : b0.keys = [] := by simp [keys, h0.1, dkeys]
  obtain ⟨h1, h2⟩ := storeEntries_eq es (filling_fresh h0 hl) hd (by simp [hk0]) hp
  refine ⟨_, h1, ?_, ?_⟩
  · intro key
    rw [contains_iff, (filling_storeEntries h0 hl hp h1).2.2]
    simp only [List.mem_map]
    constructor
    · rintro ⟨n, hn, e⟩; exact ⟨n, hn, e.symm⟩
    · rintro ⟨n, hn, e⟩; exact ⟨n, hn, e.symm⟩
  · have main : ∀ (es : List Entry) (b : Block), Filling b → Entry.Distinct es → (∀ n ∈ Entry.allNames es, lower n ∉ b.keys) → Proper es →
        (∀ n v, .item n v ∈ es → ∀ key, key ≠ saves → lower key = lower n → (es.foldl addEntry b).lookup key = some v) ∧
        (∀ ns vals, .loop ns vals ∈ es → ∀ i n, ns[i]? = some n → ∀ key, key ≠ saves → lower key = lower n →
          ∃ col, (es.foldl addEntry b).lookup key = some (.list col) ∧ Entry.IsColumn ns.length i vals col) := by
      intro es
      induction es with
      | nil => intro b _ _ _ _; constructor <;> intro _ _ h <;> simp at h
      | cons e es ih =>
        intro b hb hd hk hp
        have hd' := hd
        simp only [Entry.Distinct, Entry.allNames, List.flatMap_cons, List.map_append, List.nodup_append] at hd'
        obtain ⟨q1, q2, q3, q4⟩ := hp e (by simp)
        have hk1 : ∀ n ∈ e.names, lower n ∉ b.keys := fun n hn => hk n (by simp [Entry.allNames, hn])
        have hin : ∀ n ∈ e.names, lower n ∈ (addEntry b e).keys := by
          intro n hn
          rw [keys_addEntry]
          exact List.mem_append_right _ (List.mem_map_of_mem hn)
        obtain ⟨i1, i2⟩ := ih (addEntry b e) (filling_addEntry hb hd'.1 hk1 q4) hd'.2.1 (by
          intro n hn
          rw [keys_addEntry, List.mem_append, not_or]
          refine ⟨hk n (by simp only [Entry.allNames, List.flatMap_cons, List.mem_append]; exact .inr hn), ?_⟩
          intro h'
          exact hd'.2.2 _ h' _ (List.mem_map_of_mem hn) rfl) (fun e' h' => hp e' (by simp [h']))
        constructor
        · intro n v h key hs he
          rcases List.mem_cons.1 h with rfl | h
          · rw [List.foldl_cons, lookup_foldl_old es (by rw [he]; exact hin n (by simp [Entry.names]))]
            rw [lookup_eq _ _ hs, he, addEntry, dget_addCells_new (by simp) (List.mem_singleton.2 rfl) (hk1 n (by simp [Entry.names]))]
            have : notNone v = true := q2
            cases v <;> simp_all [Block.readEntry, Except.toOption]
          · exact i1 n v h key hs he
        · intro ns vals h i n hi key hs he
          rcases List.mem_cons.1 h with rfl | h
          · obtain ⟨hlt, hget⟩ := List.getElem?_eq_some_iff.1 hi
            have hmem : n ∈ ns := by rw [← hget]; exact List.getElem_mem hlt
            refine ⟨everyFrom ns.length i vals, ?_, ?_⟩
            · rw [List.foldl_cons, lookup_foldl_old es (by rw [he]; exact hin n hmem)]
              have := colCells_get ns.length vals 0 ns i hlt
              rw [Nat.zero_add, hget] at this
              refine lookup_addLoop (colCells_names _ _ _ _) hd'.1 hk1 this ?_ hs he
              rw [notNone, notNoneAll_iff]
              exact fun v h => q2 v (everyFrom_mem h)
            · intro r
              rw [everyFrom_get _ (by omega), if_pos hlt]
          · exact i2 ns vals h i n hi key hs he
    exact main es b0 (filling_fresh h0 hl) hd (by simp [hk0]) hp

example : letI := asciiFold
    Entry.Distinct [.item (sampleName "_a") (.str []), .loop [sampleName "_b", sampleName "_C"] (sampleVals ["1", "2"])] ∧
    Proper [.item (sampleName "_a") (.str []), .loop [sampleName "_b", sampleName "_C"] (sampleVals ["1", "2"])] := by
  refine ⟨show List.Nodup _ by decide +kernel, ?_⟩
  intro e he
  simp only [List.mem_cons, List.not_mem_nil, or_false] at he
  rcases he with rfl | rfl
  · exact ⟨by intro n hn; simp [Entry.names] at hn; subst hn; decide +kernel, rfl, trivial, trivial⟩
  · refine ⟨?_, ?_, ⟨by decide +kernel, by decide +kernel⟩, by simp, by simp [sampleVals], by decide⟩
    · intro n hn
      simp [Entry.names] at hn
      rcases hn with rfl | rfl <;> decide +kernel
    · intro v hv
      simp [sampleVals] at hv
      rcases hv with rfl | rfl <;> rfl

end Verif.Reader
