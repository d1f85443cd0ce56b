import Verif.Spec.Scopes
import Verif.Lemmas.BlockPacket
import Verif.Props.CifDicTree
namespace Verif.CifDic
open Block Validate
variable [CaseFold]
set_option linter.unusedSectionVars false

/-- What expanding does with one name. -/
def expandOne (d : CifDic) (n : Nat) (name : Str) : Except PyErr (List Str) :=
  match (if d.contains name then isScope d "Category".toList name else .ok false) with
  | .error e => .error e
  | .ok true =>
    match immediateChildren d name with
    | .error e => .error e
    | .ok ch => expandCategoryFuel d n ch
  | .ok false => .ok [name]

theorem expandFuel_succ (d : CifDic) (n : Nat) (names : List Str) :
    expandCategoryFuel d (n + 1) names =
      match mapE (expandOne d n) names with
      | .error e => .error e
      | .ok ls => .ok ls.flatten := rfl

theorem expandFuel_single {d : CifDic} {n : Nat} {a : Str} {l : List Str}
    (h : expandCategoryFuel d (n + 1) [a] = .ok l) : expandOne d n a = .ok l := by
  rw [expandFuel_succ] at h
  cases h1 : expandOne d n a with
  | error e => simp only [mapE, h1] at h; cases h
  | ok v => simp only [mapE, h1, List.flatten_cons, List.flatten_nil, List.append_nil, Except.ok.injEq] at h; rw [h]

theorem expandOne_means {d : CifDic} (h : Readable d) (ha : Acyclic d) (hc : AnyCase d) (a : Str) :
    ∃ l, expandOne d (d.table.length + 1) a = .ok l ∧ ∀ x, x ∈ l ↔ Means d a x := by
  by_cases hk : lower a ∈ d.keys
  · obtain ⟨b, hb, hp⟩ := h.found _ hk
    have hb' : d.getItem a = .ok b := by rw [hc a hk, hb]
    have hsc : isScope d "Category".toList a = .ok (isCat d a) := isScope_cat hb' hp
    have hsame : isCat d a = isCat d (lower a) := by unfold isCat scopeIs; rw [hb', hb]
    cases hi : isCat d (lower a) with
    | true =>
      have hcat : IsCategory d (lower a) := (isCategory_iff hb hp).2 hi
      obtain ⟨l, hl, -, hm⟩ := C56_expand h ha hk hcat
      have h1 := expandFuel_single hl
      refine ⟨l, ?_, fun x => ?_⟩
      · rw [← h1]
        have hsc' : isScope d "Category".toList (lower a) = .ok true := by rw [isScope_cat hb hp, hi]
        unfold expandOne
        have c1 : d.contains a = true := by unfold contains; simpa using hk
        have c2 : d.contains (lower a) = true := by unfold contains; rw [CaseFold.lower_lower]; simpa using hk
        simp only [c1, c2, if_true, hsc, hsc', hsame, hi, immediate_eq h, CaseFold.lower_lower]
      · rw [hm]
        constructor
        · rintro ⟨h1, h2⟩; exact .inl ⟨hk, hcat, h1, h2⟩
        · rintro (⟨-, -, h1, h2⟩ | ⟨h1, -⟩)
          · exact ⟨h1, h2⟩
          · exact absurd ⟨hk, hcat⟩ h1
    | false =>
      have hcat : ¬ IsCategory d (lower a) := fun hh => by rw [(isCategory_iff hb hp).1 hh] at hi; cases hi
      refine ⟨[a], ?_, fun x => ?_⟩
      · unfold expandOne
        have c1 : d.contains a = true := by unfold contains; simpa using hk
        simp only [c1, if_true, hsc, hsame, hi]
      · rw [List.mem_singleton]
        constructor
        · intro e; exact .inr ⟨fun hh => hcat hh.2, e⟩
        · rintro (⟨-, h1, -⟩ | ⟨-, e⟩)
          · exact absurd h1 hcat
          · exact e
  · refine ⟨[a], ?_, fun x => ?_⟩
    · unfold expandOne
      have c1 : d.contains a = false := by unfold contains; simpa using hk
      simp only [c1, Bool.false_eq_true, if_false]
    · rw [List.mem_singleton]
      constructor
      · intro e; exact .inr ⟨fun hh => hk hh.1, e⟩
      · rintro (⟨h1, -⟩ | ⟨-, e⟩)
        · exact absurd h1 hk
        · exact e

theorem mapE_exists {α β : Type} {f : α → Except PyErr (List β)} {P : α → β → Prop} :
    ∀ l : List α, (∀ a ∈ l, ∃ r, f a = .ok r ∧ ∀ x, x ∈ r ↔ P a x) →
      ∃ ls, mapE f l = .ok ls ∧ ∀ x, x ∈ ls.flatten ↔ ∃ a ∈ l, P a x
  | [], _ => ⟨[], rfl, by simp⟩
  | a :: r, h => by
    obtain ⟨v, hv, hp⟩ := h a (by simp)
    obtain ⟨ls, h1, h2⟩ := mapE_exists r (fun b hb => h b (by simp [hb]))
    refine ⟨v :: ls, by simp only [mapE, hv, h1], fun x => ?_⟩
    rw [List.flatten_cons, List.mem_append, hp, h2]
    simp

theorem expand_means {d : CifDic} (h : Readable d) (ha : Acyclic d) (hc : AnyCase d) (names : List Str) :
    ∃ l, expandCategory d names = .ok l ∧ ∀ x, x ∈ l ↔ ∃ a ∈ names, Means d a x := by
  obtain ⟨ls, h1, h2⟩ := mapE_exists (P := Means d) names (fun a _ => expandOne_means h ha hc a)
  refine ⟨ls.flatten, ?_, h2⟩
  rw [expandCategory, expandFuel_succ, h1]

theorem mapE_asText (l : List Str) : mapE asText (l.map .str) = .ok l := by
  induction l with
  | nil => rfl
  | cons a r ih => simp only [List.map_cons, mapE, asText, ih]

theorem expandValue_list (d : CifDic) (l : List Str) : expandValue d (.slist (l.map .str)) = expandCategory d l := by
  unfold expandValue
  simp only [pyIter, mapE_asText, bind, Except.bind]

/-- What a packet says. -/
def Says (p : Packet) (r : ValidRow) : Prop :=
  p.attr appAttr = .ok (.slist [.str r.scope, .str r.option]) ∧ p.attr validAttr = .ok (.slist (r.attrs.map .str))

theorem parseRow_eq {d : CifDic} {t : Scopes} {p : Packet} {r : ValidRow} (hp : Says p r) {l : List Str}
    (hl : expandCategory d r.attrs = .ok l) :
    parseRow d t p = .ok (if r.option = "Mandatory".toList then { t with mandatory := dset t.mandatory r.scope l }
      else if r.option = "Prohibited".toList then { t with naughty := dset t.naughty r.scope l } else t) := by
  unfold parseRow
  have e1 : pyItem (.slist [.str r.scope, .str r.option]) 1 = .ok (.str r.option) := rfl
  have e0 : pyItem (.slist [.str r.scope, .str r.option]) 0 = .ok (.str r.scope) := rfl
  simp only [hp.1, hp.2, bind, Except.bind, e1, e0, expandValue_list, hl, asText, PyVal.str.injEq]
  by_cases h1 : r.option = "Mandatory".toList
  · rw [if_pos h1, if_pos h1]
  · rw [if_neg h1, if_neg h1]
    by_cases h2 : r.option = "Prohibited".toList
    · rw [if_pos h2, if_pos h2]
    · rw [if_neg h2, if_neg h2]

/-- The last row for a scope and an option. -/
def lastRow (rows : List ValidRow) (s o : Str) : Option ValidRow := (rows.filter fun r => decide (r.scope = s ∧ r.option = o)).getLast?

/-- An entry of a table is what the row says, or what it was before. -/
def Entry (d : CifDic) (before now : Option (List Str)) : Option ValidRow → Prop
  | none => now = before
  | some r => ∃ l, now = some l ∧ ∀ x, x ∈ l ↔ ∃ a ∈ r.attrs, Means d a x

theorem lastRow_cons (r : ValidRow) (rows : List ValidRow) (s o : Str) :
    lastRow (r :: rows) s o = match lastRow rows s o with
      | some q => some q
      | none => if r.scope = s ∧ r.option = o then some r else none := by
  unfold lastRow
  by_cases h : r.scope = s ∧ r.option = o
  · rw [List.filter_cons_of_pos (by simpa using h), List.getLast?_cons]
    cases (rows.filter fun r => decide (r.scope = s ∧ r.option = o)).getLast? <;> simp [h]
  · rw [List.filter_cons_of_neg (by simpa using h)]
    cases (rows.filter fun r => decide (r.scope = s ∧ r.option = o)).getLast? <;> simp [h]

theorem parseRows_tables {d : CifDic} (h : Readable d) (ha : Acyclic d) (hc : AnyCase d) :
    ∀ (rows : List ValidRow) (ps : List Packet) (t : Scopes), ps.length = rows.length →
      (∀ i (h1 : i < ps.length) (h2 : i < rows.length), Says ps[i] rows[i]) →
      ∃ t', parseRows d ps t = .ok t' ∧ ∀ s,
        Entry d (dget t.mandatory s) (dget t'.mandatory s) (lastRow rows s "Mandatory".toList) ∧
        Entry d (dget t.naughty s) (dget t'.naughty s) (lastRow rows s "Prohibited".toList)
  | [], ps, t, hl, _ => by
    have : ps = [] := List.length_eq_zero_iff.1 (by simpa using hl)
    rw [this]
    exact ⟨t, rfl, fun s => ⟨rfl, rfl⟩⟩
  | r :: rows, [], t, hl, _ => by simp at hl
  | r :: rows, p :: ps, t, hl, hs => by
    obtain ⟨l, hl1, hm⟩ := expand_means h ha hc r.attrs
    have h0 : Says p r := hs 0 (by simp) (by simp)
    have hrow := parseRow_eq (d := d) (t := t) h0 hl1
    obtain ⟨t', h1, h2⟩ := parseRows_tables h ha hc rows ps
      (if r.option = "Mandatory".toList then { t with mandatory := dset t.mandatory r.scope l }
        else if r.option = "Prohibited".toList then { t with naughty := dset t.naughty r.scope l } else t)
      (by simpa using hl) (fun i a b => hs (i + 1) (Nat.succ_lt_succ a) (Nat.succ_lt_succ b))
    refine ⟨t', by simp only [parseRows, hrow, bind, Except.bind, h1], fun s => ?_⟩
    obtain ⟨hM, hN⟩ := h2 s
    have hne : "Mandatory".toList ≠ "Prohibited".toList := by decide
    rw [lastRow_cons, lastRow_cons]
    constructor
    · cases hq : lastRow rows s "Mandatory".toList with
      | some q => rw [hq] at hM; exact hM
      | none =>
        rw [hq] at hM
        simp only [Entry] at hM
        by_cases ho : r.option = "Mandatory".toList
        · rw [if_pos ho] at hM
          simp only [dget_dset] at hM
          by_cases hsr : r.scope = s
          · simp only [hsr, ho, and_self, if_true, Entry]
            exact ⟨l, by simpa [hsr] using hM, hm⟩
          · simp only [hsr, false_and, if_false, Entry]
            have hsr' : ¬ s = r.scope := fun e => hsr e.symm
            simpa [hsr, hsr'] using hM
        · rw [if_neg ho] at hM
          simp only [ho, and_false, if_false, Entry]
          rw [hM]
          split <;> rfl
    · cases hq : lastRow rows s "Prohibited".toList with
      | some q => rw [hq] at hN; exact hN
      | none =>
        rw [hq] at hN
        simp only [Entry] at hN
        by_cases ho : r.option = "Prohibited".toList
        · have ho' : ¬ r.option = "Mandatory".toList := fun e => hne (e.symm.trans ho)
          rw [if_neg ho', if_pos ho] at hN
          simp only [dget_dset] at hN
          by_cases hsr : r.scope = s
          · simp only [hsr, ho, and_self, if_true, Entry]
            exact ⟨l, by simpa [hsr] using hN, hm⟩
          · simp only [hsr, false_and, if_false, Entry]
            have hsr' : ¬ s = r.scope := fun e => hsr e.symm
            simpa [hsr, hsr'] using hN
        · simp only [ho, and_false, if_false, Entry]
          rw [hN]
          split
          · rfl
          · rfl

/-- The column of an item, empty when it is not in a loop. -/
def colOf (b : Block) (s : Str) : List PyVal :=
  match b.getItem s with
  | .ok (.list l) => l
  | _ => []

theorem dget_zip_row {cols : Str → List PyVal} {i len : Nat} (hi : i < len) :
    ∀ {names : List Str}, (∀ s ∈ names, (cols s).length = len) → ∀ {a : Str}, a ∈ names →
      dget (names.zip (rowOf cols names i)) a = (cols a)[i]?
  | [], _, a, h => by simp at h
  | n :: r, hl, a, h => by
    have h1 : i < (cols n).length := by rw [hl n (by simp)]; exact hi
    have e : rowOf cols (n :: r) i = (cols n)[i] :: rowOf cols r i := by
      unfold rowOf
      rw [List.filterMap_cons, List.getElem?_eq_getElem h1]
    rw [e, List.zip_cons_cons]
    by_cases ha : n = a
    · rw [← ha, dget, if_pos rfl, List.getElem?_eq_getElem h1]
    · rw [dget, if_neg ha]
      exact dget_zip_row hi (fun s hs => hl s (by simp [hs])) (by
        rcases List.mem_cons.1 h with h | h
        · exact absurd h.symm ha
        · exact h)

theorem rowOf_length {cols : Str → List PyVal} {i len : Nat} (hi : i < len) :
    ∀ {names : List Str}, (∀ s ∈ names, (cols s).length = len) → (rowOf cols names i).length = names.length
  | [], _ => rfl
  | n :: r, hl => by
    have h1 : i < (cols n).length := by rw [hl n (by simp)]; exact hi
    have e : rowOf cols (n :: r) i = (cols n)[i] :: rowOf cols r i := by
      unfold rowOf
      rw [List.filterMap_cons, List.getElem?_eq_getElem h1]
    rw [e, List.length_cons, List.length_cons, rowOf_length hi (fun s hs => hl s (by simp [hs]))]

theorem parseValid_loop {d : CifDic} {b : Block} {rows : List ValidRow} (hb : LoopOf b rows) :
    ∃ ps : List Packet, parseValid d b = parseRows d ps {} ∧ ps.length = rows.length ∧
      ∀ i (h1 : i < ps.length) (h2 : i < rows.length), Says ps[i] rows[i] := by
  obtain ⟨n, names, hc, hg, hn, hnd, hlow, ha, hv, hcols⟩ := hb.inLoop
  have hcol : ∀ s ∈ names, b.getItem s = .ok (.list (colOf b s)) ∧ (colOf b s).length = rows.length := by
    intro s hs
    obtain ⟨l, h1, h2⟩ := hcols s hs
    have : colOf b s = l := by unfold colOf; rw [h1]
    rw [this]; exact ⟨h1, h2⟩
  have hp := packets_eq (b := b) (cols := colOf b) (len := rows.length) hn (List.ne_nil_of_mem ha) (fun s hs => (hcol s hs).1)
    (fun s hs => (hcol s hs).2)
  have hlen : ∀ s ∈ names, (colOf b s).length = rows.length := fun s hs => (hcol s hs).2
  refine ⟨(List.range rows.length).map fun i => mkPacket names (rowOf (colOf b) names i), by simp only [parseValid, hc, if_true, hg, bind, Except.bind, hp], by simp, ?_⟩
  intro i h1 h2
  rw [List.getElem_map, List.getElem_range]
  have hat : (mkPacket names (rowOf (colOf b) names i)).attrs = names.zip (rowOf (colOf b) names i) :=
    mkPacket_attrs hlow hnd (rowOf_length h2 hlen)
  have ca : colOf b appAttr = rows.map fun r => .slist [.str r.scope, .str r.option] := by unfold colOf; rw [hb.apps]
  have cv : colOf b validAttr = rows.map fun r => .slist (r.attrs.map .str) := by unfold colOf; rw [hb.attrs]
  constructor
  · rw [Packet.attr, hat, dget_zip_row h2 hlen ha, ca, List.getElem?_map, List.getElem?_eq_getElem h2]
    rfl
  · rw [Packet.attr, hat, dget_zip_row h2 hlen hv, cv, List.getElem?_map, List.getElem?_eq_getElem h2]
    rfl

end Verif.CifDic
