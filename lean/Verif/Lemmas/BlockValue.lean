import Verif.Lemmas.Block
/-! Helper lemmas about the values in a block. -/
set_option linter.unusedSectionVars false
namespace Verif

mutual
theorem regularise_fst : ∀ (v w p : PyVal), regularise v = .ok (w, p) → w = v
  | .none, _, _, h => by simp [regularise] at h
  | .str s, _, _, h => by simp [regularise] at h; exact h.1.symm
  | .num s, _, _, h => by simp [regularise] at h; exact h.1.symm
  | .slist s, _, _, h => by simp [regularise] at h; exact h.1.symm
  | .sdict s, _, _, h => by simp [regularise] at h; exact h.1.symm
  | .list [], _, _, h => by simp [regularise] at h
  | .list (x :: r), w, p, h => by
    unfold regularise at h
    split at h
    · simp at h
    · rename_i v s hx
      split at h
      · simp at h
      · rename_i vs ss hr
        simp at h
        rw [← h.1, regularise_fst x v s hx, regulariseAll_fst r vs ss hr]
theorem regulariseAll_fst : ∀ (l w p : List PyVal), regulariseAll l = .ok (w, p) → w = l
  | [], _, _, h => by simp [regulariseAll] at h; exact h.1
  | x :: r, w, p, h => by
    unfold regulariseAll at h
    split at h
    · simp at h
    · rename_i v s hx
      split at h
      · simp at h
      · rename_i vs ss hr
        simp at h
        rw [← h.1, regularise_fst x v s hx, regulariseAll_fst r vs ss hr]
end

mutual
/-- The placeholder contains a `None`. -/
theorem regularise_ph : ∀ (v w p : PyVal), regularise v = .ok (w, p) → notNone p = false
  | .none, _, _, h => by simp [regularise] at h
  | .str s, _, _, h => by simp [regularise] at h; rw [← h.2]; simp [notNone]
  | .num s, _, _, h => by simp [regularise] at h; rw [← h.2]; simp [notNone]
  | .slist s, _, _, h => by simp [regularise] at h; rw [← h.2]; simp [notNone]
  | .sdict s, _, _, h => by simp [regularise] at h; rw [← h.2]; simp [notNone]
  | .list [], _, _, h => by simp [regularise] at h
  | .list (x :: r), w, p, h => by
    unfold regularise at h
    split at h
    · simp at h
    · rename_i v s hx
      split at h
      · simp at h
      · rename_i vs ss hr
        simp at h
        rw [← h.2]
        simp [notNone, notNoneAll, regularise_ph x v s hx]
end

/-- The placeholder of a list is a list of the same length all of whose elements contain a `None`. -/
theorem regulariseAll_ph : ∀ (l w p : List PyVal), regulariseAll l = .ok (w, p) →
    p.length = l.length ∧ ∀ x ∈ p, notNone x = false
  | [], _, _, h => by simp [regulariseAll] at h; simp [h.2]
  | x :: r, w, p, h => by
    unfold regulariseAll at h
    split at h
    · simp at h
    · rename_i v s hx
      split at h
      · simp at h
      · rename_i vs ss hr
        simp at h
        have := regulariseAll_ph r vs ss hr
        rw [← h.2]
        simp only [List.length_cons, List.mem_cons, forall_eq_or_imp]
        exact ⟨by rw [this.1], regularise_ph x v s hx, this.2⟩

theorem regularise_list (l : List PyVal) (w p : PyVal) (h : regularise (.list l) = .ok (w, p)) :
    l ≠ [] ∧ w = .list l ∧ ∃ q, p = .list q ∧ q.length = l.length ∧ ∀ x ∈ q, notNone x = false := by
  cases l with
  | nil => simp [regularise] at h
  | cons x r =>
    refine ⟨by simp, regularise_fst _ _ _ h, ?_⟩
    unfold regularise at h
    split at h
    · simp at h
    · rename_i v s hx
      split at h
      · simp at h
      · rename_i vs ss hr
        simp at h
        have := regulariseAll_ph r vs ss hr
        refine ⟨_, h.2.symm, ?_, ?_⟩
        · simp [this.1]
        · simp only [List.mem_cons, forall_eq_or_imp]
          exact ⟨regularise_ph x v s hx, this.2⟩

mutual
theorem notNone_of_stringy : ∀ v : PyVal, checkStringiness v = true → notNone v = true
  | .none, h => by simp [checkStringiness] at h
  | .num _, h => by simp [checkStringiness] at h
  | .str _, _ => by simp [notNone]
  | .slist l, h => by simp [checkStringiness] at h; simp [notNone, notNoneAll_of_stringy l h]
  | .sdict _, _ => by simp [notNone]
  | .list l, h => by simp [checkStringiness] at h; simp [notNone, notNoneAll_of_stringy l h]
theorem notNoneAll_of_stringy : ∀ l : List PyVal, checkStringinessAll l = true → notNoneAll l = true
  | [], _ => by simp [notNoneAll]
  | x :: r, h => by
    simp [checkStringinessAll] at h
    simp [notNoneAll, notNone_of_stringy x h.1, notNoneAll_of_stringy r h.2]
end

theorem notNoneAll_iff (l : List PyVal) : notNoneAll l = true ↔ ∀ x ∈ l, notNone x = true := by
  induction l with
  | nil => simp [notNoneAll]
  | cons x r ih => simp [notNoneAll, ih]

namespace Block
variable [CaseFold]

/-- The value an entry of the table stands for. -/
def readEntry : PyVal × PyVal → Except PyErr PyVal
  | (s, v) =>
    match s with
    | .list _ =>
      if notNone s then .ok s
      else match v with
        | .none => .error .type
        | .num _ => .error .type
        | v => .ok v
    | _ => if notNone s then .ok s else .ok v

theorem getItem_eq (b : Block) (k : Str) (hk : k ≠ saves) :
    b.getItem k = match dget b.block (lower k) with
      | none => .error .key
      | some e => readEntry e := by
  unfold getItem getFullItemValue
  rw [if_neg hk]
  cases dget b.block (lower k) with
  | none => rfl
  | some e =>
    obtain ⟨s, v⟩ := e
    simp only [readEntry]
    cases s <;> simp only
    case list l =>
      split
      · rename_i h; split at h <;> simp_all
        rename_i hh
        cases v with
        | none => simp_all
        | num x => simp_all
        | str x => simp_all
        | sdict x => simp_all
        | slist x => cases x <;> simp_all
        | list x => cases x <;> simp_all
      · rename_i h; split at h <;> simp_all
        rename_i hh
        cases v with
        | none => simp_all
        | num x => simp_all
        | str x => simp_all
        | sdict x => simp_all
        | slist x => cases x <;> simp_all
        | list x => cases x <;> simp_all
    all_goals split
    all_goals (rename_i h; split at h <;> simp_all)

/-- What `AddItem` stores reads back as the value given. -/
theorem readEntry_add {b : Block} {k : Str} {v : PyVal} {sv : PyVal × PyVal}
    (h : b.addItemCheck k v false = .ok sv) : readEntry sv = .ok v := by
  unfold addItemCheck at h
  simp only [Bool.false_eq_true, if_false] at h
  split at h
  · simp at h
  · split at h
    · simp at h
    · split at h
      · simp at h
      · rename_i w p hr
        have hf := regularise_fst v w p hr
        subst hf
        split at h
        · split at h
          · rename_i hs
            simp at h; subst h
            have := notNone_of_stringy w hs
            cases w <;> simp_all [readEntry]
          · rename_i hs
            simp at h; subst h
            have hp := regularise_ph w w p hr
            cases w with
            | none => simp [regularise] at hr
            | str s => simp [checkStringiness] at hs
            | sdict s => simp [checkStringiness] at hs
            | num s => simp [regularise] at hr; subst hr; simp [readEntry, notNone]
            | slist s => simp [regularise] at hr; subst hr; simp [readEntry, notNone]
            | list l =>
              obtain ⟨_, _, q, rfl, _, _⟩ := regularise_list l _ _ hr
              simp [readEntry, hp]
        · simp at h

theorem readEntry_pre {b : Block} {k : Str} {v : PyVal} {sv : PyVal × PyVal} (hv : notNone v = true)
    (h : b.addItemCheck k v true = .ok sv) : readEntry sv = .ok v := by
  unfold addItemCheck at h
  simp only [if_true] at h
  split at h
  · simp at h
  · simp at h; subst h
    cases v <;> simp_all [readEntry]

theorem lookup_eq (b : Block) (k : Str) (hk : k ≠ saves) :
    b.lookup k = (dget b.block (lower k)).bind fun e => (readEntry e).toOption := by
  unfold lookup
  rw [getItem_eq b k hk]
  cases dget b.block (lower k) with
  | none => rfl
  | some e => simp only [Option.bind_some]; cases readEntry e <;> rfl

theorem lookup_saves (b : Block) : b.lookup saves = none := by simp [lookup, getItem]

theorem lookup_some {b : Block} {k : Str} {v : PyVal} : b.lookup k = some v ↔ b.getItem k = .ok v := by
  unfold lookup
  cases b.getItem k <;> simp

/-- The value under a lower-case name. -/
def val (b : Block) (x : Str) : Option PyVal := (dget b.block x).bind fun e => (readEntry e).toOption

theorem lookup_val (b : Block) (k : Str) (hk : k ≠ saves) : b.lookup k = b.val (lower k) := lookup_eq b k hk

theorem val_store (b : Block) (k : Str) (sv : PyVal × PyVal) (v : PyVal) (h : readEntry sv = .ok v) (x : Str) :
    (b.store k sv).val x = if x = lower k then some v else b.val x := by
  unfold val store
  simp only [dget_dset]
  by_cases e : x = lower k
  · rw [if_pos e.symm, if_pos e]; simp [h, Except.toOption]
  · rw [if_neg (fun h => e h.symm), if_neg e]

theorem addItem_ok {b b' : Block} {k : Str} {v : PyVal} {pre : Bool} (h : b.addItem k v pre = (b', .ok ()))
    (hp : pre = true → notNone v = true) :
    ∃ sv, b.addItemCheck k v pre = .ok sv ∧ readEntry sv = .ok v ∧ b' = b.store k sv := by
  unfold addItem at h
  split at h
  · simp at h
  · rename_i sv hsv
    simp at h
    refine ⟨sv, hsv, ?_, h.symm⟩
    cases pre with
    | true => exact readEntry_pre (hp rfl) hsv
    | false => exact readEntry_add hsv

theorem addItem_err {b b' : Block} {k : Str} {v : PyVal} {pre : Bool} {e : PyErr}
    (h : b.addItem k v pre = (b', .error e)) : b' = b := by
  unfold addItem at h
  split at h <;> simp at h
  exact h.1.symm

theorem val_addItem {b b' : Block} {k : Str} {v : PyVal} {pre : Bool} (h : b.addItem k v pre = (b', .ok ()))
    (hp : pre = true → notNone v = true) (x : Str) : b'.val x = if x = lower k then some v else b.val x := by
  obtain ⟨sv, _, h2, rfl⟩ := addItem_ok h hp
  exact val_store b k sv v h2 x

theorem setItem_ok {b b' : Block} {k : Str} {v : PyVal} (h : b.setItem k v = (b', .ok ())) :
    k ≠ saves ∧ b.addItem k v = (b', .ok ()) := by
  unfold setItem at h
  split at h
  · simp at h
  · rename_i hk; exact ⟨hk, h⟩

theorem setItem_err {b b' : Block} {k : Str} {v : PyVal} {e : PyErr} (h : b.setItem k v = (b', .error e)) : b' = b := by
  unfold setItem at h
  split at h
  · simp at h; exact h.1.symm
  · exact addItem_err h

theorem val_setItem {b b' : Block} {k : Str} {v : PyVal} (h : b.setItem k v = (b', .ok ())) (x : Str) :
    b'.val x = if x = lower k then some v else b.val x :=
  val_addItem (setItem_ok h).2 (by simp) x

theorem val_of_getItem {b : Block} {k : Str} {v : PyVal} (h : b.getItem k = .ok v) : b.val (lower k) = some v := by
  have hk : k ≠ saves := by rintro rfl; simp [getItem] at h
  rw [← lookup_val b k hk]
  exact lookup_some.mpr h

theorem order_store {b : Block} {k : Str} (hk : lower k ∈ b.keys) (sv : PyVal × PyVal) :
    (b.store k sv).order = b.order ∧ (b.store k sv).loops = b.loops ∧ (b.store k sv).keys = b.keys ∧
      (b.store k sv).overwrite = b.overwrite ∧ (b.store k sv).maxName = b.maxName ∧ (b.store k sv).unicode = b.unicode := by
  have hc : b.contains (lower k) = true := contains_iff.mpr (by rw [low2]; exact hk)
  refine ⟨?_, rfl, ?_, rfl, rfl, rfl⟩
  · simp [store, hc]
  · simp only [keys, store]
    rw [dkeys_dset]
    exact if_pos hk

theorem setItem_frame {b b' : Block} {k : Str} {v : PyVal} {r : Except PyErr Unit} (h : b.setItem k v = (b', r))
    (hk : lower k ∈ b.keys) : b'.order = b.order ∧ b'.loops = b.loops ∧ b'.keys = b.keys ∧
      b'.overwrite = b.overwrite ∧ b'.maxName = b.maxName ∧ b'.unicode = b.unicode := by
  cases r with
  | error e => rw [setItem_err h]; exact ⟨rfl, rfl, rfl, rfl, rfl, rfl⟩
  | ok u =>
    obtain ⟨_, h⟩ := setItem_ok h
    obtain ⟨sv, _, _, rfl⟩ := addItem_ok h (by simp)
    exact order_store hk sv

/-- Wrapping changes neither order, loops, names nor settings. -/
theorem wrapAll_frame {b b' : Block} {ns : List Str} {r : Except PyErr Unit} (h : b.wrapAll ns = (b', r)) :
    b'.order = b.order ∧ b'.loops = b.loops ∧ b'.keys = b.keys ∧
      b'.overwrite = b.overwrite ∧ b'.maxName = b.maxName ∧ b'.unicode = b.unicode := by
  induction ns generalizing b with
  | nil => simp [wrapAll] at h; rw [h.1]; exact ⟨rfl, rfl, rfl, rfl, rfl, rfl⟩
  | cons d ds ih =>
    unfold wrapAll at h
    split at h
    · simp at h; rw [h.1]; exact ⟨rfl, rfl, rfl, rfl, rfl, rfl⟩
    · rename_i v hv
      have hk := getItem_ok_mem hv
      split at h
      · rename_i b1 e h1
        simp at h; rw [← h.1]
        exact setItem_frame h1 hk
      · rename_i b1 h1
        obtain ⟨a1, a2, a3, a4, a5, a6⟩ := setItem_frame h1 hk
        obtain ⟨c1, c2, c3, c4, c5, c6⟩ := ih h
        exact ⟨c1.trans a1, c2.trans a2, c3.trans a3, c4.trans a4, c5.trans a5, c6.trans a6⟩

theorem val_wrapAll {b b' : Block} {ns : List Str} (hn : (ns.map lower).Nodup) (h : b.wrapAll ns = (b', .ok ())) (x : Str) :
    b'.val x = if x ∈ ns.map lower then (b.val x).map (fun v => .list [v]) else b.val x := by
  induction ns generalizing b with
  | nil => simp [wrapAll] at h; rw [h]; simp
  | cons d ds ih =>
    unfold wrapAll at h
    split at h
    · simp at h
    · rename_i v hv
      split at h
      · simp at h
      · rename_i b1 h1
        simp only [List.map_cons, List.nodup_cons] at hn
        rw [ih hn.2 h, val_setItem h1]
        have hv' := val_of_getItem hv
        by_cases e : x = lower d
        · subst e
          rw [if_neg hn.1, if_pos rfl, if_pos (by simp), hv']; rfl
        · rw [if_neg e]
          by_cases e2 : x ∈ ds.map lower
          · rw [if_pos e2, if_pos (by simp only [List.map_cons, List.mem_cons]; exact Or.inr e2)]
          · rw [if_neg e2, if_neg (by simp only [List.map_cons, List.mem_cons, not_or]; exact ⟨e, e2⟩)]

theorem getAll_ok {b : Block} {ns : List Str} {vs : List PyVal} (h : b.getAll ns = .ok vs) :
    vs.length = ns.length ∧ (∀ d ∈ ns, ∃ v ∈ vs, b.getItem d = .ok v) ∧ ∀ v ∈ vs, ∃ d ∈ ns, b.getItem d = .ok v := by
  induction ns generalizing vs with
  | nil => simp [getAll] at h; subst h; simp
  | cons d ds ih =>
    unfold getAll at h
    split at h
    · simp at h
    · rename_i v hv
      split at h
      · simp at h
      · rename_i vs' hvs
        simp at h; subst h
        obtain ⟨h1, h2, h3⟩ := ih hvs
        refine ⟨by simp [h1], ?_, ?_⟩
        · intro d' hd
          simp only [List.mem_cons] at hd
          rcases hd with rfl | hd
          · exact ⟨v, by simp, hv⟩
          · obtain ⟨w, hw, hw'⟩ := h2 d' hd; exact ⟨w, by simp [hw], hw'⟩
        · intro w hw
          simp only [List.mem_cons] at hw
          rcases hw with rfl | hw
          · exact ⟨d, by simp, hv⟩
          · obtain ⟨d', hd, hd'⟩ := h3 w hw; exact ⟨d', by simp [hd], hd'⟩

/-- The three ways the length check of `CreateLoop` can end. -/
theorem createLoopCheck_cases (b : Block) (ns : List Str) :
    (∃ e, b.createLoopCheck ns = (b, .error e) ∧ ¬ ((∀ d ∈ ns, ∃ v, b.getItem d = .ok v ∧ v.isColumn = false))) ∨
    (b.createLoopCheck ns = (b, .ok ()) ∧ ∃ len, ∀ d ∈ ns, ∃ l, b.getItem d = .ok (.list l) ∧ l.length = len) ∨
    (ns ≠ [] ∧ b.createLoopCheck ns = b.wrapAll ns ∧ ∀ d ∈ ns, ∃ v, b.getItem d = .ok v ∧ v.isColumn = false) := by
  unfold createLoopCheck
  cases hg : b.getAll ns with
  | error e =>
    left
    refine ⟨e, rfl, ?_⟩
    intro h
    have : ∀ l : List Str, (∀ d ∈ l, ∃ v, b.getItem d = .ok v ∧ v.isColumn = false) → ∀ e, b.getAll l ≠ .error e := by
      intro l
      induction l with
      | nil => intro _ e; simp [getAll]
      | cons d ds ih =>
        intro hl e
        obtain ⟨v, hv, _⟩ := hl d (by simp)
        unfold getAll
        simp only [hv]
        split
        · rename_i e' h'; exact absurd h' (ih (fun x hx => hl x (by simp [hx])) e')
        · simp
    exact this ns h e hg
  | ok vs =>
    obtain ⟨h1, h2, h3⟩ := getAll_ok hg
    simp only
    split
    · rename_i hl
      have hall : ∀ v ∈ vs, v.isColumn = true := by
        have : (vs.filter PyVal.isColumn).length = vs.length := by rw [hl, h1]
        rw [List.length_filter_eq_length_iff] at this
        exact this
      split
      · rename_i hc
        left
        refine ⟨_, rfl, ?_⟩
        intro h
        have hne : ns ≠ [] := by
          rintro rfl; simp at h1; subst h1; simp at hc
        obtain ⟨d, hd⟩ := List.exists_mem_of_ne_nil ns hne
        obtain ⟨v, hv, hv'⟩ := h2 d hd
        obtain ⟨w, hw, hw'⟩ := h d hd
        rw [hv'] at hw; simp at hw; subst hw
        rw [hall v hv] at hw'; simp at hw'
      · rename_i hc
        right; left
        refine ⟨rfl, ?_⟩
        cases vs with
        | nil =>
          refine ⟨0, ?_⟩
          simp at h1; rw [List.length_eq_zero_iff.mp h1.symm]; simp
        | cons v0 vs =>
          refine ⟨colLen v0, ?_⟩
          intro d hd
          obtain ⟨v, hv, hv'⟩ := h2 d hd
          have hcol := hall v hv
          cases v with
          | list l =>
            refine ⟨l, hv', ?_⟩
            have := hc
            simp only [List.any_eq_true, not_exists, not_and, decide_eq_true_eq] at this
            have := this (colLen v0) (List.mem_map.mpr ⟨v0, by simp, rfl⟩) (l.length)
              (List.mem_map.mpr ⟨.list l, hv, rfl⟩)
            simpa using this
          | none => simp [PyVal.isColumn] at hcol
          | str => simp [PyVal.isColumn] at hcol
          | num => simp [PyVal.isColumn] at hcol
          | slist => simp [PyVal.isColumn] at hcol
          | sdict => simp [PyVal.isColumn] at hcol
    · rename_i hl
      have hne : ns ≠ [] := by rintro rfl; simp at h1; subst h1; simp at hl
      split
      · rename_i hc
        left
        refine ⟨_, rfl, ?_⟩
        intro h
        apply hc
        rw [List.length_eq_zero_iff, List.filter_eq_nil_iff]
        intro v hv
        obtain ⟨d, hd, hd'⟩ := h3 v hv
        obtain ⟨w, hw, hw'⟩ := h d hd
        rw [hd'] at hw; simp at hw; subst hw; simp [hw']
      · rename_i hc
        right; right
        refine ⟨hne, rfl, ?_⟩
        intro d hd
        obtain ⟨v, hv, hv'⟩ := h2 d hd
        refine ⟨v, hv', ?_⟩
        have hc : (vs.filter PyVal.isColumn) = [] := by
          have : ¬ ¬ (vs.filter PyVal.isColumn).length = 0 := hc
          exact List.length_eq_zero_iff.mp (Classical.not_not.mp this)
        rw [List.filter_eq_nil_iff] at hc
        simpa using hc v hv

theorem makeLoop_ok {b : Block} (hw : WF b) (ns : List Str) (o : Int) : (b.makeLoop ns o).2 = .ok () ∧
    (b.makeLoop ns o).1.block = b.block := by
  rw [makeLoop_eq hw]; exact ⟨rfl, rfl⟩

theorem val_congr {b b' : Block} (h : b'.block = b.block) : b'.val = b.val := by
  funext x; simp [val, h]

theorem addLoopName_block (b : Block) (o n : Str) : (b.addLoopName o n).1.block = b.block := by
  rcases addLoopName_cases b o n with ⟨r, h⟩ | ⟨n', l, nv, _, _, _, _, _, h⟩ <;> rw [h]

theorem changeItemOrder_block {b : Block} (hw : WF b) (r : Ref) (p : Int) : (b.changeItemOrder r p).1.block = b.block := by
  rcases changeItemOrder_cases hw r p with ⟨e, h⟩ | ⟨s, _, h1, h⟩ | ⟨s, n, l, _, h1, h2, h⟩ <;> rw [h]

theorem removeItem_block {b : Block} (hw : WF b) (k : Str) : (b.removeItem k).2 = .ok () ∧
    (b.removeItem k).1.block = ddel b.block (lower k) := by
  rw [removeItem_eq hw]
  refine ⟨rfl, ?_⟩
  by_cases hk : lower k ∈ b.keys
  · simp only [hk, if_true]
    cases hf : b.findLoop k with
    | none => rfl
    | some n =>
      obtain ⟨l, h1, h2⟩ := findLoop_some' hw hf
      simp only [h1]
      split <;> rfl
  · simp only [hk, if_false]
    symm
    unfold ddel
    rw [List.filter_eq_self]
    intro p hp
    simp only [ne_eq, decide_not, Bool.not_eq_eq_eq_not, Bool.not_true, decide_eq_false_iff_not]
    intro e
    rw [← e] at hk
    exact hk (mem_dkeys (v := p.2) hp)

theorem val_removeItem {b : Block} (hw : WF b) (k x : Str) :
    (b.removeItem k).1.val x = if x = lower k then none else b.val x := by
  unfold val
  rw [(removeItem_block hw k).2, dget_ddel]
  by_cases e : x = lower k
  · rw [if_pos e.symm, if_pos e]; rfl
  · rw [if_neg (fun h => e h.symm), if_neg e]

end Block
end Verif
