import Verif.Props.Ddl2
/-! Cases for C83, and a dictionary whose links are not completed. -/
namespace Verif.Ddl2
open CifDic Validate
attribute [local instance] asciiFold

/-- A category and two items; the second is a child of the first, and says so. -/
def linkFrames : List (String × List (String × String)) :=
  [("ATOM", [("_category.id", "ATOM")]),
   ("_atom.id", [("_item.name", "_Atom.Id"), ("_item.category_id", "atom")]),
   ("_bond.id", [("_item.name", "_bond.id"), ("_item_linked.parent_name", "_atom.id"), ("_item_linked.child_name", "_bond.id")])]

/-- The same with an alias. -/
def aliasFrames : List (String × List (String × String)) :=
  [("_atom.id", [("_item.name", "_Atom.Id"), ("_item_aliases.alias_name", "_atom_id")])]

def linkColl : Coll := frames linkFrames
def aliasColl : Coll := frames aliasFrames

theorem linkColl_consistent : linkColl.Consistent := by
  apply Coll.reachable_consistent
  unfold linkColl frames linkFrames
  simp only [List.map_cons, List.map_nil, Coll.run]
  refine .step _ (.step _ (.step _ (.step _ (.start _ _ _) ?_) ?_) ?_) ?_ <;> refine ⟨?_, fun h => ?_⟩
  all_goals first
    | (exact absurd h (by decide +kernel))
    | (intro q hq; cases hq; done)
    | (intro q hq; injection hq with hq; subst hq; decide +kernel)

theorem aliasColl_consistent : aliasColl.Consistent := by
  apply Coll.reachable_consistent
  unfold aliasColl frames aliasFrames
  simp only [List.map_cons, List.map_nil, Coll.run]
  refine .step _ (.step _ (.start _ _ _) ?_) ?_ <;> refine ⟨?_, fun h => ?_⟩
  all_goals first
    | (exact absurd h (by decide +kernel))
    | (intro q hq; cases hq; done)
    | (intro q hq; injection hq with hq; subst hq; decide +kernel)

/-- A test that identifiers differ. -/
def apart (c : Coll) : Bool :=
  c.keys.all fun k => c.keys.all fun k' => decide (lower (idOf c .ddl2 k) = lower (idOf c .ddl2 k') → k = k')

theorem apart_spec {c : Coll} (ht : Texts c .ddl2) (h : apart c = true) :
    ∀ k k' s s', Names c .ddl2 k s → Names c .ddl2 k' s' → lower s = lower s' → k = k' := by
  intro k k' s s' hk hk' e
  obtain ⟨_, _, _, e1⟩ := idOf_spec ht hk.1
  obtain ⟨_, _, _, e2⟩ := idOf_spec ht hk'.1
  rw [(e1 s).1 hk, (e2 s').1 hk'] at e
  exact of_decide_eq_true (List.all_eq_true.1 (List.all_eq_true.1 h k hk.1) k' hk'.1) e

theorem lacks {c : Coll} {l : List Str} {a : Str} (h : (l.all fun k => match c.getItem k with
    | .ok b => !b.contains a
    | .error _ => true) = true) : ∀ k ∈ l, ∀ b, c.getItem k = .ok b → b.contains a = false := by
  intro k hk b hb
  have := List.all_eq_true.1 h k hk
  rw [hb] at this
  simpa using this

/-- A dictionary with the hypotheses of `C83_opened_partial`, and what it says of it. -/
example : ∃ d, load linkColl = .ok d ∧ d.contains "_ATOM.ID".toList = true := by
  have ht : Texts linkColl .ddl2 := texts_of_check (by decide +kernel)
  obtain ⟨d, h1, _, _, _, h2⟩ := C83_opened_partial linkColl_consistent ht (apart_spec ht (by decide +kernel))
    (lacks (by decide +kernel))
  have hk : Names linkColl .ddl2 "_atom.id".toList "_Atom.Id".toList := by
    obtain ⟨_, _, _, e⟩ := idOf_spec (k := "_atom.id".toList) ht (by decide +kernel)
    exact (e _).2 (by decide +kernel)
  obtain ⟨b, _, _, h3⟩ := h2 _ _ hk (fun h => absurd h.2 (by decide +kernel)) "_ATOM.ID".toList (by decide +kernel)
  exact ⟨d, h1, h3⟩

/-- A dictionary with the hypotheses of `C83_aliases_fails`. -/
example : ∃ e, load aliasColl = .error e := by
  have ht : Texts aliasColl .ddl2 := texts_of_check (by decide +kernel)
  have hk : Names aliasColl .ddl2 "_atom.id".toList "_Atom.Id".toList := by
    obtain ⟨_, _, _, e⟩ := idOf_spec (k := "_atom.id".toList) ht (by decide +kernel)
    exact (e _).2 (by decide +kernel)
  obtain ⟨_, b, hb, _⟩ := id hk
  have hv : Has b aliasAttr (.str "_atom_id".toList) := by
    have h : (match aliasColl.getItem "_atom.id".toList with
      | .ok b => decide (b.contains aliasAttr = true ∧ b.getItem aliasAttr = .ok (.str "_atom_id".toList))
      | .error _ => false) = true := by decide +kernel
    rw [hb] at h
    have h' := of_decide_eq_true h
    exact h'
  exact C83_aliases_fails aliasColl_consistent (by decide +kernel) ht (apart_spec ht (by decide +kernel)) (lacks (by decide +kernel))
    hk (fun h => absurd h.2 (by decide +kernel)) hb hv (.inl ⟨_, rfl⟩)

/-- A definition with the hypotheses of `C83_listed_fails`. -/
def listedColl : Coll :=
  Coll.run { scoping := .dictionary, standard := some "Dic".toList }
    [.new "Demo".toList {} true none,
     .new "x".toList (({} : Block).addItem "_item.name".toList (.list [.str "_a.x".toList, .str "_b.x".toList])).1 true (some "Demo".toList)]

example : ∃ e, load listedColl = .error e := by
  have h : (match listedColl.getItem "x".toList with
    | .ok b => decide (b.contains "_category.id".toList = false ∧ b.contains itemAttr = true ∧
        b.getItem itemAttr = .ok (.list [.str "_a.x".toList, .str "_b.x".toList]))
    | .error _ => false) = true := by decide +kernel
  cases hb : listedColl.getItem "x".toList with
  | error e => rw [hb] at h; cases h
  | ok b =>
    rw [hb] at h
    have h' := of_decide_eq_true h
    exact C83_listed_fails (by decide +kernel) hb h'.1 ⟨h'.2.1, h'.2.2⟩

/-- C83 fails for links: the child names its parent, but the definition of the parent does not get to know the child. -/
theorem C83_links_fails : (match load linkColl with
    | .ok d => match d.getItem "_bond.id".toList, d.getItem "_atom.id".toList with
      | .ok b, .ok a => decide (b.getItem "_item_linked.parent_name".toList = .ok (.str "_atom.id".toList) ∧
          a.contains "_item_linked.child_name".toList = false)
      | _, _ => false
    | .error _ => false) = true := by
  decide +kernel

/-- A category that lists its items, and those that are defined elsewhere get their categories. -/
def groupColl : Coll :=
  Coll.run { scoping := .dictionary, standard := some "Dic".toList }
    [.new "Demo".toList {} true none,
     .new "c".toList ((((({} : Block).addItem "_category.id".toList (.str "c".toList)).1.addItem "_item.name".toList
       (.list [.str "c".toList, .str "_c.x".toList])).1.addItem "_item.category_id".toList (.list [.str "p".toList, .str "q".toList])).1.addItem
       "_item.mandatory_code".toList (.list [.str "yes".toList, .str "no".toList])).1 true (some "Demo".toList),
     .new "y".toList (itemsBlock [("_item.name", "_c.x")]) true (some "Demo".toList)]

example : (match load groupColl with
    | .ok d => match d.getItem "_C.X".toList with
      | .ok b => decide (b.getItem "_item.category_id".toList = .ok (.str "q".toList))
      | _ => false
    | .error _ => false) = true := by
  decide +kernel

end Verif.Ddl2
