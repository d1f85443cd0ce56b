import Verif.Props.SemPacket
/-! # C80, C81, C82: cases -/
namespace Verif.SemPacket
open Block Validate
local instance : CaseFold := asciiFold
open Derive (txt defs)

/-- Atoms, and displacements of one of them. -/
def atoms : Block := ({} : Block).run
  [.add "_a.id".toList (.list [txt "C1", txt "C2"]) false, .add "_a.x".toList (.list [txt "1", txt "2"]) false,
   .createLoop ["_a.id".toList, "_a.x".toList] (-1) true,
   .add "_b.id".toList (.list [txt "c2"]) false, .add "_b.u".toList (.list [txt "9"]) false, .createLoop ["_b.id".toList, "_b.u".toList] (-1) true]

theorem atoms_reachable : Reachable atoms := by
  unfold atoms
  refine .step _ _ (.step _ _ (.step _ _ (.step _ _ (.step _ _ (.step _ _ (.fresh _ ⟨rfl, rfl, rfl, rfl⟩) ?_) ?_) ?_) ?_) ?_) ?_
  · show _ ≠ _; decide +kernel
  · show _ ≠ _; decide +kernel
  · exact ⟨by decide +kernel, Or.inl rfl⟩
  · show _ ≠ _; decide +kernel
  · show _ ≠ _; decide +kernel
  · exact ⟨by decide +kernel, Or.inl rfl⟩

/-- Reading changes nothing; `_a.m` can be derived. -/
def atomHost (contents : String) : Host Block where
  block := id
  read := fun k b => (b, b.getItem k)
  derive := fun k b => if k = "_a.m".toList
    then (b.run [.add "_a.m".toList (.list [txt "m1", txt "m2"]) false, .addLoopName "_a.id".toList "_a.m".toList], .ok (.list [txt "m1", txt "m2"]))
    else (b, .error .failure)
  dic := defs [("_a.id", [("_type.contents", txt contents)])]
  keys := [("a".toList, [[txt "_a.id"], [txt "_b.id"]]), ("b".toList, [[txt "_b.id"]])]
  equivs := [("_b.id".toList, ["_a.id".toList])]

/-- The columns of the atoms. -/
def colsOf (b : Block) (d : Str) : List PyVal := match b.getItem d with
  | .ok (.list l) => l
  | _ => []

theorem atoms_a (c : String) : Table (atomHost c) atoms ["_a.id".toList, "_a.x".toList] (colsOf atoms) 2 := by
  refine ⟨atoms_reachable, ⟨1, show dget atoms.loops 1 = some ["_a.id".toList, "_a.x".toList] by decide +kernel⟩, ?_, by decide +kernel⟩
  intro d hd
  show (atoms, atoms.getItem d) = _
  simp only [List.mem_cons, List.not_mem_nil, or_false] at hd
  rcases hd with rfl | rfl <;> exact congrArg (Prod.mk atoms) (by decide +kernel)

theorem atoms_b (c : String) : Table (atomHost c) atoms ["_b.id".toList, "_b.u".toList] (colsOf atoms) 1 := by
  refine ⟨atoms_reachable, ⟨2, show dget atoms.loops 2 = some ["_b.id".toList, "_b.u".toList] by decide +kernel⟩, ?_, by decide +kernel⟩
  intro d hd
  show (atoms, atoms.getItem d) = _
  simp only [List.mem_cons, List.not_mem_nil, or_false] at hd
  rcases hd with rfl | rfl <;> exact congrArg (Prod.mk atoms) (by decide +kernel)

theorem id_a : colsOf atoms (lower "_A.id".toList) = [txt "C1", txt "C2"] := by decide +kernel
theorem id_b : colsOf atoms (lower "_b.id".toList) = [txt "c2"] := by decide +kernel

theorem two_same {x y v : PyVal} {i j : Nat} {z : PyVal} (h1 : ¬ Same true x v) (h : ([x, y] : List PyVal)[j]? = some z) (hz : Same true z v) (hi : i = 1) : j = i := by
  match j with
  | 0 => simp at h; subst h; exact absurd hz h1
  | 1 => exact hi.symm
  | j + 2 => simp at h

theorem same_txt {s t : String} : Same true (txt s) (txt t) ↔ lower s.toList = lower t.toList := by
  simp [Same, txt]

/-- The row of the atoms. -/
theorem row_a : TheRow (atomHost "Code") atoms "_a.id".toList (txt "c2") true [("_a.id".toList, txt "C2"), ("_a.x".toList, txt "2")] := by
  refine ⟨_, _, _, 1, atoms_a _, by decide +kernel, ?_, ?_, ?_, by decide +kernel, ?_⟩
  · intro _ x hx
    rw [show colsOf atoms (lower "_a.id".toList) = [txt "C1", txt "C2"] by decide +kernel] at hx
    simp only [List.mem_cons, List.not_mem_nil, or_false] at hx
    rcases hx with rfl | rfl | rfl <;> exact ⟨_, rfl⟩
  · exact ⟨txt "C2", by decide +kernel, same_txt.2 (by decide +kernel)⟩
  · intro j x hx hs
    rw [show colsOf atoms (lower "_a.id".toList) = [txt "C1", txt "C2"] by decide +kernel] at hx
    exact two_same (fun h => absurd (same_txt.1 h) (by decide +kernel)) hx hs rfl
  · intro d x hx
    simp only [List.mem_cons, Prod.mk.injEq, List.not_mem_nil, or_false] at hx
    rcases hx with ⟨rfl, rfl⟩ | ⟨rfl, rfl⟩ <;> decide +kernel

/-- The row of the displacements. -/
theorem row_b : TheRow (atomHost "Code") atoms "_b.id".toList (txt "c2") true [("_b.id".toList, txt "c2"), ("_b.u".toList, txt "9")] := by
  refine ⟨_, _, _, 0, atoms_b _, by decide +kernel, ?_, ?_, ?_, by decide +kernel, ?_⟩
  · intro _ x hx
    rw [id_b] at hx
    simp only [List.mem_cons, List.not_mem_nil, or_false] at hx
    rcases hx with rfl | rfl <;> exact ⟨_, rfl⟩
  · exact ⟨txt "c2", by decide +kernel, same_txt.2 (by decide +kernel)⟩
  · intro j x hx _
    rw [id_b] at hx
    match j with
    | 0 => rfl
    | j + 1 => simp at hx
  · intro d x hx
    simp only [List.mem_cons, Prod.mk.injEq, List.not_mem_nil, or_false] at hx
    rcases hx with ⟨rfl, rfl⟩ | ⟨rfl, rfl⟩ <;> decide +kernel

theorem plain_name {d : Str} (h : mergeable d = .ok true) : PlainName d := by
  match d with
  | [] => cases h
  | [c] =>
    unfold mergeable at h
    split at h <;> simp_all
  | '_' :: c :: t => exact ⟨c, t, rfl, by simpa [mergeable] using h⟩
  | a :: c :: t =>
    unfold mergeable at h
    split at h
    · simp_all
    · simp_all
    · rename_i h1; cases h1; exact ⟨_, _, rfl, by simpa using h⟩
    · simp_all

/-- `C80_packet_partial`: one atom with its displacements, found without regard to case. -/
example : ∃ q, keyedSemantic (atomHost "Code") (txt "c2") "a".toList atoms = (atoms, .ok q) ∧
    q.packet.vals = [txt "C2", txt "2", txt "c2", txt "9"] ∧ attrOf (atomHost "Code") q "_b.U".toList atoms = (atoms, .ok (txt "9")) := by
  obtain ⟨q, h1, h2, h3, _⟩ := C80_packet_partial (h := atomHost "Code") (v := txt "c2") (cat := "a".toList) (k0 := "_a.id".toList) (ks := ["_b.id".toList])
    (c := txt "Code") (nc := true) (s := atoms) (s' := atoms) (by rfl) (by decide +kernel) (by decide +kernel) (by simp [Caseless, txt])
    (.row row_a (.row row_b .done)) (by simp) (by
      intro r hr d hd
      simp only [List.mem_cons, List.not_mem_nil, or_false] at hr
      rcases hr with rfl | rfl <;> simp only [List.map_cons, List.map_nil, List.mem_cons, List.not_mem_nil, or_false] at hd <;>
        rcases hd with rfl | rfl <;> exact plain_name (by decide +kernel))
  exact ⟨q, h1, by rw [h2]; rfl, h3 "_b.U".toList (txt "9") ⟨[_], _, [], rfl, by decide +kernel, by simp⟩ atoms⟩

theorem no_a : NotOneRow (atomHost "Code") atoms "_a.id".toList (txt "x") true := by
  refine ⟨_, _, _, atoms_a _, by decide +kernel, ?_, ?_⟩
  · intro _ x hx
    rw [show colsOf atoms (lower "_a.id".toList) = [txt "C1", txt "C2"] by decide +kernel] at hx
    simp only [List.mem_cons, List.not_mem_nil, or_false] at hx
    rcases hx with rfl | rfl | rfl <;> exact ⟨_, rfl⟩
  · rintro ⟨i, ⟨x, hx, hs⟩, _⟩
    rw [show colsOf atoms (lower "_a.id".toList) = [txt "C1", txt "C2"] by decide +kernel] at hx
    have := List.mem_of_getElem? hx
    simp only [List.mem_cons, List.not_mem_nil, or_false] at this
    rcases this with rfl | rfl <;> exact absurd (same_txt.1 hs) (by decide +kernel)

theorem no_b : NotOneRow (atomHost "Code") atoms "_b.id".toList (txt "x") true := by
  refine ⟨_, _, _, atoms_b _, by decide +kernel, ?_, ?_⟩
  · intro _ x hx
    rw [id_b] at hx
    simp only [List.mem_cons, List.not_mem_nil, or_false] at hx
    rcases hx with rfl | rfl <;> exact ⟨_, rfl⟩
  · rintro ⟨i, ⟨x, hx, hs⟩, _⟩
    rw [id_b] at hx
    have := List.mem_of_getElem? hx
    simp only [List.mem_cons, List.not_mem_nil, or_false] at this
    subst this
    exact absurd (same_txt.1 hs) (by decide +kernel)

/-- `C80_none`: there is no such atom. -/
example : keyedSemantic (atomHost "Code") (txt "x") "a".toList atoms = (atoms, .error .value) :=
  C80_none (k0 := "_a.id".toList) (ks := ["_b.id".toList]) (c := txt "Code") (nc := true) (by rfl) (by decide +kernel) (by decide +kernel)
    (by simp [Caseless, txt]) (.skip no_a (.skip no_b .done))

/-- A host whose key `_b.id` is in no loop and is read as `None`. -/
def noneHost (keys : List String) : Host Block :=
  { atomHost "Code" with
    read := fun k b => if k = "_b.id".toList then (b, .ok .none) else (b, b.getItem k)
    keys := [("a".toList, keys.map fun k => [txt k])] }

/-- The block without the loop of the displacements. -/
def bare : Block := atoms.run [.remove "_b.id".toList, .remove "_b.u".toList]

/-- Where C80 fails: the key of a nested category that is generated as `None` has no row, but the row before it is added once more ... -/
theorem C80_again_fails : (match keyedSemantic (noneHost ["_a.id", "_b.id"]) (txt "c2") "a".toList bare with
    | (_, .ok q) => decide (q.packet.vals = [txt "C2", txt "2", txt "C2", txt "2"])
    | _ => false) = true := by decide +kernel

/-- ... and if there is none before it `UnboundLocalError` is raised although the next key has a row. -/
theorem C80_unbound_fails :
    (keyedSemantic { noneHost ["_b.id", "_a.id"] with dic := defs [("_b.id", [("_type.contents", txt "Code")])] } (txt "c2") "a".toList bare).2 = .error .unbound ∧
    keyedPacket (noneHost []) "_a.id".toList (txt "c2") true bare = (bare, .ok { vals := [txt "C2", txt "2"], attrs := [("_a.id".toList, txt "C2"), ("_a.x".toList, txt "2")] }) := by
  decide +kernel

/-- A loop with a name that begins with two underscores. -/
def scored : Block := ({} : Block).run [.add "_a.id".toList (.list [txt "C1"]) false, .add "__x".toList (.list [txt "1"]) false,
  .createLoop ["_a.id".toList, "__x".toList] (-1) true]

/-- Where C80 fails: items whose names begin with two underscores are values of the packet but no attributes. -/
theorem C80_underscores_fails : (match keyedSemantic (atomHost "Code") (txt "C1") "a".toList scored with
    | (s, .ok q) => decide (q.packet.vals = [txt "C1", txt "1"] ∧ (attrOf (atomHost "Code") q "__x".toList s).2 = .error .failure)
    | _ => false) = true := by decide +kernel

/-! ## C81 -/

/-- The packet of the second atom. -/
def atomPacket : SemPacket := { packet := { vals := [txt "C2"], attrs := [("_a.id".toList, txt "C2")] }, key := ["_a.id".toList] }

/-- The block once the masses are derived. -/
def massive : Block := ((atomHost "Code").derive "_a.m".toList atoms).1

theorem massive_reachable : Reachable massive := by
  show Reachable (atoms.run [.add "_a.m".toList (.list [txt "m1", txt "m2"]) false, .addLoopName "_a.id".toList "_a.m".toList])
  refine .step _ _ (.step _ _ atoms_reachable ?_) ?_
  · show _ ≠ _; decide +kernel
  · trivial

/-- `C81_derived_partial`: the mass of the second atom. -/
example : attrOf (atomHost "Code") atomPacket "_a.m".toList atoms = (massive, .ok (txt "m2")) := by
  have hT : Table (atomHost "Code") massive ["_a.id".toList, "_a.x".toList, "_a.m".toList] (colsOf massive) 2 := by
    refine ⟨massive_reachable, ⟨1, by decide +kernel⟩, ?_, by decide +kernel⟩
    intro d hd
    show (massive, massive.getItem d) = _
    simp only [List.mem_cons, List.not_mem_nil, or_false] at hd
    rcases hd with rfl | rfl | rfl <;> exact congrArg (Prod.mk massive) (by decide +kernel)
  have hid : colsOf massive (lower "_a.id".toList) = [txt "C1", txt "C2"] := by decide +kernel
  obtain ⟨x, h1, h2⟩ := C81_derived_partial (h := atomHost "Code") (q := atomPacket) (name := "_a.m".toList) (kv := fun _ => txt "C2") (s := atoms) (s1 := massive)
    (v := .list [txt "m1", txt "m2"]) (e := .attribute) (names := ["_a.id".toList, "_a.x".toList, "_a.m".toList]) (cols := colsOf massive) (len := 2) (i := 1)
    (by decide +kernel) (by decide) rfl (by decide +kernel) (by decide +kernel)
    ⟨hT, by simp [atomPacket], by decide +kernel, by
      intro e he _ x hx
      simp only [atomPacket, List.map_cons, List.map_nil, List.mem_singleton] at he
      subst he
      simp only at hx
      rw [hid] at hx
      simp only [List.mem_cons, List.not_mem_nil, or_false] at hx
      rcases hx with rfl | rfl | rfl <;> exact ⟨_, .str _⟩⟩ (by decide +kernel)
    (by
      intro e he
      simp only [atomPacket, List.map_cons, List.map_nil, List.mem_singleton] at he
      subst he
      exact ⟨txt "C2", by decide +kernel, .inr ⟨rfl, _, _, .str _, .str _, rfl⟩⟩)
    (by
      intro j hj
      obtain ⟨x, hx, hs⟩ := hj ("_a.id".toList, txt "C2", true) (by simp [atomPacket])
      simp only at hx hs
      rw [hid] at hx
      rcases hs with ⟨h, _⟩ | ⟨_, s, t, h1, h2, h3⟩
      · cases h
      · match j with
        | 0 =>
          simp at hx
          subst hx
          generalize hz : txt "C1" = z at h1
          generalize hz' : txt "C2" = z' at h2
          cases h1 <;> cases hz
          cases h2 <;> cases hz'
          exact absurd h3 (by decide +kernel)
        | 1 => rfl
        | j + 2 => simp at hx)
  have hx : x = txt "m2" := by
    have : (colsOf massive (lower "_a.m".toList))[1]? = some (txt "m2") := by decide +kernel
    rw [this] at h1
    injection h1 with h1
    exact h1.symm
  rw [h2, hx]

/-- `C81_underivable`. -/
example : attrOf (atomHost "Code") atomPacket "_a.z".toList atoms = (atoms, .error .failure) :=
  C81_underivable (e := .attribute) (by decide +kernel) (by decide) rfl

/-- Atoms that differ only in case. -/
def twins : Block := ({} : Block).run [.add "_a.id".toList (.list [txt "CA", txt "Ca"]) false, .createLoop ["_a.id".toList] (-1) true]

/-- Where C81 fails: keys are compared without regard to case here whatever their type, so that an attribute of a packet, itself found by its key,
raises `ValueError` once it is derived. -/
theorem C81_caseless_fails : (match keyedSemantic (atomHost "Text") (txt "Ca") "a".toList twins with
    | (s, .ok q) => decide (q.packet.vals = [txt "Ca"] ∧ (attrOf (atomHost "Text") q "_a.m".toList s).2 = .error .value ∧
        ((atomHost "Text").derive "_a.m".toList s).2 = .ok (.list [txt "m1", txt "m2"]))
    | _ => false) = true := by decide +kernel

/-! ## C82 -/

theorem stands_a : StandsFor (atomHost "Code") atoms "_a.id".toList "_a.id".toList :=
  ⟨[], [], .inr ⟨by decide +kernel, rfl⟩, by decide +kernel, by simp⟩

theorem stands_b : StandsFor (atomHost "Code") atoms "_b.id".toList "_a.id".toList :=
  ⟨[], ["_b.id".toList], .inl ⟨["_a.id".toList], by decide +kernel, rfl⟩, by decide +kernel, by simp⟩

theorem keyed_a (v : PyVal) : KeyedTable (atomHost "Code") atoms [("_a.id".toList, v, false)] ["_a.id".toList, "_a.x".toList] (colsOf atoms) 2 :=
  ⟨atoms_a _, by simp, by
    intro e he
    rw [List.mem_singleton.1 he]
    show lower "_a.id".toList ∈ _
    decide +kernel, by
    intro e he h
    rw [List.mem_singleton.1 he] at h
    cases h⟩

theorem hit_a {v : PyVal} {j : Nat} (h : Hit (colsOf atoms) [("_a.id".toList, v, false)] j) : (j = 0 ∧ v = txt "C1") ∨ (j = 1 ∧ v = txt "C2") := by
  obtain ⟨x, hx, hs⟩ := h _ (List.mem_singleton.2 rfl)
  simp only at hx hs
  rw [show colsOf atoms (lower "_a.id".toList) = [txt "C1", txt "C2"] by decide +kernel] at hx
  have : x = v := by
    rcases hs with ⟨_, h⟩ | ⟨h, _⟩
    · exact h
    · cases h
  subst this
  match j with
  | 0 => exact .inl ⟨rfl, by simpa using hx.symm⟩
  | 1 => exact .inr ⟨rfl, by simpa using hx.symm⟩
  | j + 2 => simp at hx

/-- `C82_packet_partial`: category `b` is given by its key, which stands for that of the atoms. -/
example : ∃ q, multiSemantic (atomHost "Code") [("_b.id".toList, txt "C2", false)] "b".toList atoms = (atoms, .ok q) ∧
    q.packet.vals = [txt "C2", txt "2"] ∧ q.key = ["_a.id".toList] := by
  obtain ⟨q, h1, h2, h3, _⟩ := C82_packet_partial (h := atomHost "Code") (kd := [("_b.id".toList, txt "C2", false)]) (cat := "b".toList) (ks := ["_b.id".toList])
    (t := fun _ => "_a.id".toList) (w := fun _ => (txt "C2", false)) (s := atoms) (i := 1) (row := [("_a.id".toList, txt "C2"), ("_a.x".toList, txt "2")])
    (by decide +kernel) (by intro k hk; rw [List.mem_singleton.1 hk]; exact stands_b) (by decide +kernel)
    (by decide +kernel) (keyed_a _)
    (by
      intro e he
      rw [List.map_singleton, List.mem_singleton] at he
      subst he
      exact ⟨txt "C2", by decide +kernel, .inl ⟨rfl, rfl⟩⟩)
    (by
      intro j hj
      rcases hit_a hj with ⟨_, h⟩ | ⟨h, _⟩
      · exact absurd h (by decide)
      · exact h)
    (by
      refine ⟨by decide +kernel, ?_⟩
      intro d x hx
      simp only [List.mem_cons, Prod.mk.injEq, List.not_mem_nil, or_false] at hx
      rcases hx with ⟨rfl, rfl⟩ | ⟨rfl, rfl⟩ <;> decide +kernel)
    (by
      intro d hd
      simp only [List.mem_cons, List.not_mem_nil, or_false] at hd
      rcases hd with rfl | rfl <;> exact plain_name (by decide +kernel))
  exact ⟨q, h1, h2, h3⟩

/-- `C82_none_fails`. -/
example : multiSemantic (atomHost "Code") [("_b.id".toList, txt "C3", false)] "b".toList atoms = (atoms, .ok { packet := {}, key := ["_a.id".toList] }) :=
  C82_none_fails (ks := ["_b.id".toList]) (t := fun _ => "_a.id".toList) (w := fun _ => (txt "C3", false)) (by decide +kernel)
    (by intro k hk; rw [List.mem_singleton.1 hk]; exact stands_b) (by decide +kernel) (by decide +kernel) (keyed_a _)
    (by
      rintro ⟨i, hi, _⟩
      rcases hit_a hi with ⟨_, h⟩ | ⟨_, h⟩ <;> exact absurd h (by decide))

/-- `C82_nested_fails`: the atoms with their displacements, asked for by the key of the atoms. -/
example : ∃ e, (multiSemantic (atomHost "Code") [("_a.id".toList, txt "C2", false)] "a".toList atoms).2 = .error e :=
  C82_nested_fails (ks := ["_b.id".toList]) (t := fun _ => "_a.id".toList) (fun _ => rfl) (by rfl) (by decide +kernel)
    (by intro k hk; rw [List.mem_singleton.1 hk]; exact stands_b) (by decide +kernel)

end Verif.SemPacket
