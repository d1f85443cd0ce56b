import Verif.Lemmas.DrelStmtNotes
import Verif.Props.DrelStmtCases
/-! # C73: the dependencies of a method -/
namespace Verif
namespace DrelMeaning
open DrelPy PyText
variable [CaseFold]
set_option linter.unusedSectionVars false

/-- The state in which a method begins. -/
theorem started {d : Dic} {item : Bool} {c n : Str} (hE : EnvOk d.toEnv ('_' :: c ++ '.' :: n)) (hn : '.' ∉ n) (hc : ident ('_' :: c) = true) :
    ∃ st, start d.toEnv item = .ok st ∧ Ready st { atStart d.toEnv item c with dead := [] } ∧ st.depends = [] ∧ st.withtable = [] := by
  cases item with
  | true =>
    obtain ⟨st, h1, h2, h3, h4⟩ := C71_start hE.target hn hc
    have h6 := start_item hE.target hn hc
    rw [h1] at h6
    have h7 := Except.ok.inj h6
    have hids : st.ids = (atStart d.toEnv true c).ids := by
      rw [h7]
      unfold atStart
      rw [if_pos rfl, within_alias d.toEnv _ (fun _ => rfl)]
    refine ⟨st, h1, ⟨h2, h3, h4, ⟨by rw [h7]; rfl, ?_, fun k _ => by rw [hids], by rw [h7]; rfl⟩⟩, by rw [h7]; rfl, by rw [h7]; rfl⟩
    rw [h7]
    exact List.nodup_cons.2 ⟨nofun, List.nodup_nil⟩
  | false =>
    refine ⟨bareSt, ?_, ⟨⟨nofun, nofun⟩, ⟨rfl, rfl, nofun, nofun, List.nodup_nil⟩, rfl, ⟨rfl, List.nodup_nil, fun _ _ => rfl, rfl⟩⟩, rfl, rfl⟩
    unfold start
    rw [hE.target]
    rfl

/-- C73: the names reported for a method are, but for case, those of the data items it refers to other than the item it is for; the item
itself is not reported in lower case; and every item for which there is a variable is reported. Missing: the item itself can be reported
in other case (`C73_itself_fails`); the same item can be reported twice (`C73_twice_fails`); the constructions excluded by `steps`. -/
theorem C73_dependencies_partial {d : Dic} {item : Bool} {c n : Str} {s : Stmt} {sc' : Scope} (hE : EnvOk d.toEnv ('_' :: c ++ '.' :: n)) (hL : DicOk d)
    (hn : '.' ∉ n) (hc : ident ('_' :: c) = true)
    (hs : steps d.toEnv ('_' :: c ++ '.' :: n) s { atStart d.toEnv item c with dead := [] } = some sc')
    (hm : does (loopsOf d) (fun b => fullView d.toEnv ('_' :: c ++ '.' :: n) b.ids b.packets) s (atStart d.toEnv item c) ≠ none) :
    ∃ txt table deps row, translate d item s = .ok (txt, table, deps, row) ∧
      (∀ m, m ≠ lower ('_' :: c ++ '.' :: n) → ((∃ x ∈ deps, lower x = m) ↔
        ∃ x ∈ uses (loopsOf d) (fun b => fullView d.toEnv ('_' :: c ++ '.' :: n) b.ids b.packets) (keysOf d.loopable) s (atStart d.toEnv item c), lower x = m)) ∧
      lower ('_' :: c ++ '.' :: n) ∉ deps ∧
      ∀ k ∈ dkeys table, k ∈ deps := by
  obtain ⟨st, h1, hR, hd, hw⟩ := started (item := item) hE hn hc
  obtain ⟨⟨ss0, b0⟩, h0⟩ := Option.ne_none_iff_exists'.1 hm
  obtain ⟨txt, st', e1, -⟩ := stmt_good hE hL s hR hs h0
  have hN := stmt_notes hE hL s hR hs h0 e1
  refine ⟨txt, st'.withtable, st'.depends.filter (· ≠ lower ('_' :: c ++ '.' :: n)), st'.needRow, ?_, fun m hm => ?_, ?_, fun k hk => ?_⟩
  · unfold translate
    rw [h1]
    dsimp only
    rw [e1, hE.target]
  · have := hN.names m hm
    rw [hd] at this
    simp only [List.not_mem_nil, false_and, exists_false, false_or] at this
    rw [← this]
    constructor
    · rintro ⟨x, hx, rfl⟩
      exact ⟨x, (List.mem_filter.1 hx).1, rfl⟩
    · rintro ⟨x, hx, rfl⟩
      refine ⟨x, List.mem_filter.2 ⟨hx, ?_⟩, rfl⟩
      rw [decide_eq_true_eq]
      rintro rfl
      exact hm (CaseFold.lower_lower _)
  · rw [List.mem_filter]
    rintro ⟨-, h⟩
    simp at h
  · rcases hN.table k hk with h | h
    · rw [hw] at h; cases h
    · exact List.mem_filter.2 ⟨h.1, by simpa using h.2⟩

/-! ## A case that meets the hypotheses, and what is reported for it -/

example : letI := asciiFold
    EnvOk sampleDic.toEnv "_atom_site.u".toList ∧ DicOk sampleDic ∧ '.' ∉ "u".toList ∧ ident "_atom_site".toList = true ∧
    (steps sampleDic.toEnv "_atom_site.u".toList sampleMethod { atStart sampleDic.toEnv true "atom_site".toList with dead := [] }).isSome = true ∧
    (does (loopsOf sampleDic) (fun b => fullView sampleDic.toEnv "_atom_site.u".toList b.ids b.packets) sampleMethod
      (atStart sampleDic.toEnv true "atom_site".toList)).isSome = true ∧
    uses (loopsOf sampleDic) (fun b => fullView sampleDic.toEnv "_atom_site.u".toList b.ids b.packets) (keysOf sampleDic.loopable) sampleMethod
      (atStart sampleDic.toEnv true "atom_site".toList) = ["_cell.a".toList, "_atom_site.B".toList, "_atom_site.U".toList] ∧
    (match translate sampleDic true sampleMethod with
      | .ok (_, _, deps, _) => some deps
      | .error _ => none) = some ["_cell.a".toList, "_atom_site.b".toList] := by
  letI := asciiFold
  exact ⟨sample_env, sample_dic, by decide, by decide, by decide +kernel⟩

example : letI := asciiFold
    (steps sampleDic.toEnv "_atom_site.u".toList sampleLoop { atStart sampleDic.toEnv true "atom_site".toList with dead := [] }).isSome = true ∧
    uses (loopsOf sampleDic) (fun b => fullView sampleDic.toEnv "_atom_site.u".toList b.ids b.packets) (keysOf sampleDic.loopable) sampleLoop
      (atStart sampleDic.toEnv true "atom_site".toList) = ["_atom_site.label".toList, "_atom_site.B".toList, "_atom_site.label".toList,
        "_atom_site.B".toList, "_atom_site.B".toList, "_atom_site.U".toList] ∧
    (match translate sampleDic true sampleLoop with
      | .ok (_, _, deps, _) => some deps
      | .error _ => none) = some ["_atom_site.label".toList, "_atom_site.b".toList] := by
  letI := asciiFold
  decide +kernel

/-! ## What is reported wrongly -/

/-- The dependencies reported for a method. -/
def reported (s : Stmt) : Option (List Str) :=
  letI := asciiFold
  match translate sampleDic true s with
  | .ok (_, _, deps, _) => some deps
  | .error _ => none

/-- `x = atom_site[1]; y = x.u` -/
def ofPacket (o : String) : Stmt :=
  .seq [.assign [.name "x".toList] "=".toList [.sub (.name "atom_site".toList) (.lit "1".toList)],
    .assign [.name "y".toList] "=".toList [.attr (.name "x".toList) o.toList],
    .assign [.name "z".toList] "=".toList [.attr (.tag "_atom_site".toList) o.toList]]

/-- C73 fails for the item itself: taken from a packet, it is reported, in the case in which the dictionary writes it. The method is for
`_atom_site.u`. -/
theorem C73_itself_fails : ∃ deps, reported (ofPacket "u") = some deps ∧ "_atom_site.U".toList ∈ deps ∧
    letI := asciiFold; lower "_atom_site.U".toList = "_atom_site.u".toList :=
  ⟨["_atom_site.label".toList, "_atom_site.U".toList], by decide +kernel⟩

/-- C73 fails for items referred to in two ways: `_atom_site.B` is reported twice. -/
theorem C73_twice_fails : ∃ deps, reported (ofPacket "b") = some deps ∧ "_atom_site.B".toList ∈ deps ∧ "_atom_site.b".toList ∈ deps ∧
    letI := asciiFold; lower "_atom_site.B".toList = lower "_atom_site.b".toList :=
  ⟨["_atom_site.label".toList, "_atom_site.B".toList, "_atom_site.b".toList], by decide +kernel⟩

end DrelMeaning
end Verif
