import Verif.Lemmas.DrelStmtAll
import Verif.Props.DrelPy
/-! # C72: dREL methods are translated to the Python statements they stand for -/
namespace Verif
namespace DrelMeaning
open DrelPy PyText
variable [CaseFold]
set_option linter.unusedSectionVars false

/-- What is bound in a state of the translation, inside loops with the indices `inner`. -/
def boundIn (st : St) (inner : List Str) : Bind :=
  { ids := st.ids, packets := st.packets, known := st.ids.map fun p => (p.1, p.2.cat), inner := inner }

/-- C72: the text made for a statement is read by Python as the statements that are meant. It is made whenever the names in it are
known, and every item of the current packet that is used has a variable of its own. Missing: the constructions excluded by `steps`, for
which the theorems in `Props/DrelStmtCases.lean` show that other texts are made or none. -/
theorem C72_statements_partial {d : Dic} {tg : Str} {st : St} {s : Stmt} {sc' : Scope} {inner : List Str} (hE : EnvOk d.toEnv tg) (hL : DicOk d)
    (hB : BindOk st.ids st.packets) (hst : Inv st.ids st.packets false st) (hsub : st.sub = []) (hnd : (dkeys st.ids).Nodup)
    (hs : steps d.toEnv tg s { boundIn st inner with dead := [] } = some sc')
    (hm : does (loopsOf d) (fun b => fullView d.toEnv tg b.ids b.packets) s (boundIn st inner) ≠ none) :
    ∃ txt st' ss b, stmt d s st = .ok (txt, st') ∧
      does (loopsOf d) (fun b => viewOf d.toEnv tg b.ids b.packets st'.withtable) s (boundIn st inner) = some (ss, b) ∧
      ReadsBlock txt ss ∧ Inv st'.ids st'.packets false st' ∧ b.packets = st'.packets := by
  obtain ⟨⟨ss0, b0⟩, h0⟩ := Option.ne_none_iff_exists'.1 hm
  have hR : Ready st { boundIn st inner with dead := [] } := ⟨hB, hst, hsub, ⟨rfl, hnd, fun _ _ => rfl, rfl⟩⟩
  obtain ⟨txt, st', h1, ss, h2, h3⟩ := stmt_good hE hL s hR hs h0
  exact ⟨txt, st', ss, sc'.toBind, h1, h3.does _ (.refl _), h2.reads, h3.ready.inv, h3.ready.rel.packets.symm⟩

/-- C72: the text made for a method is read by Python as the statements that are meant, where every item of the current packet that is
used has a variable of its own. Missing: as above. -/
theorem C72_method_partial {d : Dic} {item : Bool} {c n : Str} {s : Stmt} {sc' : Scope} (hE : EnvOk d.toEnv ('_' :: c ++ '.' :: n)) (hL : DicOk d)
    (hn : '.' ∉ n) (hc : ident ('_' :: c) = true)
    (hs : steps d.toEnv ('_' :: c ++ '.' :: n) s { atStart d.toEnv item c with dead := [] } = some sc')
    (hm : does (loopsOf d) (fun b => fullView d.toEnv ('_' :: c ++ '.' :: n) b.ids b.packets) s (atStart d.toEnv item c) ≠ none) :
    ∃ txt table deps row ss b, translate d item s = .ok (txt, table, deps, row) ∧
      does (loopsOf d) (fun b => viewOf d.toEnv ('_' :: c ++ '.' :: n) b.ids b.packets table) s (atStart d.toEnv item c) = some (ss, b) ∧
      ReadsBlock txt ss ∧
      ∀ m k v, dget (varsOf table) m = some v → dget (varsOf table) k = some v → m = k := by
  have hstart : ∃ st, start d.toEnv item = .ok st ∧ st.ids = (atStart d.toEnv item c).ids ∧ st.packets = [] ∧
      BindOk st.ids st.packets ∧ Inv st.ids st.packets false st ∧ st.sub = [] ∧ (dkeys st.ids).Nodup := by
    cases item with
    | true =>
      obtain ⟨st, h1, h2, h3, h4⟩ := C71_start hE.target hn hc
      have h5 : st.ids = (atStart d.toEnv true c).ids ∧ st.packets = [] := by
        have h6 := start_item hE.target hn hc
        rw [h1] at h6
        cases h6
        refine ⟨?_, rfl⟩
        unfold atStart
        rw [if_pos rfl, within_alias d.toEnv _ (fun _ => rfl)]
      refine ⟨st, h1, h5.1, h5.2, h2, h3, h4, ?_⟩
      rw [h5.1]
      exact List.nodup_cons.2 ⟨nofun, List.nodup_nil⟩
    | false =>
      refine ⟨bareSt, ?_, rfl, rfl, ⟨nofun, nofun⟩, ⟨rfl, rfl, nofun, nofun, List.nodup_nil⟩, rfl, List.nodup_nil⟩
      unfold start
      rw [hE.target]
      rfl
  obtain ⟨st, h1, h2, h3, h4, h5, h6, h7⟩ := hstart
  have hb : boundIn st [] = atStart d.toEnv item c := by
    unfold boundIn
    rw [h2, h3]
    cases item with
    | true =>
      unfold atStart
      rw [if_pos rfl, within_alias d.toEnv _ (fun _ => rfl)]
      rfl
    | false => rfl
  have hsc : ({ boundIn st [] with dead := [] } : Scope) = { atStart d.toEnv item c with dead := [] } := by rw [hb]
  rw [← hsc] at hs
  rw [← hb] at hm
  obtain ⟨txt, st', ss, b, e1, e2, e3, e4, -⟩ := C72_statements_partial hE hL h4 h5 h6 h7 hs hm
  rw [hb] at e2
  refine ⟨txt, st'.withtable, st'.depends.filter (· ≠ lower ('_' :: c ++ '.' :: n)), st'.needRow, ss, b, ?_, e2, e3, fun m k v hm hk => C71_variables e4 hm hk⟩
  unfold translate
  rw [h1]
  dsimp only
  rw [e1, hE.target]

/-- C72: there is only one way to read a text. -/
theorem C72_unique {s : Str} {ss ts : List PyS} (h : ReadsBlock s ss) (h' : ReadsBlock s ts) : ss = ts := h.unique h'

/-! ## A case that meets the hypotheses -/

def sampleDic : Dic := { sampleEnv with keyOf := [("atom_site".toList, "_atom_site.label".toList)], order := id }

/-- ```
x = 0
For r in [1, 2] { x += r }
With k as cell {
  If (x > 2) y = k.a * x
  Else { Do i = 1, 3 { y = _atom_site.B }
         _atom_site.U = y } }
``` -/
def sampleMethod : Stmt :=
  .seq [.assign [.name "x".toList] "=".toList [.lit "0".toList],
    .for_ ["r".toList] [.list [.lit "1".toList, .lit "2".toList]] (.seq [.assign [.name "x".toList] "+=".toList [.name "r".toList]]),
    .with_ "k".toList "cell".toList (.seq [
      .ite (.op .gt (.name "x".toList) (.lit "2".toList))
        (.seq [.assign [.name "y".toList] "=".toList [.op .mul (.attr (.name "k".toList) "a".toList) (.name "x".toList)]]) []
        [.seq [.do_ "i".toList (.lit "1".toList) (.lit "3".toList) (.lit "1".toList)
            (.seq [.assign [.name "y".toList] "=".toList [.attr (.tag "_atom_site".toList) "B".toList]]),
          .assign [.attr (.tag "_atom_site".toList) "U".toList] "=".toList [.name "y".toList]]]])]

def sampleText : Str :=
  ("x = 0\nfor r in copy(StarList([1,2])):\n    x = drel_runtime.aug_add(x,r)\n    \n" ++
    "if x>2:\n    y = drel_runtime.drel_dot(ciffile[\"_cell.a\"],x)\n    \nelse:\n    for i in range(1,3+1,1):\n" ++
    "        y = __w0\n        \n    __dreltarget = y\n    \n\n").toList

theorem sample_dic : letI := asciiFold; DicOk sampleDic := by
  letI := asciiFold
  refine ⟨fun _ _ h => h, by decide +kernel, by decide +kernel, fun c k h => ?_⟩
  have : ∀ p ∈ sampleDic.keyOf, plain p.2 = true := by decide +kernel
  exact this _ (dget_mem h)

example : letI := asciiFold
    EnvOk sampleDic.toEnv "_atom_site.u".toList ∧ DicOk sampleDic ∧ '.' ∉ "u".toList ∧ ident "_atom_site".toList = true ∧
    (steps sampleDic.toEnv "_atom_site.u".toList sampleMethod { atStart sampleDic.toEnv true "atom_site".toList with dead := [] }).isSome = true ∧
    (does (loopsOf sampleDic) (fun b => fullView sampleDic.toEnv "_atom_site.u".toList b.ids b.packets) sampleMethod
      (atStart sampleDic.toEnv true "atom_site".toList)).isSome = true ∧
    (match translate sampleDic true sampleMethod with
      | .ok (txt, _) => some txt
      | .error _ => none) = some sampleText := by
  letI := asciiFold
  exact ⟨sample_env, sample_dic, by decide, by decide, by decide +kernel⟩

/-- ```
x = 0
Loop s as atom_site { n = s.B
  Loop t as atom_site : j > n { x += s.B * t.B } }
_atom_site.U = x
``` -/
def sampleLoop : Stmt :=
  .seq [.assign [.name "x".toList] "=".toList [.lit "0".toList],
    .loop "s".toList "atom_site".toList [] [] [] (.seq [
      .assign [.name "n".toList] "=".toList [.attr (.name "s".toList) "B".toList],
      .loop "t".toList "atom_site".toList "j".toList ">".toList "n".toList (.seq [
        .assign [.name "x".toList] "+=".toList [.op .mul (.attr (.name "s".toList) "B".toList) (.attr (.name "t".toList) "B".toList)]])]),
    .assign [.attr (.tag "_atom_site".toList) "U".toList] "=".toList [.name "x".toList]]

def loopText : Str :=
  "x = 0\n__pyallitems = {'_atom_site.U', '_atom_site.B'}\nprint('names in cat = %s' % repr(__pyallitems))\n".toList ++
    "__pycitems = [a for a in __pyallitems if ciffile.has_key_or_alias(a)]\nprint('names in cat -> %s' % repr(__pycitems))\n".toList ++
    "if len(__pycitems)==0:\n    __pydummy = ciffile['_atom_site.label']\n".toList ++
    "    __pycitems = [a for a in __pyallitems if ciffile.has_key_or_alias(a)]\n".toList ++
    "    print('After category creation, names in cat ->' + repr(__pycitems))\n\n".toList ++
    "__loop_range2 = range(len(ciffile[__pycitems[0]]))\nfor __pi2 in __loop_range2:\n    n = ciffile[\"_atom_site.b\"][__pi2]\n".toList ++
    "    __pyallitems = {'_atom_site.U', '_atom_site.B'}\n    print('names in cat = %s' % repr(__pyallitems))\n".toList ++
    "    __pycitems = [a for a in __pyallitems if ciffile.has_key_or_alias(a)]\n    print('names in cat -> %s' % repr(__pycitems))\n".toList ++
    "    if len(__pycitems)==0:\n        __pydummy = ciffile['_atom_site.label']\n".toList ++
    "        __pycitems = [a for a in __pyallitems if ciffile.has_key_or_alias(a)]\n".toList ++
    "        print('After category creation, names in cat ->' + repr(__pycitems))\n    \n".toList ++
    "    __loop_range3 = range(len(ciffile[__pycitems[0]]))\n    __loop_range3 = [a for a in __loop_range3 if a > n]\n".toList ++
    "    for j in __loop_range3:\n        x = drel_runtime.aug_add(x,drel_runtime.drel_dot(ciffile[\"_atom_site.b\"][__pi2],".toList ++
    "ciffile[\"_atom_site.b\"][j]))\n        \n    \n__dreltarget = x\n".toList

example : letI := asciiFold
    EnvOk sampleDic.toEnv "_atom_site.u".toList ∧ DicOk sampleDic ∧ '.' ∉ "u".toList ∧ ident "_atom_site".toList = true ∧
    (steps sampleDic.toEnv "_atom_site.u".toList sampleLoop { atStart sampleDic.toEnv true "atom_site".toList with dead := [] }).isSome = true ∧
    (does (loopsOf sampleDic) (fun b => fullView sampleDic.toEnv "_atom_site.u".toList b.ids b.packets) sampleLoop
      (atStart sampleDic.toEnv true "atom_site".toList)).isSome = true ∧
    (match translate sampleDic true sampleLoop with
      | .ok (txt, _) => some txt
      | .error _ => none) = some loopText := by
  letI := asciiFold
  exact ⟨sample_env, sample_dic, by decide, by decide, by decide +kernel⟩

end DrelMeaning
end Verif
