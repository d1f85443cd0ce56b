import Verif.Lemmas.DrelTotal
import Verif.Model.Value
/-! # C71: expressions of dREL methods are translated to the Python expressions they stand for -/
namespace Verif
namespace DrelMeaning
open DrelPy PyText
variable [CaseFold]
set_option linter.unusedSectionVars false

/-- C71: the text made for an expression is read by Python as the expression that is meant, with the same operands for each operator.
It is made whenever the names in it are known, aliases stay as they are, and every item of the current packet that is used has a
variable of its own. Missing: the constructions excluded by `fits`, for which the theorems below show that other texts are made or none;
what the calls of the runtime compute. -/
theorem C71_expression_partial {env : Env} {tg : Str} {st : St} {rhs : Bool} {e : Expr} (hE : EnvOk env tg)
    (hB : BindOk st.ids st.packets) (hst : Inv st.ids st.packets rhs st) (hsub : st.sub = [])
    (hf : fits (catsOf env st.ids) (ownOf env st.ids) rhs true e = true) (hm : means (fullView env tg st.ids st.packets) e ≠ none) :
    ∃ txt st' p, expr env e st = .ok (txt, st') ∧
      means (viewOf env tg st.ids st.packets st'.withtable) e = some p ∧ Reads txt p ∧ Inv st.ids st.packets rhs st' := by
  obtain ⟨⟨txt, st'⟩, h⟩ := expr_total hE hB e true hst hsub hf (Option.isSome_iff_ne_none.2 hm)
  have ho := expr_good hE hB e true hst hsub hf h
  obtain ⟨p, hp, hmean⟩ := ho.good
  exact ⟨txt, st', p, h, hmean _ (.refl _), hp.1.reads (plvl_pos e), ho.inv⟩

/-- C71: there is only one way to read a text. -/
theorem C71_unique {s : Str} {p q : Py} (h : Reads s p) (h' : Reads s q) : p = q := h.unique h'

theorem packetVar_inj {i j : Nat} (h : packetVar i = packetVar j) : i = j := by
  have h1 : Nat.toDigits 10 i = Nat.toDigits 10 j := List.append_cancel_left h
  have h2 := congrArg (fun l => Nat.ofDigitChars 10 l 0) h1
  simp only [Nat.ofDigitChars_ten_toDigits] at h2
  exact h2

/-- C71: different items of the current packet have different variables. -/
theorem C71_variables {ids : Dict Str Alias} {packets : Dict Str Str} {rhs : Bool} {st : St} (h : Inv ids packets rhs st) {n m v : Str}
    (hn : dget (varsOf st.withtable) n = some v) (hm : dget (varsOf st.withtable) m = some v) : n = m := by
  rw [dget_varsOf, Option.map_eq_some_iff] at hn hm
  obtain ⟨w, hw, e1⟩ := hn
  obtain ⟨x, hx, e2⟩ := hm
  obtain ⟨i, hi⟩ := List.getElem?_of_mem (dget_mem hw)
  obtain ⟨j, hj⟩ := List.getElem?_of_mem (dget_mem hx)
  have h1 := h.vars i n w hi
  have h2 := h.vars j m x hj
  have hij : i = j := packetVar_inj (h1.symm.trans (e1.trans (e2.symm.trans h2)))
  subst hij
  rw [hi] at hj
  cases hj; rfl

/-- Nothing bound. -/
def bareSt : St :=
  { ids := [], withtable := [], sub := [], depends := [], packets := [], needRow := false, rhs := none, inif := false, haveTarget := false }

theorem start_item {env : Env} {c n : Str} (ht : env.target = some ('_' :: c ++ '.' :: n)) (hn : '.' ∉ n) (hc : ident ('_' :: c) = true) :
    start env true = .ok { bareSt with ids := [('_' :: c, { cat := c, index := if c ∈ dkeys env.loopable then "looped_cat".toList else [], loop := false })] } := by
  have hcc : ∀ x ∈ '_' :: c, x ≠ '.' := by
    rintro x hx rfl
    exact absurd (ident_char hc hx) (by decide)
  have hdrop : ('_' :: c ++ '.' :: n).dropWhile (· != '.') = '.' :: n := by
    rw [List.dropWhile_append_of_pos (by simpa using hcc)]
    rfl
  have htake : ('_' :: c ++ '.' :: n).takeWhile (· != '.') = '_' :: c := by
    rw [List.takeWhile_append_of_pos (by simpa using hcc)]
    simp
  have hg : getCatName ('_' :: c ++ '.' :: n) = .ok (c, n) := by
    unfold getCatName
    rw [hdrop, htake]
    dsimp only
    rw [if_neg (by simpa using hn)]
    rfl
  unfold start
  rw [ht]
  dsimp only
  rw [if_pos rfl, hg]
  rfl

/-- C71: before anything is translated, the hypotheses of the theorem hold for the method of an item `_cat.obj`. -/
theorem C71_start {env : Env} {c n : Str} (ht : env.target = some ('_' :: c ++ '.' :: n)) (hn : '.' ∉ n) (hc : ident ('_' :: c) = true) :
    ∃ st, start env true = .ok st ∧ BindOk st.ids st.packets ∧ Inv st.ids st.packets false st ∧ st.sub = [] := by
  have hcp : plain ('_' :: c) = true := ident_plain hc
  refine ⟨_, start_item ht hn hc, ⟨?_, ?_⟩, ⟨rfl, rfl, fun h => (by cases h), ?_, ?_⟩, rfl⟩
  · intro k al h
    dsimp only at h
    rw [dget] at h
    split at h
    · rename_i e
      cases h
      subst e
      refine ⟨hc, ?_, fun h => (by cases h)⟩
      unfold plain at hcp
      rw [List.all_cons, Bool.and_eq_true] at hcp
      exact hcp.2
    · cases h
  · intro k c h; cases h
  · intro i k w h; cases h
  · exact List.nodup_nil

/-! ## A case that meets the hypotheses -/

/-- A dictionary with two items of a loop category, `atom_site`, and one of a category of one packet. -/
def sampleEnv : Env where
  target := some "_atom_site.u".toList
  loopable := [("atom_site".toList, ["label".toList])]
  names := [(("atom_site".toList, "u".toList), ["_atom_site.U".toList]), (("atom_site".toList, "b".toList), ["_atom_site.B".toList]),
    (("cell".toList, "a".toList), ["_cell.a".toList])]

/-- `_atom_site.B / (8 * pi ** 2) + sqrt(_cell.a)[1:2]` -/
def sampleExpr : Expr :=
  .op .add
    (.op .div (.attr (.tag "_atom_site".toList) "B".toList)
      (.group [.op .mul (.lit "8".toList) (.op .pow (.name "pi".toList) (.lit "2".toList))]))
    (.slice (.call "sqrt".toList [.attr (.tag "_cell".toList) "a".toList]) [.lit "1".toList, .lit "2".toList])

theorem sample_env : letI := asciiFold; EnvOk sampleEnv "_atom_site.u".toList := by
  letI := asciiFold
  refine ⟨rfl, ?_, ?_⟩
  · have : ∀ p ∈ sampleEnv.names, ∀ n ∈ p.2, plain n = true ∧ plain (lower n) = true := by decide +kernel
    intro k ns h n hn
    exact this _ (dget_mem h) n hn
  · decide +kernel

example : letI := asciiFold
    ∃ st, start sampleEnv true = .ok st ∧ BindOk st.ids st.packets ∧ Inv st.ids st.packets false st ∧ st.sub = [] ∧
      fits (catsOf sampleEnv st.ids) (ownOf sampleEnv st.ids) false true sampleExpr = true ∧
      (means (fullView sampleEnv "_atom_site.u".toList st.ids st.packets) sampleExpr).isSome = true ∧
      (match expr sampleEnv sampleExpr st with
       | .ok (txt, _) => some txt
       | .error _ => none) =
        some ("drel_runtime.drel_add(numpy.true_divide(__w0,(drel_runtime.drel_dot(8,math.pi**2)))," ++
          "math.sqrt( ciffile['_cell.a'])[1:2])").toList := by
  letI := asciiFold
  obtain ⟨st, h1, h2, h3, h4⟩ := C71_start (env := sampleEnv) (c := "atom_site".toList) (n := "u".toList) rfl (by decide) (by decide)
  refine ⟨st, h1, h2, h3, h4, ?_⟩
  have hst : start sampleEnv true = .ok { ids := [("_atom_site".toList, { cat := "atom_site".toList, index := "looped_cat".toList, loop := false })], withtable := [], sub := [], depends := [], packets := [], needRow := false, rhs := none, inif := false, haveTarget := false } := by
    decide +kernel
  rw [hst] at h1
  cases h1
  decide +kernel

end DrelMeaning
end Verif
