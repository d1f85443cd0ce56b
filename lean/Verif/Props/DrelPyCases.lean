import Verif.Props.DrelPy
import Verif.Lemmas.PyEq
/-! # C71: expressions that are not translated to what they stand for -/
namespace Verif
namespace DrelMeaning
open DrelPy PyText
set_option linter.unusedSectionVars false

/-- Nothing bound; not on the right side of an assignment, unless said. -/
def bare (rhs : Option Bool) : St :=
  { ids := [], withtable := [], sub := [], depends := [], packets := [], needRow := false, rhs := rhs, inif := false, haveTarget := false }

/-- The text made for an expression in a state where nothing is bound. -/
def bareText (rhs : Option Bool) (e : Expr) : Except PyErr Str :=
  letI := asciiFold
  match expr sampleEnv e (bare rhs) with
  | .ok (t, _) => .ok t
  | .error x => .error x

/-- What an expression stands for where nothing is bound. -/
def bareMeaning (e : Expr) : Option Py :=
  letI := asciiFold
  means (fullView sampleEnv "_atom_site.u".toList [] []) e

/-- C71 fails for `a | b & c`, which is `(a | b) & c` in dREL: Python reads `a | (b & c)`. -/
theorem C71_union_fails : ∃ (t : Str) (p q : Py),
    bareText none (.op .amp (.op .bar (.name "a".toList) (.name "b".toList)) (.name "c".toList)) = .ok t ∧
    bareMeaning (.op .amp (.op .bar (.name "a".toList) (.name "b".toList)) (.name "c".toList)) = some p ∧ Reads t q ∧ q ≠ p := by
  refine ⟨"a|b&c".toList, .bin "&".toList (.bin "|".toList (.name "a".toList) (.name "b".toList)) (.name "c".toList),
    .bin "|".toList (.name "a".toList) (.bin "&".toList (.name "b".toList) (.name "c".toList)), by decide +kernel, by decide +kernel, reads_of (n := 20) (by decide +kernel), by decide +kernel⟩

/-- C71 fails for lists that are not on the right side of an assignment: `a in [1, 2]` is written `a in 1,2`, which is not an
expression. -/
theorem C71_list_fails : ∃ (t : Str),
    bareText none (.op .isIn (.name "a".toList) (.list [.lit "1".toList, .lit "2".toList])) = .ok t ∧
    (bareMeaning (.op .isIn (.name "a".toList) (.list [.lit "1".toList, .lit "2".toList]))).isSome = true ∧ ∀ q, ¬ Reads t q :=
  ⟨"a in 1,2".toList, by decide +kernel, by decide +kernel, not_reads (n := 20) (p := .bin "in".toList (.name "a".toList) (.num "1".toList)) (t := .op ",".toList) (r := [.num "2".toList])
    (by decide +kernel)⟩

/-- C71 fails for slices with a step but no end: `a[1::2]` is written `a[1:2]`. -/
theorem C71_step_fails : ∃ (t : Str) (q : Py),
    bareText none (.slice (.name "a".toList) (sliceParts (some (.lit "1".toList)) none (some (.lit "2".toList)))) = .ok t ∧ Reads t q ∧
    q ≠ .index (.name "a".toList) (.slice (.num "1".toList) .none (.num "2".toList)) := by
  refine ⟨"a[1:2]".toList, .index (.name "a".toList) (.slice (.num "1".toList) (.num "2".toList) .none), by decide +kernel,
    reads_of (n := 20) (by decide +kernel), by decide +kernel⟩

/-- C71 fails for slices without a beginning (`a[:3]`), whole lists (`a[:]`), several slices (`a[1:2,3]`) and empty brackets: the
translation raises. -/
theorem C71_raises_fails :
    bareText none (.slice (.name "a".toList) (sliceParts none (some (.lit "3".toList)) none)) = .error .type ∧
    bareText none (.slice (.name "a".toList) (sliceParts none none none)) = .error .index ∧
    bareText none (.slices (.name "a".toList)) = .error .syntax ∧
    bareText none (.group []) = .error .index := by decide +kernel

/-- C71 fails for the function `sort`: the text calls the method `sort`, which sorts in place and has no value, instead of `sorted`. -/
theorem C71_sort_fails : ∃ (t : Str) (p q : Py),
    bareText none (.call "sort".toList [.name "a".toList]) = .ok t ∧ bareMeaning (.call "sort".toList [.name "a".toList]) = some p ∧
    Reads t q ∧ q ≠ p := by
  refine ⟨"( a).sort()".toList, .call (.name "sorted".toList) [.name "a".toList], .call (.attr (.name "a".toList) "sort".toList) [],
    by decide +kernel, by decide +kernel, reads_of (n := 20) (by decide +kernel), by decide +kernel⟩

/-- C71 fails for names that are keywords of Python, and for integers with leading zeros, which dREL allows: the texts cannot be read. -/
theorem C71_words_fails :
    (bareText none (.name "class".toList) = .ok "class".toList ∧ ∀ q, ¬ Reads "class".toList q) ∧
    (bareText none (.lit "007".toList) = .ok "007".toList ∧ ∀ q, ¬ Reads "007".toList q) := by
  refine ⟨⟨by decide +kernel, ?_⟩, by decide +kernel, ?_⟩
  · rintro q ⟨n, toks, ht, hp⟩
    have : toks = [.word "class".toList] := Lexes.unique ⟨n, ht⟩ ⟨5, rfl⟩
    subst this
    cases n with
    | zero => cases hp
    | succ n =>
      unfold parse at hp
      dsimp only at hp
      rw [if_neg (by decide)] at hp
      cases n with
      | zero => cases hp
      | succ n =>
        unfold primary at hp
        dsimp only at hp
        rw [if_pos (by decide)] at hp
        cases hp
  · rintro q ⟨n, toks, ht, hp⟩
    cases n with
    | zero => cases ht
    | succ n => cases ht

/-- C71 fails when a packet is chosen and none of its objects taken, and afterwards an object of something else: it is looked up in the
category of the packet. In `f(atom_site[k], x.b)` the second argument becomes `getattr(x,'_atom_site.B')`. -/
theorem C71_packet_fails : ∃ (t : Str) (p q : Py),
    bareText none (.call "f".toList [.sub (.name "atom_site".toList) (.name "k".toList), .attr (.name "x".toList) "b".toList]) = .ok t ∧
    bareMeaning (.call "f".toList [.sub (.name "atom_site".toList) (.name "k".toList), .attr (.name "x".toList) "b".toList]) = some p ∧
    Reads t q ∧ q ≠ p := by
  refine ⟨"f( ciffile.GetKeyedSemanticPacket(k,'atom_site'),getattr(x,'_atom_site.B'),ciffile)".toList,
    .call (.name "f".toList) [keyed (.name "k".toList) "atom_site".toList, member (.name "x".toList) "b".toList, .name "ciffile".toList],
    .call (.name "f".toList)
      [keyed (.name "k".toList) "atom_site".toList, member (.name "x".toList) "_atom_site.B".toList, .name "ciffile".toList],
    by decide +kernel, by decide +kernel, reads_of (n := 60) (by decide +kernel), by decide +kernel⟩

end DrelMeaning
end Verif
