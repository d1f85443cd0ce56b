import Verif.Props.DrelStmt
import Verif.Lemmas.PyStmtEq
/-! # C72: statements that are not translated to what they stand for -/
namespace Verif
namespace DrelMeaning
open DrelPy PyText
set_option linter.unusedSectionVars false

/-- The text made for the method of `_atom_site.u` in the dictionary `sampleDic`. -/
def made (s : Stmt) : Except PyErr Str :=
  letI := asciiFold
  match translate sampleDic true s with
  | .ok (t, _) => .ok t
  | .error x => .error x

/-- What the method stands for; an item of the current packet is written as a variable with its name. -/
def meant (s : Stmt) : Option (List PyS) :=
  letI := asciiFold
  (does (loopsOf sampleDic) (fun b => fullView sampleDic.toEnv "_atom_site.u".toList b.ids b.packets) s (atStart sampleDic.toEnv true "atom_site".toList)).map (·.1)

private def var (s : String) : Expr := .name s.toList
private def num (s : String) : Expr := .lit s.toList
private def set (x v : Expr) : Stmt := .assign [x] "=".toList [v]

/-- `Do i = 3, 1, -1 { x = i }` -/
def downwards : Stmt := .do_ "i".toList (num "3") (num "1") (.sign true (num "1")) (.seq [set (var "x") (var "i")])

/-- C72 fails for ranges that count downwards: the last two values are left out, since one is added to the end. -/
theorem C72_downwards_fails : ∃ t ss, made downwards = .ok t ∧ ReadsBlock t ss ∧ meant downwards ≠ none ∧ meant downwards ≠ some ss :=
  ⟨"for i in range(3,1+1,drel_runtime.drel_dot(-1,1)):\n    x = i\n    ".toList,
    [.for_ ["i".toList] [.call (.name "range".toList) [.num "3".toList, .bin "+".toList (.num "1".toList) (.num "1".toList),
        .call (.attr (.name "drel_runtime".toList) "drel_dot".toList) [.un "-".toList (.num "1".toList), .num "1".toList]]]
      [.assign [.name "x".toList] [.name "i".toList]]],
    by decide +kernel, readsBlock_of (n := 60) (by decide +kernel), by decide +kernel, by decide +kernel⟩

/-- `Do i = 1, a | b { x = i }` -/
def looseEnd : Stmt := .do_ "i".toList (num "1") (.op .bar (var "a") (var "b")) (num "1") (.seq [set (var "x") (var "i")])

/-- C72 fails for ranges whose end is not in brackets and has an operator that binds less than `+`: one is added to its last operand. -/
theorem C72_end_fails : ∃ t ss, made looseEnd = .ok t ∧ ReadsBlock t ss ∧ meant looseEnd ≠ none ∧ meant looseEnd ≠ some ss :=
  ⟨"for i in range(1,a|b+1,1):\n    x = i\n    ".toList,
    [.for_ ["i".toList] [.call (.name "range".toList) [.num "1".toList,
        .bin "|".toList (.name "a".toList) (.bin "+".toList (.name "b".toList) (.num "1".toList)), .num "1".toList]]
      [.assign [.name "x".toList] [.name "i".toList]]],
    by decide +kernel, readsBlock_of (n := 60) (by decide +kernel), by decide +kernel, by decide +kernel⟩

/-- C72 fails for `x *= 2` and `x /= 2`, which the grammar has: the translation raises. -/
theorem C72_operator_fails :
    made (.assign [var "x"] "*=".toList [num "2"]) = .error .key ∧ meant (.assign [var "x"] "*=".toList [num "2"]) ≠ none ∧
    made (.assign [var "x"] "/=".toList [num "2"]) = .error .key ∧ meant (.assign [var "x"] "/=".toList [num "2"]) ≠ none := by
  decide +kernel

/-- `With k as atom_site { x = _atom_site.b }` -/
def hidden : Stmt := .with_ "k".toList "atom_site".toList (.seq [set (var "x") (.attr (.tag "_atom_site".toList) "b".toList)])

/-- C72 fails for `_cat.obj` inside `With k as cat`: the alias replaces `_cat`, and the text takes the whole column. -/
theorem C72_with_fails : ∃ t ss, made hidden = .ok t ∧ ReadsBlock t ss ∧ meant hidden ≠ none ∧ meant hidden ≠ some ss :=
  ⟨"x = ciffile['_atom_site.b']\n".toList, [.assign [.name "x".toList] [.index (.name "ciffile".toList) (.str "_atom_site.b".toList)]],
    by decide +kernel, readsBlock_of (n := 60) (by decide +kernel), by decide +kernel, by decide +kernel⟩

/-- `With k as cell { x = 1 }`, then `y = k.a` where `k` is a variable. -/
def leaked : Stmt :=
  .seq [.with_ "k".toList "cell".toList (.seq [set (var "x") (num "1")]), set (var "y") (.attr (var "k") "a".toList)]

/-- C72 fails for names used as aliases before: they stay aliases after `with`. -/
theorem C72_alias_fails : ∃ t ss, made leaked = .ok t ∧ ReadsBlock t ss ∧ meant leaked ≠ none ∧ meant leaked ≠ some ss :=
  ⟨"x = 1\n\ny = ciffile[\"_cell.a\"]\n".toList,
    [.assign [.name "x".toList] [.num "1".toList], .assign [.name "y".toList] [.index (.name "ciffile".toList) (.str "_cell.a".toList)]],
    by decide +kernel, readsBlock_of (n := 60) (by decide +kernel), by decide +kernel, by decide +kernel⟩

/-- `x = atom_site[1]`, then `x = z`, then `y = x.b`. -/
def stale : Stmt :=
  .seq [set (var "x") (.sub (var "atom_site") (num "1")), set (var "x") (var "z"), set (var "y") (.attr (var "x") "b".toList)]

/-- The packet with the key 1. -/
private def packet1 : Py :=
  .call (.attr (.name "ciffile".toList) "GetKeyedSemanticPacket".toList) [.num "1".toList, .str "atom_site".toList]

/-- C72 fails for variables that held packets before: their attributes are still taken for items of the category. -/
theorem C72_stale_fails : ∃ t ss, made stale = .ok t ∧ ReadsBlock t ss ∧ meant stale ≠ none ∧ meant stale ≠ some ss :=
  ⟨"x = ciffile.GetKeyedSemanticPacket(1,'atom_site')\nx = z\ny = getattr(x,'_atom_site.B')\n".toList,
    [.assign [.name "x".toList] [packet1], .assign [.name "x".toList] [.name "z".toList],
      .assign [.name "y".toList] [.call (.name "getattr".toList) [.name "x".toList, .str "_atom_site.B".toList]]],
    by decide +kernel, readsBlock_of (n := 60) (by decide +kernel), by decide +kernel, by decide +kernel⟩

/-- `x = atom_site[1]`, then `w = x`, then `y = w.b`. -/
def copied : Stmt :=
  .seq [set (var "x") (.sub (var "atom_site") (num "1")), set (var "w") (var "x"), set (var "y") (.attr (var "w") "b".toList)]

/-- C72 fails for packets taken from a variable: their category is not known any more, and the attribute is not an item of the packet. -/
theorem C72_copied_fails : ∃ t ss, made copied = .ok t ∧ ReadsBlock t ss ∧ meant copied ≠ none ∧ meant copied ≠ some ss :=
  ⟨"x = ciffile.GetKeyedSemanticPacket(1,'atom_site')\nw = x\ny = getattr(w,'b')\n".toList,
    [.assign [.name "x".toList] [packet1], .assign [.name "w".toList] [.name "x".toList],
      .assign [.name "y".toList] [.call (.name "getattr".toList) [.name "w".toList, .str "b".toList]]],
    by decide +kernel, readsBlock_of (n := 60) (by decide +kernel), by decide +kernel, by decide +kernel⟩

/-- `x, y = atom_site[1], x.b` -/
def several : Stmt :=
  .assign [var "x", var "y"] "=".toList [.sub (var "atom_site") (num "1"), .attr (var "x") "b".toList]

/-- C72 fails for packets among several values: the values after them are translated as if they had been assigned. -/
theorem C72_several_fails : ∃ t ss, made several = .ok t ∧ ReadsBlock t ss ∧ meant several ≠ none ∧ meant several ≠ some ss :=
  ⟨"x,y = ciffile.GetKeyedSemanticPacket(1,'atom_site'),getattr(x,'_atom_site.B')".toList,
    [.assign [.name "x".toList, .name "y".toList]
      [packet1, .call (.name "getattr".toList) [.name "x".toList, .str "_atom_site.B".toList]]],
    by decide +kernel, readsBlock_of (n := 60) (by decide +kernel), by decide +kernel, by decide +kernel⟩

/-- C72 fails for `x.b = 1` where `x` is a variable: the text gives a value to a call, and Python does not read it. -/
theorem C72_attribute_fails : ∃ t, made (set (.attr (var "x") "b".toList) (num "1")) = .ok t ∧ ∀ ss, ¬ ReadsBlock t ss :=
  ⟨"getattr(x,'b') = 1".toList, by decide +kernel,
    not_assigned (n := 40) (w := "getattr".toList) (t := .op "(".toList)
      (toks := [.word "x".toList, .op ",".toList, .str "b".toList, .op ")".toList, .op "=".toList, .num "1".toList]) (r := [.num "1".toList])
      (es := [.call (.name "getattr".toList) [.name "x".toList, .str "b".toList]]) (by decide +kernel) (by decide +kernel)
      (by decide +kernel) (by decide +kernel) (by decide +kernel)⟩

/-- A string of two lines. -/
def twoLines : Str := "'''a\nb'''".toList

/-- C72 fails for strings of several lines inside compound statements: blanks are put into the string. -/
theorem C72_string_fails : made (.rep (.seq [set (var "x") (.lit twoLines)])) = .ok "while True:\n    x = '''a\n    b'''\n    ".toList := by
  decide +kernel

/-! ## Loops -/

/-- The text made for a method, read by Python. -/
def readMade (n : Nat) (s : Stmt) : Option (List PyS) :=
  match made s with
  | .ok t => readBlock n t
  | .error _ => none

theorem readMade_reads {n : Nat} {s : Stmt} {ss : List PyS} (h : readMade n s = some ss) : ∃ t, made s = .ok t ∧ ReadsBlock t ss := by
  unfold readMade at h
  split at h
  · rename_i t ht
    exact ⟨t, ht, readsBlock_of h⟩
  · cases h

/-- The statements that find the rows of `atom_site` for the `n`-th loop. -/
def siteRows (n : Nat) : List PyS := allRows ["_atom_site.U".toList, "_atom_site.B".toList] "_atom_site.label".toList n

/-- `Loop s as atom_site : i < a { x = i }` -/
def captured : Stmt := .loop "s".toList "atom_site".toList "i".toList "<".toList "a".toList (.seq [set (var "x") (var "i")])

/-- C72 fails for loops limited by a variable `a`: the comprehension that selects the rows has a variable of that name, and compares
every row number with itself. -/
theorem C72_limit_fails : ∃ t ss, made captured = .ok t ∧ ReadsBlock t ss ∧ meant captured ≠ none ∧ meant captured ≠ some ss := by
  obtain ⟨t, h1, h2⟩ := readMade_reads (n := 60) (s := captured) (ss := siteRows 2 ++
    [.assign [.name (rangeVar 2)] [.comp "a".toList "a".toList (.name (rangeVar 2)) (.bin "<".toList (.name "a".toList) (.name "a".toList))],
      .for_ ["i".toList] [.name (rangeVar 2)] [.assign [.name "x".toList] [.name "i".toList]]]) (by decide +kernel)
  exact ⟨t, _, h1, h2, by decide +kernel, by decide +kernel⟩

/-- `Loop s as atom_site { x = s.u }`, in the method of `_atom_site.u`. -/
def ownColumn : Stmt := .loop "s".toList "atom_site".toList [] [] [] (.seq [set (var "x") (.attr (var "s") "u".toList)])

/-- C72 fails for the item that is derived when it is taken from the packets of a loop: in place of its value in the packet, the value
being derived is taken. -/
theorem C72_own_fails : ∃ t ss, made ownColumn = .ok t ∧ ReadsBlock t ss ∧ meant ownColumn ≠ none ∧ meant ownColumn ≠ some ss := by
  obtain ⟨t, h1, h2⟩ := readMade_reads (n := 60) (s := ownColumn) (ss := siteRows 2 ++
    [.for_ ["__pi2".toList] [.name (rangeVar 2)] [.assign [.name "x".toList] [.name "__dreltarget".toList]]]) (by decide +kernel)
  exact ⟨t, _, h1, h2, by decide +kernel, by decide +kernel⟩

/-- ```
Loop s as atom_site { x = 1 }
Loop s as atom_site { Loop t as atom_site { x = s.b } }
``` -/
def collision : Stmt :=
  .seq [.loop "s".toList "atom_site".toList [] [] [] (.seq [set (var "x") (num "1")]),
    .loop "s".toList "atom_site".toList [] [] [] (.seq [
      .loop "t".toList "atom_site".toList [] [] [] (.seq [set (var "x") (.attr (var "s") "b".toList)])])]

/-- C72 fails for a loop inside the second of two loops with the same alias: both have the index `__pi3`, and `s.b` is taken from the
packet of `t`. -/
theorem C72_index_fails : ∃ t, made collision = .ok t ∧ ReadsBlock t
    (siteRows 2 ++ [.for_ ["__pi2".toList] [.name (rangeVar 2)] [.assign [.name "x".toList] [.num "1".toList]]] ++
     siteRows 3 ++ [.for_ ["__pi3".toList] [.name (rangeVar 3)]
      (siteRows 3 ++ [.for_ ["__pi3".toList] [.name (rangeVar 3)]
        [.assign [.name "x".toList] [.index (stored "_atom_site.b".toList) (.name "__pi3".toList)]]])]) :=
  readMade_reads (n := 60) (by decide +kernel)

end DrelMeaning
end Verif
