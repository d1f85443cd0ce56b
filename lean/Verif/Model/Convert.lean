import Verif.Model.TypeContents
import Verif.Model.Number
import Verif.Model.Validate
/-! # Conversion of values to the types of a dictionary

Models the conversion functions of `/repo/src/CifFile_module.nw` 4143-4230, `change_type` 3397-3404 and `float_with_esd`
3409-3413. A Python float is the exact rational its text denotes. -/
namespace Verif
namespace Convert
open Validate

/-- A converted value: one left as it was, a float, an integer, a complex number, or a list of converted values. -/
inductive CVal where
  | raw (v : PyVal)
  | real (q : Rat)
  | int (z : Int)
  | cplx (re im : Rat)
  | list (l : List CVal)

namespace CVal

mutual
/-- Comparison of converted values, used for examples only. -/
def eqb : CVal → CVal → Bool
  | .raw a, .raw b => decide (a = b)
  | .real a, .real b => decide (a = b)
  | .int a, .int b => decide (a = b)
  | .cplx a b, .cplx c d => decide (a = c) && decide (b = d)
  | .list a, .list b => eqbList a b
  | _, _ => false
/-- Elementwise comparison. -/
def eqbList : List CVal → List CVal → Bool
  | [], [] => true
  | a :: r, b :: t => eqb a b && eqbList r t
  | _, _ => false
end

mutual
theorem eq_of_eqb : ∀ a b : CVal, eqb a b = true → a = b
  | .raw a, .raw b, h => by simp [eqb] at h; rw [h]
  | .real a, .real b, h => by simp [eqb] at h; rw [h]
  | .int a, .int b, h => by simp [eqb] at h; rw [h]
  | .cplx a b, .cplx c d, h => by simp [eqb] at h; rw [h.1, h.2]
  | .list a, .list b, h => by simp [eqb] at h; rw [eq_of_eqbList a b h]
theorem eq_of_eqbList : ∀ a b : List CVal, eqbList a b = true → a = b
  | [], [], _ => rfl
  | a :: r, b :: t, h => by
    simp [eqbList] at h; rw [eq_of_eqb a b h.1, eq_of_eqbList r t h.2]
end

mutual
theorem eqb_refl : ∀ a : CVal, eqb a a = true
  | .raw a => by simp [eqb]
  | .real a => by simp [eqb]
  | .int a => by simp [eqb]
  | .cplx a b => by simp [eqb]
  | .list a => by simp [eqb, eqbList_refl a]
theorem eqbList_refl : ∀ a : List CVal, eqbList a a = true
  | [] => rfl
  | a :: r => by simp [eqbList, eqb_refl a, eqbList_refl r]
end

instance : DecidableEq CVal := fun a b =>
  if h : eqb a b = true then .isTrue (eq_of_eqb a b h)
  else .isFalse fun e => h (e ▸ eqb_refl a)

end CVal

variable [CaseFold]

/-- A conversion function. -/
abbrev Conv := PyVal → Except PyErr CVal

/-- What the code takes from Python and is not modelled further: `complex(text)`, and `numpy.asarray` with the given type of
elements, if Numpy can be imported. -/
structure Env where
  complexText : Str → Except PyErr CVal
  numpy : Option (Str → Conv)

/-- `float(a)`. -/
def pyFloatV : PyVal → Except PyErr Rat
  | .str s => match Number.pyFloat s with
    | none => .error .value
    | some q => .ok q
  | .num s => match Number.pyFloat s with
    | none => .error .value
    | some q => .ok q
  | _ => .error .type

/-- `float_with_esd` (CifFile_module.nw 3409-3413): the text up to an opening bracket is converted, what follows is left out. -/
def floatWithEsd : PyVal → Except PyErr Rat
  | .str s => pyFloatV (.str (s.takeWhile (· ≠ '(')))
  | v => pyFloatV v

/-- `int(s)` for a text; `none` is the ValueError. Underscores between digits and digits outside ASCII are not modelled. -/
def pyInt (s : Str) : Option Int :=
  let u := Number.splitSign (Number.strip s)
  if u.2 ≠ [] ∧ u.2.all Number.isDigit then some (Number.signed u.1 u.2) else none

/-- `int(q)` of a number: towards zero. -/
def trunc (q : Rat) : Int := if q < 0 then -((-q).floor) else q.floor

/-- `int(a)`. -/
def pyIntV : PyVal → Except PyErr Int
  | .str s => match pyInt s with
    | none => .error .value
    | some z => .ok z
  | .num s => match Number.pyFloat s with
    | none => .error .value
    | some q => .ok (trunc q)
  | _ => .error .type

/-- `complex(a)`. -/
def pyComplex (E : Env) : Conv
  | .str s => E.complexText s
  | .num s => match Number.pyFloat s with
    | none => .error .value
    | some q => .ok (.cplx q 0)
  | _ => .error .type

/-- `complex(0,a)`: the second argument must not be a text. -/
def pyImag : Conv
  | .num s => match Number.pyFloat s with
    | none => .error .value
    | some q => .ok (.cplx 0 q)
  | _ => .error .type

/-- `a.lower()`. -/
def pyLower : Conv
  | .str s => .ok (.raw (.str (lower s)))
  | _ => .error .attribute

/-- Types that are converted by `int` (CifFile_module.nw 4165). -/
def intTypes : List Str :=
  ["Count".toList, "Integer".toList, "Index".toList, "Binary".toList, "Hexadecimal".toList, "Octal".toList]

/-- Types whose values do not depend on case (CifFile_module.nw 4171). -/
def caselessTypes : List Str := ["Code".toList, "Name".toList, "Tag".toList]

/-- `convert_single_value` (CifFile_module.nw 4161-4173). -/
def convertSingle (E : Env) : PyVal → Conv
  | .str t => fun v =>
    if t = "Real".toList then
      match floatWithEsd v with
      | .error e => .error e
      | .ok q => .ok (.real q)
    else if t ∈ intTypes then
      match pyIntV v with
      | .error e => .error e
      | .ok z => .ok (.int z)
    else if t = "Complex".toList then pyComplex E v
    else if t = "Imag".toList then pyImag v
    else if t ∈ caselessTypes then pyLower v
    else .ok (.raw v)
  | _ => fun v => .ok (.raw v)

/-- `convert_simple_list` (CifFile_module.nw 4188-4206). -/
def convertSimpleList (E : Env) (types : List PyVal) : Conv := fun v =>
  match Block.pyIter v with
  | .error e => .error e
  | .ok vs =>
    if vs.length ≠ types.length then .error .value
    else match mapE (fun p : PyVal × PyVal => convertSingle E p.1 p.2) (types.zip vs) with
      | .error e => .error e
      | .ok cs => .ok (.list cs)

/-- `[fcnv(a) for a in args]` -/
def eachOf (f : Conv) : Conv := fun v =>
  match Block.pyIter v with
  | .error e => .error e
  | .ok vs =>
    match mapE f vs with
    | .error e => .error e
    | .ok cs => .ok (.list cs)

/-- The conversion of one entry of a list (CifFile_module.nw 4214-4219). -/
def convertEntry (E : Env) : PyVal → Except PyErr Conv
  | .str t => .ok (convertSingle E (.str t))
  | v => match Block.pyIter v with
    | .error e => .error e
    | .ok ts => .ok (convertSimpleList E ts)

/-- `convert_list_values` (CifFile_module.nw 4209-4224). -/
def convertList (E : Env) (structure_ dimension : PyVal) : Except PyErr Conv := do
  let f ← convertEntry E structure_
  match ← Block.pyIter dimension with
  | [] => .ok f
  | d :: _ =>
    let n ← pyIntV d
    if n ≠ 1 then .ok (eachOf f) else .ok f

/-- The element types that `convert_matrix_values` knows (CifFile_module.nw 4238-4245). -/
def matrixTypes : List Str := ["Real".toList, "Integer".toList, "Complex".toList]

/-- `convert_matrix_values` (CifFile_module.nw 4231-4247). -/
def convertMatrix (E : Env) (structure_ : PyVal) : Except PyErr Conv :=
  match E.numpy with
  | none => .ok fun v => .ok (.raw v)
  | some asarray =>
    match structure_ with
    | .str t => if t ∈ matrixTypes then .ok (asarray t) else .error .value
    | _ => .error .value

/-- `interpret_structure(definition['_type.contents'])`. -/
def structureOf : PyVal → Except PyErr PyVal
  | .str s => TypeContents.interpretStructure s
  | _ => .error .type

/-- `convert_type` (CifFile_module.nw 4144-4158). For the container `Multiple` the result is `None`, which cannot be called. -/
def convertType (E : Env) (b : Block) : Except PyErr Conv := do
  let container ← need b "_type.container".toList
  let dimension ← attr b "_type.dimension".toList
  let contents ← need b "_type.contents".toList
  let structure_ ← structureOf contents
  if container = .str "Single".toList then .ok (convertSingle E structure_)
  else if container = .str "List".toList then convertList E structure_ (dimension.getD (.slist []))
  else if container = .str "Multiple".toList then .ok fun _ => .error .type
  else if container = .str "Array".toList ∨ container = .str "Matrix".toList then convertMatrix E structure_
  else .ok fun v => .ok (.raw v)

/-- `change_type` (CifFile_module.nw 3397-3404): a question mark is returned as it is, the values of a loop are converted one
by one. -/
def changeType (E : Env) (D : Dic) (item : Str) (v : PyVal) : Except PyErr CVal :=
  if v = query then .ok (.raw v)
  else do
    let b ← getDef D item
    let f ← convertType E b
    match v with
    | .list l =>
      match mapE f l with
      | .error e => .error e
      | .ok cs => .ok (.list cs)
    | v => f v

end Convert
end Verif
