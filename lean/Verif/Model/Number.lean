import Verif.Model.Regex
import Verif.Model.Value
/-! # Numbers with standard uncertainties

Models `get_number_with_esd` of `/repo/src/CifFile_module.nw` 4100-4122 and the conversion `float(text)`. Python floats are
modelled by the exact rational the text denotes: rounding and overflow are not modelled. -/
namespace Verif
namespace Number

/-- `[0-9]` -/
def isDigit (c : Char) : Bool := decide ('0' ≤ c) && decide (c ≤ '9')

/-- The number written by decimal digits. -/
def natOf (ds : Str) : Nat := ds.foldl (fun n c => 10 * n + (c.toNat - 48)) 0

/-- An optional sign: is it a minus, and what follows. -/
def splitSign : Str → Bool × Str
  | [] => (false, [])
  | c :: r => if c = '-' then (true, r) else if c = '+' then (false, r) else (false, c :: r)

/-- A number written as a sign and digits. -/
def signed (neg : Bool) (ds : Str) : Int := if neg then -(natOf ds : Int) else natOf ds

/-- The exponent of `float(text)`: nothing, or `[eE][+-]?[0-9]+` up to the end. -/
def floatExp : Str → Option Int
  | [] => some 0
  | c :: r =>
    if c = 'e' ∨ c = 'E' then
      if (splitSign r).2 ≠ [] ∧ (splitSign r).2.all isDigit then some (signed (splitSign r).1 (splitSign r).2) else none
    else none

/-- The digits after a decimal point and what follows. -/
def floatFrac : Str → Str × Str
  | [] => ([], [])
  | c :: r => if c = '.' then (r.takeWhile isDigit, r.dropWhile isDigit) else ([], c :: r)

/-- `str.strip()` of white space. -/
def strip (s : Str) : Str := ((s.dropWhile isSpace).reverse.dropWhile isSpace).reverse

/-- `float(s)` for a text; `none` is the ValueError. Infinities, NaN, underscores between digits and digits outside ASCII,
which Python also accepts, are not modelled. -/
def pyFloat (s : Str) : Option Rat :=
  let u := splitSign (strip s)
  let ip := u.2.takeWhile isDigit
  let fw := floatFrac (u.2.dropWhile isDigit)
  if ip ++ fw.1 = [] then none
  else match floatExp fw.2 with
    | none => none
    | some e => some ((if u.1 then -1 else 1) * (natOf (ip ++ fw.1) : Rat) * (10 : Rat) ^ (e - fw.1.length))

/-- What `numb_re` captures (CifFile_module.nw 4101): `base` is group 2, `dad` the digits after the point, `esd` the digits
within the brackets, `exp` the exponent. -/
structure Parts where
  base : Str
  dad : Option Str
  esd : Option Str
  exp : Option Str
  deriving DecidableEq, Repr

/-- `([0-9]*[.]([0-9]+))|([0-9]+)[.]?`: the text matched, the digits after the point, the text that follows. -/
def matchBody (s : Str) : Option (Str × Option Str × Str) :=
  let ip := s.takeWhile isDigit
  match s.dropWhile isDigit with
  | [] => if ip ≠ [] then some (ip, none, []) else none
  | c :: t =>
    if c = '.' then
      if t.takeWhile isDigit ≠ [] then some (ip ++ c :: t.takeWhile isDigit, some (t.takeWhile isDigit), t.dropWhile isDigit)
      else if ip ≠ [] then some (ip ++ [c], none, t) else none
    else if ip ≠ [] then some (ip, none, c :: t) else none

/-- `-?(...)` -/
def matchBase : Str → Option (Str × Option Str × Str)
  | [] => matchBody []
  | c :: r => if c = '-' then (matchBody r).map fun m => (c :: m.1, m.2) else matchBody (c :: r)

/-- `([(][0-9]+[)])?`: the digits and the text that follows. -/
def matchEsd : Str → Option Str × Str
  | [] => (none, [])
  | c :: t =>
    if c = '(' ∧ t.takeWhile isDigit ≠ [] ∧ (t.dropWhile isDigit).head? = some ')' then
      (some (t.takeWhile isDigit), (t.dropWhile isDigit).drop 1)
    else (none, c :: t)

/-- `[+-]?` -/
def optSign : Str → Str × Str
  | [] => ([], [])
  | c :: r => if c = '+' ∨ c = '-' then ([c], r) else ([], c :: r)

/-- `([eEdD][+-]?[0-9]+)?`: the exponent and the text that follows. -/
def matchExp : Str → Option Str × Str
  | [] => (none, [])
  | c :: t =>
    if (c = 'e' ∨ c = 'E' ∨ c = 'd' ∨ c = 'D') ∧ (optSign t).2.takeWhile isDigit ≠ [] then
      (some (c :: (optSign t).1 ++ (optSign t).2.takeWhile isDigit), (optSign t).2.dropWhile isDigit)
    else (none, c :: t)

/-- The first alternative of `numb_re`. The optional groups always match, so that no other way of matching the earlier ones
is tried; `matchLen_numb` in Lemmas/Number.lean compares this with the regular expression. -/
def matchNumb (s : Str) : Option (Parts × Str) :=
  match matchBase s with
  | none => none
  | some (base, dad, r) => some (⟨base, dad, (matchEsd r).1, (matchExp (matchEsd r).2).1⟩, (matchExp (matchEsd r).2).2)

/-- `exp.replace("d","e").replace("D","e")` (CifFile_module.nw 4110-4111). -/
def replaceD (s : Str) : Str := s.map fun c => if c = 'd' ∨ c = 'D' then 'e' else c

/-- `float(exp[1:])`, which is a whole number (CifFile_module.nw 4121). -/
def expInt (e : Str) : Int := signed (splitSign (e.drop 1)).1 (splitSign (e.drop 1)).2

/-- `base_num + exp` (CifFile_module.nw 4109-4112). -/
def withExp (base : Str) : Option Str → Str
  | none => base
  | some e => base ++ replaceD e

/-- `esd * (10 ** (-1* len(dad)))` (CifFile_module.nw 4118-4119). -/
def scalePlaces (u : Rat) : Option Str → Rat
  | none => u
  | some dad => u * (10 : Rat) ^ (-(dad.length : Int))

/-- `esd * (10 ** (float(exp[1:])))` (CifFile_module.nw 4120-4121). -/
def scaleExp (u : Rat) : Option Str → Rat
  | none => u
  | some e => u * (10 : Rat) ^ expInt (replaceD e)

/-- The number denoted by a match (CifFile_module.nw 4109-4122). -/
def evaluate (m : Parts) : Except PyErr (Option Rat × Option Rat) :=
  match pyFloat (withExp m.base m.exp) with
  | none => .error .value
  | some v =>
    match m.esd with
    | none => .ok (some v, none)
    | some ds =>
      match pyFloat ds with
      | none => .error .value
      | some u => .ok (some v, some (scaleExp (scalePlaces u m.dad) m.exp))

/-- `get_number_with_esd` (CifFile_module.nw 4100-4122) of a text. A dot, a question mark or anything that does not start
with a number gives no value. -/
def getNumberWithEsd (s : Str) : Except PyErr (Option Rat × Option Rat) :=
  match matchNumb s with
  | none => .ok (none, none)
  | some (m, _) => evaluate m

/-- `get_number_with_esd` of a value: `re.match` accepts texts only. -/
def getNumber : PyVal → Except PyErr (Option Rat × Option Rat)
  | .str s => getNumberWithEsd s
  | _ => .error .type

/-- `(r)?` -/
def opt (r : Rx) : Rx := Rx.alt r .eps

/-- `([0-9]*[.]([0-9]+))|([0-9]+)[.]?` -/
def bodyRx : Rx :=
  Rx.alt (Rx.seqs [Rx.star (Rx.cls isDigit), Rx.ch '.', Rx.plus (Rx.cls isDigit)]) (Rx.seq (Rx.plus (Rx.cls isDigit)) (opt (Rx.ch '.')))

/-- `[(][0-9]+[)]` -/
def esdRx : Rx := Rx.seqs [Rx.ch '(', Rx.plus (Rx.cls isDigit), Rx.ch ')']

/-- `[eEdD][+-]?[0-9]+` -/
def expRx : Rx :=
  Rx.seqs [Rx.cls fun c => c == 'e' || c == 'E' || c == 'd' || c == 'D', opt (Rx.cls fun c => c == '+' || c == '-'),
    Rx.plus (Rx.cls isDigit)]

/-- `(-?(([0-9]*[.]([0-9]+))|([0-9]+)[.]?))([(][0-9]+[)])?([eEdD][+-]?[0-9]+)?`, the first alternative of `numb_re`
(CifFile_module.nw 4101) without the captures. -/
def numRx : Rx := Rx.seqs [opt (Rx.ch '-'), bodyRx, opt esdRx, opt expRx]

/-- `numb_re` (CifFile_module.nw 4101), without the captures. -/
def numbRx : Rx := Rx.alt numRx (Rx.alt (Rx.ch '?') (Rx.ch '.'))

end Number
end Verif
