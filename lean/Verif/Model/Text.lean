/-!
# Text protocols: line folding and line prefixing

Models `/repo/src/StarFile.nw` lines 2824-2917.  Python `str` is a list of characters.
-/
namespace Verif

/-- Python `str`. -/
abbrev Str := List Char

/-- Python exceptions raised by the modelled code. -/
inductive PyErr where
  | star        -- StarError            (StarFile.nw 3214)
  | length      -- StarLengthError      (StarFile.nw 3220)
  | key         -- KeyError
  | value       -- ValueError
  | type        -- TypeError
  | index       -- IndexError
  | attribute   -- AttributeError
  | cif         -- CifError             (CifFile_module.nw 356)
  | valid       -- ValidCifError        (CifFile_module.nw 362)
  | syntax      -- YappsSyntaxError     (yapps3_compiled_rt.py 61)
  | tokens      -- NoMoreTokens         (yapps3_compiled_rt.py 73)
  | notImpl     -- NotImplementedError
  | recursion   -- CifRecursionError    (CifFile_module.nw 369)
  | derivation  -- StarDerivationError  (StarFile.nw 3226)
  | failure     -- StarDerivationFailure (StarFile.nw 3236)
  | unbound     -- UnboundLocalError
  | assertion   -- AssertionError
  | depth       -- RecursionError (Python's limit on nested calls)
  deriving DecidableEq, Repr

deriving instance DecidableEq for Except

/-- The character class `[ \v\t\f]` used by the folding protocol
(StarFile.nw 2841, 2862, 2863, 2883). -/
def isBlank (c : Char) : Bool :=
  c == ' ' || c == '\x0b' || c == '\t' || c == '\x0c'

/-- Python `s.split('\n')` (StarFile.nw 2827, 1108). -/
def splitNl : Str → List Str
  | [] => [[]]
  | c :: r =>
    if c = '\n' then [] :: splitNl r
    else match splitNl r with
      | [] => [[c]]
      | l :: ls => (c :: l) :: ls

/-- Python `s.replace(pat, new)` for a non-empty `pat`: non-overlapping occurrences
from left to right. For an empty `pat` (never used by the modelled code) the text is
returned unchanged. -/
def replaceAll (pat new : Str) : Str → Str
  | [] => []
  | c :: r =>
    if pat ≠ [] ∧ pat.isPrefixOf (c :: r) then
      new ++ replaceAll pat new (r.drop (pat.length - 1))
    else c :: replaceAll pat new r
termination_by s => s.length
decreasing_by all_goals (simp [List.length_drop]; try omega)

/-- `re.match(r"\\[ \v\t\f]*" + "\n", s)`: the text after the match, if it matches
(StarFile.nw 2862, 2883). -/
def matchFoldHeader : Str → Option Str
  | '\\' :: r =>
    match r.dropWhile isBlank with
    | '\n' :: r' => some r'
    | _ => none
  | _ => none

/-- `re.sub(r"\\[ \v\t\f]*$" + "\n?", "", s, flags=re.M)` (StarFile.nw 2863):
every backslash followed by blanks up to the end of its line is removed together with
the line end. -/
def unfoldAll : Str → Str
  | [] => []
  | c :: r =>
    if c = '\\' then
      match _h : r.dropWhile isBlank with
      | [] => []
      | d :: r' => if d = '\n' then unfoldAll r' else c :: unfoldAll r
    else c :: unfoldAll r
termination_by s => s.length
decreasing_by
  all_goals simp
  have := (List.dropWhile_suffix isBlank (l := r)).length_le
  rw [_h] at this
  simp at this
  omega

/-- `remove_line_folding` (StarFile.nw 2860-2865). -/
def removeLineFolding (s : Str) : Str :=
  match matchFoldHeader s with
  | some _ => unfoldAll s
  | none => s

/-- Parameters for which the Python loop of `apply_line_folding` terminates; the code
always uses the defaults 60 and 80 (StarFile.nw 2824, 2770). -/
structure FoldWidths where
  minw : Nat
  maxw : Nat
  hmin : 0 < minw
  hmax : 2 ≤ maxw

/-- Default widths (StarFile.nw 2824). -/
def FoldWidths.default : FoldWidths := ⟨60, 80, by decide, by decide⟩

/-- Where a line that is too long is cut (StarFile.nw 2841-2847): at the first blank at or
after `minw` if it is near enough, else at `maxw - 1`. -/
def foldCut (w : FoldWidths) (bit : Str) : Nat :=
  match (bit.drop w.minw).findIdx? isBlank with
  | some i => if i < w.maxw - 1 then w.minw + i else w.maxw - 1
  | none => w.maxw - 1

/-- Output for the tail piece: a doubled backslash if it ends with a backslash
(StarFile.nw 2835-2836 and 2849-2850). -/
def foldTail (bit : Str) : Str :=
  if bit.getLast? = some '\\' then bit ++ ['\\', '\n'] else bit

theorem foldCut_pos (w : FoldWidths) (bit : Str) : 0 < foldCut w bit := by
  have h1 := w.hmin
  have h2 := w.hmax
  unfold foldCut
  split
  · split <;> omega
  · omega

/-- The `while` loop over a long line (StarFile.nw 2839-2850). -/
def foldLong (w : FoldWidths) (bit : Str) : Str :=
  if bit.length > w.maxw then
    bit.take (foldCut w bit) ++ ['\\', '\n'] ++ foldLong w (bit.drop (foldCut w bit))
  else foldTail bit
termination_by bit.length
decreasing_by
  have := foldCut_pos w bit
  simp [List.length_drop]
  omega

/-- One line of `apply_line_folding` without its line end (StarFile.nw 2833-2851). -/
def foldLine (w : FoldWidths) (l : Str) : Str :=
  if l.length < w.maxw then foldTail l else foldLong w l

/-- `re.match("\\[ \v\t\f]*\n", instring)` as actually written (StarFile.nw 2829): without the
`r` prefix the pattern is an escaped `[`, then a blank, VT, TAB, FF, any number of `]`
and a line feed.  It does not recognise a folding header. -/
def oddGuard (s : Str) : Bool :=
  match s with
  | '[' :: ' ' :: '\x0b' :: '\t' :: '\x0c' :: r => (r.dropWhile (· == ']')).head? == some '\n'
  | _ => false

/-- Does `apply_line_folding` decide to fold? (StarFile.nw 2827-2830) -/
def needsFolding (w : FoldWidths) (s : Str) : Bool :=
  !((splitNl s).all (fun l => l.length < w.maxw) && !oddGuard s)

/-- `apply_line_folding` (StarFile.nw 2824-2853). -/
def applyLineFolding (w : FoldWidths) (s : Str) : Str :=
  if needsFolding w s then
    (['\\', '\n'] ++ ((splitNl s).map fun l => foldLine w l ++ ['\n']).flatten).dropLast
  else s

/-- `apply_line_prefix` (StarFile.nw 2880-2894). An empty prefix fails at `prefix[0]`. -/
def applyLinePrefix (s pre : Str) : Except PyErr Str :=
  match pre with
  | [] => .error .index
  | p :: _ =>
    if p ≠ ';' ∧ '\\' ∉ pre then
      match matchFoldHeader s with
      | some notHeader =>
        .ok (pre ++ ['\\', '\\', '\n'] ++ pre ++ replaceAll ['\n'] ('\n' :: pre) notHeader)
      | none =>
        .ok (pre ++ ['\\', '\n'] ++ pre ++ replaceAll ['\n'] ('\n' :: pre) s)
    else .error .star

/-- The regular expression of `remove_line_prefix` (StarFile.nw 2904): prefix text, whether
there are two backslashes, and the text from the line end on (`instring[end-1:]`).
The first character may be anything but `;` and line feed; at least one more
character other than backslash and line feed must follow. -/
def matchPrefixHeader : Str → Option (Str × Bool × Str)
  | [] => none
  | c :: r =>
    let body := r.takeWhile fun d => d != '\n' && d != '\\'
    if c = ';' ∨ c = '\n' ∨ body = [] then none
    else match r.dropWhile fun d => d != '\n' && d != '\\' with
      | '\\' :: r1 =>
        match r1 with
        | '\\' :: r2 =>
          match r2.dropWhile isBlank with
          | '\n' :: r3 => some (c :: body, true, '\n' :: r3)
          | _ => none
        | _ =>
          match r1.dropWhile isBlank with
          | '\n' :: r3 => some (c :: body, false, '\n' :: r3)
          | _ => none
      | _ => none

/-- `remove_line_prefix` (StarFile.nw 2902-2917). -/
def removeLinePrefix (s : Str) : Str :=
  match matchPrefixHeader s with
  | some (pre, true, rest) => '\\' :: replaceAll ('\n' :: pre) ['\n'] rest
  | some (pre, false, rest) => (replaceAll ('\n' :: pre) ['\n'] rest).drop 1
  | none => s

/-- The protocol part of `stripextras` (YappsStarParser.nw 94-95). -/
def decodeProtocols (s : Str) : Str := removeLineFolding (removeLinePrefix s)

end Verif
