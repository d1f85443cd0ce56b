import Verif.Spec.DrelText
import Verif.Model.Regex
/-! # Specification: layout

How the tokens of a program may be laid out in its text, and what else may be written for some of them. -/
namespace Verif
namespace Drel
open LR DrelPy

/-- The second list has the same tokens as the first, but perhaps `&&` for `and`, `||` for `or`, and several ends of lines with any blanks for one. -/
inductive Respelled : List (Tok Val) → List (Tok Val) → Prop
  | nil : Respelled [] []
  | same (t : Tok Val) {r r' : List (Tok Val)} (h : Respelled r r') : Respelled (t :: r) (t :: r')
  | conj {r r' : List (Tok Val)} (h : Respelled r r') : Respelled (tk K.and_ "and" :: r) (tk K.badAnd "&&" :: r')
  | disj {r r' : List (Tok Val)} (h : Respelled r r') : Respelled (tk K.or_ "or" :: r) (tk K.badOr "||" :: r')
  | lines (v : Val) (us : List Val) (hu : us ≠ []) {r r' : List (Tok Val)} (h : Respelled r r') :
      Respelled ((K.newline, v) :: r) (us.map (fun u => (K.newline, u)) ++ r')

/-- Signs that stand for themselves whatever follows. -/
def solos : List (Nat × Char) :=
  [(K.semi, ';'), (K.comma, ','), (K.openSq, '['), (K.closeSq, ']'), (K.openBrace, '{'), (K.closeBrace, '}'), (K.colon, ':'), (K.caret, '^'), (K.tick, '`')]

/-- `Laid d toks s`: with `d` parentheses open the text `s` has the tokens `toks`. Between them there may be blanks, tabs, escaped ends of lines, comments up to the end of the
line and, in parentheses, ends of lines. An end of line outside of parentheses is a token, together with empty lines and blanks after it. Parentheses and the
signs above may be followed by anything, other tokens are followed by one of `separators`. After `else` there is something else than `if` (`else if` is one token). -/
inductive Laid : Nat → List (Tok Val) → Str → Prop
  | stop (d : Nat) : Laid d [] []
  | blank {d : Nat} {ts : List (Tok Val)} {r : Str} (c : Char) (hc : c = ' ' ∨ c = '\t') (h : Laid d ts r) : Laid d ts (c :: r)
  | line {d : Nat} {ts : List (Tok Val)} {r : Str} (h : Laid (d + 1) ts r) : Laid (d + 1) ts ('\n' :: r)
  | continued {d : Nat} {ts : List (Tok Val)} {r : Str} (h : Laid d ts r) : Laid d ts ('\\' :: '\n' :: r)
  | comment {d : Nat} {ts : List (Tok Val)} {r : Str} (s : Str) (hs : '\n' ∉ s) (h : Laid d ts ('\n' :: r)) : Laid d ts ('#' :: (s ++ '\n' :: r))
  | opens {d : Nat} {ts : List (Tok Val)} {r : Str} (h : Laid (d + 1) ts r) : Laid d (tk K.openParen "(" :: ts) ('(' :: r)
  | closes {d : Nat} {ts : List (Tok Val)} {r : Str} (h : Laid d ts r) : Laid (d + 1) (tk K.closeParen ")" :: ts) (')' :: r)
  | ends {ts : List (Tok Val)} {r : Str} (s : Str) (hs : ∀ c ∈ s, c = '\n' ∨ c = ' ' ∨ c = '\t') (hr : ∀ c ∈ r.head?, c ≠ '\n' ∧ c ≠ ' ' ∧ c ≠ '\t') (h : Laid 0 ts r) :
      Laid 0 ((K.newline, .str ('\n' :: s)) :: ts) ('\n' :: (s ++ r))
  | solo {d : Nat} {ts : List (Tok Val)} {r : Str} (k : Nat) (c : Char) (hc : (k, c) ∈ solos) (h : Laid d ts r) : Laid d ((k, .str [c]) :: ts) (c :: r)
  | token {d : Nat} {ts : List (Tok Val)} {r : Str} (k : Nat) (s : Str) (hk : k ∉ [K.openParen, K.closeParen, K.newline]) (hs : Written k s) (x : Char)
      (hx : x ∈ separators) (he : k = K.else_ → startsIf ((x :: r).dropWhile isSpace) = false) (h : Laid d ts (x :: r)) : Laid d ((k, .str s) :: ts) (s ++ x :: r)

end Drel
end Verif
