import Verif.Spec.DrelFits
import Verif.Model.DrelPy
/-! # Dictionaries and states in which expressions are translated -/
namespace Verif
namespace DrelMeaning
open DrelPy PyText
variable [CaseFold]

/-- Names and tags: what can be bound to a category or hold a packet. Names that begin with two underlines are the translator's. -/
def ident (s : Str) : Bool :=
  s.all nameChar && !(s.head?.all Char.isDigit) && s.take 2 != "__".toList

/-- The variables that stand for items of the current packet, from the table of the translator. -/
def varsOf (W : Dict Str (Str × Nat × Bool)) : Dict Str Str := W.map fun p => (p.1, p.2.1)

/-- Texts that can be put between quotes. -/
def plain (s : Str) : Bool := s.all plainChar

/-- A dictionary the translation can handle: there is an item to derive; names of items have no quotes or backslashes; loop
categories are called by names. -/
structure EnvOk (env : Env) (tg : Str) : Prop where
  target : env.target = some tg
  names : ∀ k ns, dget env.names k = some ns → ∀ n ∈ ns, plain n = true ∧ plain (lower n) = true
  loops : ∀ c ∈ dkeys env.loopable, ident c = true

/-- Aliases and variables the translation can handle. -/
structure BindOk (ids : Dict Str Alias) (packets : Dict Str Str) : Prop where
  ids : ∀ k al, dget ids k = some al → ident k = true ∧ plain al.cat = true ∧ (al.loop = true → pyName al.index = true)
  packets : ∀ k c, dget packets k = some c → ident k = true

/-- The variable for the `i`-th item of the current packet that is used: `__w` and the digits of `i`. -/
def packetVar (i : Nat) : Str := "__w".toList ++ Nat.toDigits 10 i

/-- The state between expressions: what is bound to categories and packets, whether lists are allowed, and that every item of the
current packet that is used has its own variable. -/
structure Inv (ids : Dict Str Alias) (packets : Dict Str Str) (rhs : Bool) (st : St) : Prop where
  ids : st.ids = ids
  packets : st.packets = packets
  rhs : rhs = true → st.rhs = some true
  vars : ∀ i k w, st.withtable[i]? = some (k, w) → w.1 = packetVar i
  once : (dkeys st.withtable).Nodup

section
variable (env : Env) (tg : Str) (ids : Dict Str Alias) (packets : Dict Str Str)

/-- What names refer to. -/
abbrev viewOf (W : Dict Str (Str × Nat × Bool)) : View := View.of env.names (dkeys env.loopable) tg ids packets (varsOf W)

/-- The names of categories. -/
def catsOf (x : Str) : Bool := (dget ids x).isSome || (dkeys env.loopable).contains x

/-- Object `a` of the loop packet `x` is the item that is derived. -/
def ownOf (x a : Str) : Bool :=
  (dget ids x).any fun al => al.loop && ((View.of env.names [] [] [] [] []).item (lower al.cat) (lower a)).any fun n =>
    env.target.any fun t => lower n = lower t

end

/-- What names refer to, when every item of the current packet has a variable. -/
abbrev fullView (env : Env) (tg : Str) (ids : Dict Str Alias) (packets : Dict Str Str) : View :=
  { viewOf env tg ids packets [] with var := fun n => some n }

end DrelMeaning
end Verif
