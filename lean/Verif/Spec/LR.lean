import Verif.Model.LR
/-! # Specification: derivations of a grammar -/
namespace Verif
namespace LR

/-- `Derives G xs w vs`: the tokens `w` are made up of parts that are derived from the symbols `xs` in turn, and `vs` are the values of these parts.
The value of a token is its own; the value of a nonterminal is computed by the production from the values of the parts of its right hand side. -/
inductive Derives {V : Type} (G : List (Rule V)) : List Sym → List (Tok V) → List V → Prop
  | nil : Derives G [] [] []
  | tok (k : Nat) (v : V) {xs : List Sym} {w : List (Tok V)} {vs : List V} : Derives G xs w vs → Derives G (.t k :: xs) ((k, v) :: w) (v :: vs)
  | rule {r : Rule V} {w₁ : List (Tok V)} {us : List V} {xs : List Sym} {w₂ : List (Tok V)} {vs : List V} : r ∈ G →
      Derives G r.rhs w₁ us → Derives G xs w₂ vs → Derives G (.n r.lhs :: xs) (w₁ ++ w₂) (r.act us :: vs)

/-- The tokens `w` are a phrase of the nonterminal `a` with value `v`. -/
def Phrase {V : Type} (G : List (Rule V)) (a : Nat) (w : List (Tok V)) (v : V) : Prop := Derives G [.n a] w [v]

end LR
end Verif
