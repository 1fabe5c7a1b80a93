import Verif.Model.Location
import Verif.Model.Lr
/-!
# The language of the grammar, and where a text leaves it

What the productions of parse.y describe, without their actions, as in any book on grammars. A
text has its syntax error at the first token with which no file begins that begins like it.
-/

namespace Selint
namespace Spec
open Lr

/-- A sequence of symbols stands for these tokens. -/
inductive Yields : List Sym → List Term → Prop
  | nil : Yields [] []
  | token {x : Term} {xs : List Sym} {ws : List Term} : Yields xs ws →
      Yields (.t x :: xs) (x :: ws)
  | production {r : Rule} {xs : List Sym} {us ws : List Term} : r ∈ rules → Yields r.rhs us →
      Yields xs ws → Yields (.n r.lhs :: xs) (us ++ ws)

/-- The tokens of a whole file. -/
def Sentence (ws : List Term) : Prop := Yields [.n .selinuxFile] ws

/-- The kinds of the tokens of a file. -/
def termsOf (ts : Located) : List Term := ts.map fun t => (term t.2).1

/-- The first `n` tokens are the beginning of some file; together with the token that comes next,
or as a whole file if none does, they are not. -/
structure ErrorAfter (n : Nat) (ts : List Term) : Prop where
  inside : n ≤ ts.length
  good : ∃ more, Sentence (ts.take n ++ more)
  bad : ∀ more, more.head? = (ts.drop n).head? → ¬ Sentence (ts.take n ++ more)

end Spec
end Selint
