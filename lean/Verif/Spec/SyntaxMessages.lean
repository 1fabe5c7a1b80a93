import Verif.Spec.Sentences
/-!
# What may come next
-/

namespace Selint
namespace Spec
open Lr

/-- After these tokens the text may go on with this one, or end. -/
def MayFollow (us : List Term) (x : Term) : Prop :=
  (x = .eof ∧ Sentence us) ∨ (x ≠ .eof ∧ ∃ more, Sentence (us ++ x :: more))

/-- After these tokens any statement may come. -/
def StatementMayFollow (us : List Term) : Prop :=
  ∀ w, Yields [.n .bareLine] w → ∃ more, Sentence (us ++ w ++ more)

/-- The line of the token at a place, or of the end of the text. -/
def lineAt (ts : Located) (endLine n : Nat) : Nat := ((ts[n]?).map (·.1)).getD endLine

/-- The kind of the token at a place, or the end of the text. -/
def kindAt (ts : Located) (n : Nat) : Term := ((termsOf ts)[n]?).getD .eof

/-- How tokens that were expected are listed. -/
def expects (names : List Str) : Str :=
  if names = [] then [] else cs!", expecting " ++ (cs!" or ").intercalate names

end Spec
end Selint
