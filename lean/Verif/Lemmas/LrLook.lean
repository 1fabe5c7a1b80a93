import Verif.Lemmas.LrDerives
import Verif.Lemmas.LrMachine
/-!
# The token that the parser has read
-/

namespace Selint
namespace Lr

/-- What the token that was read stands for. -/
def LookIs : Option Entry → List FVal → List Token → Prop
  | none, f, us => f = [] ∧ us = []
  | some e, f, us => ∃ t, e.sym = tokenSym t ∧ f = [tokenVal t] ∧ us = t.toList

theorem LookIs.length {l : Option Entry} {f : List FVal} {us : List Token} (h : LookIs l f us) :
    f.length = l.toList.length := by
  cases l with
  | none => rw [h.1]; rfl
  | some e => obtain ⟨t, -, rfl, -⟩ := h; rfl

theorem readToken_look (c : Config) (t : Option Token) :
    ∃ v, (readToken c t).look = some ⟨tokenSym t, v⟩ ∧ (readToken c t).stack = c.stack := by
  cases t with
  | none => exact ⟨_, rfl, rfl⟩
  | some t => cases t <;> exact ⟨_, rfl, rfl⟩

end Lr
end Selint
