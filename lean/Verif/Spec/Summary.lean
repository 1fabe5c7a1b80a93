import Verif.Model.Hooks
import Verif.Spec.Selection
/-! # Specification of the summary -/

namespace Selint.Spec

/-- An id as printed by selint: severity letter (C, S, W or E), dash, three digits. -/
def CanonId (s : Str) : Prop :=
  ∃ sev d1 d2 d3, s = [sev, '-', d1, d2, d3] ∧ sev ∈ cs!"CSWE" ∧
    d1 ∈ cs!"0123456789" ∧ d2 ∈ cs!"0123456789" ∧ d3 ∈ cs!"0123456789"

/-- Sort key of an id: severity first, then number. -/
def idKey : Str → Nat
  | [sev, _, d1, d2, d3] =>
    ((severityRank sev).getD 9) * 1000 + (d1.toNat - 48) * 100 + (d2.toNat - 48) * 10
      + (d3.toNat - 48)
  | _ => 0

/-- Total number of issues of an id. -/
def totalIssues {F : Type} (id : Str) (hooks : List (CheckNode F)) : Nat :=
  ((hooks.filter fun h => decide (h.id = id)).map (·.issuesFound)).sum

end Selint.Spec
