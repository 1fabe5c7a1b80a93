import Verif.Model.ModulesConf
/-! # Specification of modules.conf lines -/

namespace Selint.Spec

/-- White space of modules.conf. -/
def isWs (c : Char) : Prop := c = ' ' ∨ c = '\t' ∨ c = '\n' ∨ c = '\r'

/-- A word: not empty, no white space, no `=`, no NUL. -/
def IsWord (w : Str) : Prop := w ≠ [] ∧ ∀ c ∈ w, ¬ isWs c ∧ c ≠ '=' ∧ c ≠ '\x00'

/-- Text behind the status that is ignored: no `=`, no NUL. -/
def IsTrailer (t : Str) : Prop := ∀ c ∈ t, c ≠ '=' ∧ c ≠ '\x00'

/-- A line `name = status`: `indent name gap₁ = gap₂ status gap₃ trailer` where the first and
the third gap are not empty (the newline can be the third). -/
structure EntryLine (line name status : Str) : Prop where
  shape : ∃ indent gap1 gap2 gap3 trailer,
    line = indent ++ name ++ gap1 ++ '=' :: (gap2 ++ status ++ gap3 ++ trailer) ∧
    (∀ c ∈ indent, isWs c) ∧ (∀ c ∈ gap1, isWs c) ∧ (∀ c ∈ gap2, isWs c) ∧
    (∀ c ∈ gap3, isWs c) ∧ gap1 ≠ [] ∧ gap3 ≠ [] ∧ IsTrailer trailer
  nameWord : IsWord name
  statusWord : IsWord status
  noComment : name.head? ≠ some '#'

/-- A blank line or a comment. -/
def IgnoredLine (line : Str) : Prop :=
  ∃ indent rest, line = indent ++ rest ∧ (∀ c ∈ indent, isWs c) ∧
    (rest = [] ∨ rest.head? = some '#')

/-- What each line of a well-formed file says. -/
inductive ModLine : Str → Option (Str × Str) → Prop where
  | ignored {line} : IgnoredLine line → ModLine line none
  | entry {line name status} : EntryLine line name status → ModLine line (some (name, status))

end Selint.Spec
