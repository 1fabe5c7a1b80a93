import Verif.Model.Basic
/-! # The documented format of selint-disable lists (README, SELINT EXCEPTIONS) -/

namespace Selint.Spec

/-- A check id as a user writes it: severity letter, dash, one or more digits. -/
def IsId (s : Str) : Prop :=
  ∃ sev digits, s = sev :: '-' :: digits ∧ sev ∈ cs!"CSWEF" ∧ digits ≠ [] ∧
    ∀ d ∈ digits, d ∈ cs!"0123456789"

/-- `Listing ids text`: the text lists the ids, separated by `,` or `, `. -/
inductive Listing : List Str → Str → Prop
  | one (id : Str) : Listing [id] id
  | cons (id : Str) {ids : List Str} {text : Str} (sep : Str)
      (hsep : sep = cs!"," ∨ sep = cs!", ") (h : Listing ids text) :
      Listing (id :: ids) (id ++ sep ++ text)

end Selint.Spec
