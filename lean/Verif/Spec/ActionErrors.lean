import Verif.Model.ActionErrors
import Verif.Spec.SyntaxOutput
/-!
# What an action may refuse
-/

namespace Selint
namespace Spec
open Lr

/-- The words that begin an access vector rule. -/
def avWord : Keyword → Option AvFlavor
  | .allow => some .allow
  | .auditAllow => some .auditallow
  | .dontAudit => some .dontaudit
  | .neverAllow => some .neverallow
  | _ => none

/-- What each kind of file is called in messages. -/
def fileWord : PlainFlavor → Str
  | .teFile => cs!"te"
  | .ifFile => cs!"if"
  | .sptFile => cs!"spt"
  | .avFile => cs!"av"
  | _ => []

/-- The parts of a text that only one kind of file has: the header of a te file; the beginning of an
interface or template; a definition in a support file; a class with access vectors. -/
def onlyIn : Nt → Option PlainFlavor
  | .header => some .teFile
  | .startInterface => some .ifFile
  | .supportDef => some .sptFile
  | .avClassDefinition => some .avFile
  | _ => none

/-- A class that inherits and has no permissions of its own. -/
def plainClass : List Sym := [.t (.kw .cls), .t .string, .t (.kw .inherits), .t .string]

/-- The messages about a part of the text that is right by the grammar: it belongs into another kind of
file than the one expected; or it lacks the class and the permissions, which only `allow` may. -/
def Refused (expected : PlainFlavor) (part : Nt) (words : List Term) (msg : Str) : Prop :=
  (∃ fl, onlyIn part = some fl ∧ expected ≠ fl ∧
    msg = cs!"Error: Unexpected " ++ fileWord fl ++ cs!"-file parsed") ∨
  (part = .roleAllow ∧ msg = cs!"Incomplete AV rule" ∧
    ∃ k fl rest, words = .kw k :: rest ∧ avWord k = some fl ∧ fl ≠ .allow)

/-- `yyparse`, with the locations and the time of reading, comes from `q₀` to `q`. -/
inductive AskingReaches (before : Location) (fin : Location × LineCache) (q₀ : Asking) : Asking → Prop
  | refl : AskingReaches before fin q₀ q₀
  | step {q q' : Asking} : AskingReaches before fin q₀ q → q.step before fin = some q' →
      AskingReaches before fin q₀ q'

end Spec
end Selint
