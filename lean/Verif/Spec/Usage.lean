import Verif.Model.Usage
import Verif.Model.Getopt
/-!
# Reading the help text
-/

namespace Selint
namespace Spec

/-- An option as the help text shows it: its letter, its name, and whether it takes an argument. -/
structure HelpEntry where
  letter : Option Char
  name : Str
  takesArg : Bool
  deriving DecidableEq

/-- The lines of a text. -/
def helpLines : Str → List Str
  | [] => [[]]
  | '\n' :: s => [] :: helpLines s
  | c :: s =>
    match helpLines s with
    | [] => [[c]]
    | l :: ls => (c :: l) :: ls

/-- The name after the dashes, and whether `=` and a word for the argument follow. -/
def helpName (letter : Option Char) (s : Str) : HelpEntry :=
  let name := s.takeWhile fun c => c ≠ '=' && c ≠ '\t'
  ⟨letter, name, (s.drop name.length).head? == some '='⟩

/-- A line about an option begins with `  -x, --name` or with `      --name`. -/
def helpEntry : Str → Option HelpEntry
  | ' ' :: ' ' :: '-' :: c :: ',' :: ' ' :: '-' :: '-' :: s => some (helpName (some c) s)
  | ' ' :: ' ' :: ' ' :: ' ' :: ' ' :: ' ' :: '-' :: '-' :: s => some (helpName none s)
  | _ => none

/-- The options that the help text shows. -/
def helpEntries (text : Str) : List HelpEntry := (helpLines text).filterMap helpEntry

/-- Does an option take an argument? -/
def _root_.Selint.OptSpec.takesArg : OptSpec → Bool
  | .flag _ => false
  | .arg _ => true

end Spec
end Selint
