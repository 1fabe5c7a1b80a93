import Verif.Model.LalrDriver
/-!
# What `yyparse` does
-/

namespace Selint
namespace Spec
open Lr

/-- `yyparse` comes from `d₀` to `d`. -/
inductive DriveReaches (d₀ : Drive) : Drive → Prop
  | refl : DriveReaches d₀ d₀
  | step {d d' : Drive} : DriveReaches d₀ d → d.step = .ok (.go d') → DriveReaches d₀ d'

/-- The same, with the number of rounds. -/
inductive DriveRounds (d₀ : Drive) : Nat → Drive → Prop
  | none : DriveRounds d₀ 0 d₀
  | one {n : Nat} {d d' : Drive} : DriveRounds d₀ n d → d.step = .ok (.go d') →
      DriveRounds d₀ (n + 1) d'

end Spec
end Selint
