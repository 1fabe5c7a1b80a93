import Verif.Spec.Lr
import Verif.Model.LrLines
import Verif.Model.Location
/-!
# The moves of the parser, with lines
-/

namespace Selint
namespace Spec
open Lr

/-- The token that a move reads, with its line. -/
def placedTokenOf : LinedMove → Located
  | .read line (some t) => [(line, t)]
  | _ => []

/-- The parser can come from `s₀` to `s`, whatever its tables make it do, and it has read these
tokens from these lines. -/
inductive LinedReaches (s₀ : Lined) : Located → Lined → Prop
  | refl : LinedReaches s₀ [] s₀
  | move {ts : Located} {s s' : Lined} {mv : LinedMove} : LinedReaches s₀ ts s →
      s.step mv = some (.ok (.go s')) → LinedReaches s₀ (ts ++ placedTokenOf mv) s'

end Spec
end Selint
