import Verif.Spec.ParseInMemory
import Verif.Model.ParseFc
/-!
# What a file context file leaves in memory
-/

namespace Selint.Spec

/-- 1 for an entry whose context is written with `gen_context`. -/
def genContexts : NodeData → Nat
  | .fc ⟨_, _, some c⟩ => if c.hasGenContext then 1 else 0
  | _ => 0

/-- The nodes of a file context file as trees. -/
def fcTrees (ns : List FcNode) : List Tree := ns.map fun n => .mk ⟨n.data, none, n.lineno⟩ []

/-- What there is after a file context file with the nodes `ns` has been read, beginning with
the memory `m₀`: a list of nodes, owning `T`, and strings `L` that nothing points to. -/
structure FcParsed (m₀ : Mem) (ns : List FcNode) (ast : Addr) (m : Mem) (T L : List Addr) :
    Prop where
  /-- the list is the one of the functional model -/
  tree : NodesAt m none none (some ast) (fcTrees ns) T
  strings : StringsAt m L
  /-- at most one string is lost for each context that is written with `gen_context` -/
  few : L.length ≤ (ns.map fun n => genContexts n.data).sum
  /-- nothing else was allocated, and nothing that was there is changed -/
  grows : Grows m₀ m (T ++ L)

end Selint.Spec
