import Verif.Spec.Tree
/-! # Specification: transform interfaces -/

namespace Selint.Spec

/-- Statements that do not count as the first statement of an interface. -/
def SkippedInBody (t : Tree) : Prop :=
  t.info.flavor = .startBlock ∨ t.info.flavor = .require ∨ t.info.flavor = .genReq

/-- The body of interface `n` starts, after requires, with a call to `c`. -/
def StartsWithCall (t : Tree) (n c : Str) : Prop :=
  t.info.data = .plain .interfaceDef (some n) ∧
  ∃ skipped call rest d, t.children = skipped ++ call :: rest ∧ (∀ s ∈ skipped, SkippedInBody s) ∧
    call.info.data = .ifCall d ∧ d.name = c

mutual
/-- The subtree `t` occurs somewhere in a tree. -/
inductive OccursIn (t : Tree) : Tree → Prop
  | here : OccursIn t t
  | inside {i : NodeInfo} {cs : List Tree} : OccursInList t cs → OccursIn t (.mk i cs)
/-- ... in one of a list of trees. -/
inductive OccursInList (t : Tree) : List Tree → Prop
  | head {u : Tree} {us : List Tree} : OccursIn t u → OccursInList t (u :: us)
  | tail {u : Tree} {us : List Tree} : OccursInList t us → OccursInList t (u :: us)
end

/-- The transform interfaces of a set of files (each a list of trees), when the interfaces in
`base` are already known to be: the least set that contains `base` and every interface whose
body starts with a call to a member. -/
inductive Transform (files : List (List Tree)) (base : Str → Prop) : Str → Prop
  | base {n : Str} : base n → Transform files base n
  | call {n c : Str} {f : List Tree} {t : Tree} : f ∈ files → OccursInList t f →
      StartsWithCall t n c → Transform files base c → Transform files base n

end Selint.Spec
