import Verif.Model.Dispatch
import Verif.Spec.Ordering
import Verif.Spec.Tree
/-! # Specification vocabulary: what the checks may rely on -/

namespace Selint.Spec

/-- What the check functions rely on without testing it: rules have sources, targets and
classes; words and definitions have a name; a require block starts with its marker. -/
def NodeOk (i : NodeInfo) (cs : List Tree) : Prop :=
  (match i.data with
    | .av d | .xav d _ => d.sources ≠ [] ∧ d.targets ≠ [] ∧ d.objectClasses ≠ []
    | .plain .m4SimpleMacro s | .plain .interfaceDef s | .plain .tempDef s => s ≠ none
    | .genReq _ | .plain .require _ => ∃ c rest, cs = c :: rest ∧ c.info.flavor = .startBlock
    | _ => True)

mutual
/-- All nodes of a tree are as the checks expect. -/
def TreeOk : Tree → Prop
  | .mk i cs => NodeOk i cs ∧ ForestOk cs
/-- All nodes of a forest are as the checks expect. -/
def ForestOk : List Tree → Prop
  | [] => True
  | t :: ts => TreeOk t ∧ ForestOk ts
end

/-- A te file for the checks: empty, or a file node without a `selint-disable` followed by
statements, with line numbers that fit into an `unsigned int`. -/
def CheckableTe (ts : List Tree) : Prop :=
  (∃ line, ts = [.mk ⟨.plain .empty none, none, line⟩ []]) ∨
  ∃ root rest, ts = root :: rest ∧ TeFile ⟨root, [], rest, []⟩ ∧ root.info.exceptions = none ∧
    ∀ i ∈ Tree.preorderList ts, i.lineno < 2 ^ 32

/-- What the checks rely on in the tree of a file. -/
def Checkable (flavor : FileFlavor) (ts : List Tree) : Prop :=
  ForestOk ts ∧ (flavor = .teFile → CheckableTe ts)

/-- The internal errors that remain: C-001 finds no reason, and C-006 meets something other
than a declaration in the require block `l`. -/
def KnownInternal (l : NodeInfo) (children : List Tree) (res : CheckResult) : Prop :=
  res = internalError cs!"Failed to compute reason C-001" ∨
  (isRequireBlock l = true ∧ res = internalError cs!"Non declaration node in require block" ∧
    ∃ t ∈ children.tail, t.info.flavor ≠ .decl)

end Selint.Spec
