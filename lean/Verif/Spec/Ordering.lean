import Verif.Model.Ordering
/-! # Specification vocabulary for the line ordering check -/

namespace Selint.Spec

/-- Each element of the list may follow its predecessor. -/
def Follows {α : Type} (R : α → α → Prop) : List α → Prop
  | [] => True
  | [_] => True
  | a :: b :: l => R a b ∧ Follows R (b :: l)

/-- The lines marked as being in order, in file order. -/
def kept {α : Type} : List α → List (OrderNode α) → List α
  | x :: xs, n :: ns => if n.inOrder then x :: kept xs ns else kept xs ns
  | _, _ => []

/-- The four kinds of conditional blocks. -/
inductive Conditional where
  | optional | boolean | tunable | buildOption
  deriving DecidableEq, Repr

/-- The kind of conditional block a node opens, if any. -/
def conditionalOf : NodeFlavor → Option Conditional
  | .optionalPolicy | .optionalElse => some .optional
  | .booleanPolicy => some .boolean
  | .tunablePolicy => some .tunable
  | .ifdef | .ifelse => some .buildOption
  | _ => none

/-- The outermost conditional block among a node (first in the list) and its ancestors. -/
def outermost (l : Loc) : Option Conditional :=
  ((l.flavor :: l.ups.map (·.info.flavor)).filterMap conditionalOf).getLast?

/-! ### The shape of a parsed te file -/

/-- Blocks whose first child decides their section. -/
def isConditional (f : NodeFlavor) : Bool := (conditionalOf f).isSome

/-- Statements that may introduce aliases. -/
def hasAliases (f : NodeFlavor) : Bool := f = .decl ∨ f = .typeAlias

/-- A list of names whose first name does not start with an underscore (the scanner produces
no such name). -/
def OrdinaryFirst (ss : List Str) : Prop := ∀ s, ss.head? = some s → s.head? ≠ some '_'

/-- Rules have sources and targets, and these and the arguments of calls are ordinary names. -/
def RuleShaped : NodeData → Prop
  | .av d | .xav d _ => d.sources ≠ [] ∧ OrdinaryFirst d.sources
  | .tt d => d.targets ≠ [] ∧ OrdinaryFirst d.targets
  | .ifCall d => OrdinaryFirst d.argStrs
  | _ => True

/-- Conditions on one node and its children. -/
def NodeShaped (i : NodeInfo) (cs : List Tree) : Prop :=
  -- a block starts with its marker, which occurs nowhere else and has no children; the
  -- children of a declaration are its aliases
  (∀ c, cs.head? = some c → c.info.flavor = if hasAliases i.flavor then .alias else .startBlock) ∧
  (∀ c ∈ cs.tail, c.info.flavor ≠ .startBlock) ∧
  (i.flavor = .startBlock → cs = []) ∧
  (isConditional i.flavor → cs ≠ []) ∧
  RuleShaped i.data ∧
  -- only node kinds that occur in te files
  i.flavor ∉ [.teFile, .ifFile, .fcFile, .sptFile, .avFile, .interfaceDef, .tempDef, .fcEntry,
    .cleanup]

mutual
/-- A tree as the parser builds it for te files. -/
def Shaped : Tree → Prop
  | .mk i cs => NodeShaped i cs ∧ ShapedList cs
/-- All trees of a list are as the parser builds them. -/
def ShapedList : List Tree → Prop
  | [] => True
  | t :: ts => Shaped t ∧ ShapedList ts
end

/-- A parsed te file: the file node and at least one statement after it (the grammar
requires a module header). -/
structure TeFile (head : Loc) : Prop where
  flavor : head.flavor = .teFile
  top : head.ups = []
  childless : head.focus.children = []
  nonempty : head.rights ≠ []
  shaped : ShapedList head.rights
  noMarker : ∀ t ∈ head.rights, t.info.flavor ≠ .startBlock

end Selint.Spec
