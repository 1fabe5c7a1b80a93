import Verif.Model.Hooks
import Verif.Spec.Tree
import Verif.Lemmas.Basic
/-!
# Specification of a check run

A run is a sequence of *invocations*: a node and one of the hooks on its flavor.
-/

namespace Selint.Spec

/-- The selint-disable text of a node mentions an id. -/
def Excepted (id : Str) (l : Loc) : Prop := ∃ e, l.info.exceptions = some e ∧ id <:+: e

instance (id : Str) (l : Loc) : Decidable (Excepted id l) :=
  match h : l.info.exceptions with
  | none => isFalse (by rintro ⟨e, he, _⟩; simp [h] at he)
  | some e =>
    if h' : id <:+: e then isTrue ⟨e, h, h'⟩
    else isFalse (by rintro ⟨e', he, h''⟩; rw [h] at he; cases he; exact h' h'')

/-- One call of a check function: on which node, by which hook (its index in the list of
the node's flavor), which function. -/
structure Invocation (F : Type) where
  node : Loc
  idx : Nat
  fn : F

/-- The invocations on one node: its flavor's hooks in order, without the excepted ones. -/
def invocationsAt {F : Type} (ck : Checks F) (l : Loc) : List (Invocation F) :=
  ((ck l.flavor).zipIdx.filter fun hi => ¬ Excepted hi.1.id l).map fun hi => ⟨l, hi.2, hi.1.fn⟩

/-- Execute invocations one after the other, each seeing the static state its
predecessors left; collect for every invocation its result. -/
def execute {F σ : Type} (exec : Exec F σ) (data : CheckData) :
    List (Invocation F) → σ → σ × List (Invocation F × Option CheckResult)
  | [], st => (st, [])
  | v :: rest, st =>
    let r := exec v.fn data v.node st
    let q := execute exec data rest r.1
    (q.1, (v, r.2) :: q.2)

/-- The findings among the results, with file name and line number filled in. -/
def findings {F : Type} (data : CheckData) (rs : List (Invocation F × Option CheckResult)) :
    List Finding :=
  rs.filterMap fun vr => vr.2.map fun res => ⟨data.filename, vr.1.node.info.lineno, res⟩

/-- How many findings hook number `i` of flavor `fl` produced. -/
def countFor {F : Type} (fl : NodeFlavor) (i : Nat)
    (rs : List (Invocation F × Option CheckResult)) : Nat :=
  rs.countP fun vr => decide (vr.1.node.flavor = fl) && decide (vr.1.idx = i) && vr.2.isSome

end Selint.Spec
