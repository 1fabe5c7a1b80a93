import Verif.Spec.FcChecks
import Verif.Spec.Names
import Verif.Spec.Tree
import Verif.Model.Hooks
/-! # Specification vocabulary for the checks on te and if files -/

namespace Selint.Spec

/-- `x` is the first element of `l` with the property. -/
def FirstIn {α : Type} (P : α → Prop) (l : List α) (x : α) : Prop :=
  ∃ before after, l = before ++ x :: after ∧ P x ∧ ∀ y ∈ before, ¬ P y

/-- The check ends normally, and it returns the result `r` iff `P r`. -/
def Reports (out : Res (Option CheckResult)) (P : CheckResult → Prop) : Prop :=
  ∃ o, out = .ok o ∧ ∀ r, o = some r ↔ P r

/-- The check ends normally; it returns a result iff some result has the property, and then
one that has it. -/
def ReportsOne (out : Res (Option CheckResult)) (P : CheckResult → Prop) : Prop :=
  ∃ o, out = .ok o ∧ (o = none ↔ ∀ r, ¬ P r) ∧ ∀ r, o = some r → P r

/-! ## Tables -/

/-- The first definition of the interface `name` is in module `mod`. -/
def InterfaceIn (ops : List MapOp) (name mod : Str) : Prop :=
  ∃ before after, ops = before ++ MapOp.iface name mod :: after ∧
    ∀ mod', MapOp.iface name mod' ∉ before

/-- Some insertion defines the interface. -/
def KnownInterface (ops : List MapOp) (name : Str) : Prop := ∃ mod, MapOp.iface name mod ∈ ops

/-- The first status given for the module is `status`. -/
def StatusIs (ops : List MapOp) (mod status : Str) : Prop :=
  ∃ before after, ops = before ++ MapOp.mod mod status :: after ∧
    ∀ s, MapOp.mod mod s ∉ before

/-- Some insertion gives a status for the module. -/
def KnownModule (ops : List MapOp) (mod : Str) : Prop := ∃ s, MapOp.mod mod s ∈ ops

/-- The first definition of the permission macro has at least one permission. -/
def KnownPermMacro (ops : List MapOp) (name : Str) : Prop :=
  ∃ before p ps after, ops = before ++ MapOp.permmacro name (p :: ps) :: after ∧
    ∀ l, MapOp.permmacro name l ∉ before

/-! ## Positions -/

/-- `a` is a block around `l`: it stands in the same tree and its position is a proper prefix
of the position of `l`. -/
def Encloses (a l : Loc) : Prop := a.unzip = l.unzip ∧ ∃ s, s ≠ [] ∧ l.addr = a.addr ++ s

/-- `r` stands at the nesting level of `l` or at a level around it, and there not after `l`
or the block that contains `l`. -/
def InScope (r l : Loc) : Prop :=
  r.unzip = l.unzip ∧ ∃ level i j below,
    l.addr = level ++ i :: below ∧ r.addr = level ++ [j] ∧ j ≤ i

/-- A `require` or `gen_require` block. -/
def RequireBlock (l : Loc) : Prop := l.flavor = .require ∨ l.flavor = .genReq

/-- The definition of an interface or template. -/
def Definition (l : Loc) : Prop := l.flavor = .interfaceDef ∨ l.flavor = .tempDef

/-- The block has among its statements a declaration of class `fl` that lists `name`. -/
def ListsSymbol (block : Loc) (name : Str) (fl : DeclFlavor) : Prop :=
  ∃ t ∈ block.focus.children, ∃ d, t.info.data = .decl d ∧ d.flavor = fl ∧
    (d.name = name ∨ name ∈ d.attrs)

/-! ## Names -/

/-- The statement uses the name: it mentions it, and not just as the name it declares. -/
def Uses : NodeData → Str → Prop
  | .decl d, x => ∃ w ∈ d.attrs, NameOf w x
  | d, x => ∃ w, Mentions d w ∧ NameOf w x

/-- Neighbouring elements of a list, from the left. -/
def neighbours {α : Type} (l : List α) : List (α × α) := l.zip l.tail

end Selint.Spec
