import Verif.Model.Tree
/-! # Specification: the names a statement mentions -/

namespace Selint.Spec

/-- `Mentions d s`: the statement `d` has the word `s` in a place where a type, attribute or
role (or, for declarations, the declared name) stands. Classes, permissions, file names of
named transitions and ranges are not such places. -/
inductive Mentions : NodeData → Str → Prop
  | avSource {d : AvData} {s : Str} : s ∈ d.sources → Mentions (.av d) s
  | avTarget {d : AvData} {s : Str} : s ∈ d.targets → Mentions (.av d) s
  | xavSource {d : AvData} {op : Str} {s : Str} : s ∈ d.sources → Mentions (.xav d op) s
  | xavTarget {d : AvData} {op : Str} {s : Str} : s ∈ d.targets → Mentions (.xav d op) s
  | ttSource {d : TtData} {s : Str} : s ∈ d.sources → Mentions (.tt d) s
  | ttTarget {d : TtData} {s : Str} : s ∈ d.targets → Mentions (.tt d) s
  | ttDefault {d : TtData} : Mentions (.tt d) d.defaultType
  | rtSource {d : RtData} {s : Str} : s ∈ d.sources → Mentions (.rt d) s
  | rtTarget {d : RtData} {s : Str} : s ∈ d.targets → Mentions (.rt d) s
  | rtDefault {d : RtData} : Mentions (.rt d) d.defaultRole
  | declName {d : DeclData} : Mentions (.decl d) d.name
  | declAttr {d : DeclData} {s : Str} : s ∈ d.attrs → Mentions (.decl d) s
  | callArg {d : IfCallData} {s : Str} {b : Bool} : (s, b) ∈ d.args → Mentions (.ifCall d) s
  | allowFrom {d : RoleAllowData} {s : Str} : s ∈ d.frm → Mentions (.roleAllow d) s
  | allowTo {d : RoleAllowData} {s : Str} : s ∈ d.to → Mentions (.roleAllow d) s
  | rtypesRole {d : RoleTypesData} : Mentions (.roleTypes d) d.role
  | rtypesType {d : RoleTypesData} {s : Str} : s ∈ d.types → Mentions (.roleTypes d) s
  | attrType {d : AttrData} : Mentions (.attr d) d.type
  | attrAttr {d : AttrData} {s : Str} : s ∈ d.attrs → Mentions (.attr d) s
  | alias {s : Str} : Mentions (.plain .alias (some s)) s
  | typeAlias {s : Str} : Mentions (.plain .typeAlias (some s)) s
  | permissive {s : Str} : Mentions (.plain .permissive (some s)) s

/-- `x` is the name in the word `w`: the word without a leading exclusion dash. -/
def NameOf (w x : Str) : Prop := w = '-' :: x ∨ (w = x ∧ ∀ t, w ≠ '-' :: t)

end Selint.Spec
