import Verif.Spec.ParseInMemory
import Verif.Model.MapsInMemory
/-!
# What the symbol tables look like in memory

`TablesAt m callOf t maps R`: in the memory `m` the tables `t` hold what `maps` says, and `R`
are the addresses of all objects they consist of. The calls of a template are not among those;
they are data of nodes of a tree. `callOf` says which call is at which address.
-/

namespace Selint.Spec

/-- An element of a table from strings to strings. -/
def StrElem (m : Mem) (p : Addr) (key val : Str) (R : List Addr) : Prop :=
  ∃ a b, m.obj p = some (.hash ⟨some a, some b⟩) ∧ m.obj a = some (.bytes key) ∧
    m.obj b = some (.bytes val) ∧ R = [a, b, p]

/-- An element of a table of marks. -/
def FlagElem (m : Mem) (p : Addr) (key : Str) (_ : Unit) (R : List Addr) : Prop :=
  ∃ a, m.obj p = some (.flag ⟨some a, 1⟩) ∧ m.obj a = some (.bytes key) ∧ R = [a, p]

/-- An element of the table of permission macros. -/
def MacroElem (m : Mem) (p : Addr) (key : Str) (perms : List Str) (R : List Addr) : Prop :=
  ∃ a l ps, m.obj p = some (.slHash ⟨some a, l⟩) ∧ m.obj a = some (.bytes key) ∧
    NamesAt m l perms ps ∧ R = [a] ++ ps ++ [p]

/-- An element of the table of templates. -/
def TemplateAt (callOf : Addr → IfCallData) (m : Mem) (p : Addr) (key : Str) (e : TemplateElem)
    (R : List Addr) : Prop :=
  ∃ a d c cs ps qs, m.obj p = some (.tmpl ⟨some a, d, c⟩) ∧ m.obj a = some (.bytes key) ∧
    DeclsAt m d (e.declarations.map fun x => ⟨x.1, x.2, []⟩) ps ∧ CallsAt m c cs qs ∧
    e.calls = cs.map callOf ∧ R = [a] ++ ps ++ qs ++ [p]

/-- The elements of a table one after the other. -/
inductive TableAt {β : Type} (E : Mem → Addr → Str → β → List Addr → Prop) (m : Mem) :
    List Addr → Assoc β → List Addr → Prop
  | nil : TableAt E m [] [] []
  | cons {p : Addr} {k : Str} {v : β} {ps : List Addr} {l : Assoc β} {R R' : List Addr} :
      E m p k v R → TableAt E m ps l R' → TableAt E m (p :: ps) ((k, v) :: l) (R ++ R')

/-- All tables from strings to strings. -/
def strTables : List StrTable :=
  [.type, .role, .user, .attrType, .attrRole, .bool, .cls, .perm, .mods, .modLayers, .ifs]

/-- All tables of marks. -/
def flagTables : List FlagTable := [.transform, .filetrans, .roleIf]

/-- What a table from strings to strings holds. -/
def strContents (maps : Maps) : StrTable → Assoc Str
  | .type => maps.type
  | .role => maps.role
  | .user => maps.user
  | .attrType => maps.attrType
  | .attrRole => maps.attrRole
  | .bool => maps.bool
  | .cls => maps.cls
  | .perm => maps.perm
  | .mods => maps.mods
  | .modLayers => maps.modLayers
  | .ifs => maps.ifs

/-- Which interfaces are marked. -/
def flagContents (maps : Maps) : FlagTable → List Str
  | .transform => maps.transform
  | .filetrans => maps.filetrans
  | .roleIf => maps.roleIf

/-- All tables. -/
def TablesAt (m : Mem) (callOf : Addr → IfCallData) (t : Tables) (maps : Maps) (R : List Addr) :
    Prop :=
  ∃ (P : StrTable → List Addr) (Q : FlagTable → List Addr) (A B : List Addr),
    (∀ i, TableAt StrElem m (t.str i) (strContents maps i) (P i)) ∧
    (∀ i, TableAt FlagElem m (t.flag i) ((flagContents maps i).map fun k => (k, ())) (Q i)) ∧
    TableAt MacroElem m t.permmacros maps.permmacros A ∧
    TableAt (TemplateAt callOf) m t.template maps.template B ∧
    R = strTables.flatMap P ++ flagTables.flatMap Q ++ A ++ B

/-- What a call of a function of maps.c does to the tables. -/
def opEffect (callOf : Addr → IfCallData) (maps : Maps) : TableOp → Maps
  | .decl name mod fl => maps.insertDecl name mod fl
  | .modStatus name status => maps.insertMod name status
  | .modLayer name layer => maps.insertModLayer name layer
  | .iface name mod => maps.insertIf name mod
  | .transform name => maps.markTransform name
  | .filetrans name => maps.markFiletrans name
  | .roleIf name => maps.markRole name
  | .template name => maps.insertTemplate name
  | .templateDecl name fl d => maps.insertTemplateDecl name fl d
  | .templateCall name call => maps.insertTemplateCall name (callOf call)
  | .permmacro name perms => maps.insertPermmacro name perms

/-- The lists of permissions that are handed over under a name that is in the table already,
`seen` being the names there from the beginning. -/
def redefined : List TableOp → (seen : List Str) → List (List Str)
  | [], _ => []
  | .permmacro name perms :: ops, seen =>
    if name ∈ seen then perms :: redefined ops seen else redefined ops (name :: seen)
  | _ :: ops, seen => redefined ops seen

end Selint.Spec
