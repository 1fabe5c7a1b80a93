import Verif.Model.Grammar
import Verif.Model.Template
import Verif.Spec.Maps
/-!
# Specification: what a policy file says to the symbol tables

A file declares names, calls interfaces and templates, and gives some interfaces a property
that other checks ask for. `linesFacts` lists these facts in source order. Whatever is inside
a require block states no fact.
-/

namespace Selint.Spec

/-- Something a statement says that the symbol tables record. -/
inductive Fact where
  /-- a declaration -/
  | declares (fl : DeclFlavor) (name : Str)
  /-- an alias of a type -/
  | aliases (name : Str)
  /-- a call; `inside` is the interface of whose body the call is a direct part -/
  | calls (c : IfCallData) (inside : Option Str)
  /-- the interface transforms its argument -/
  | transforms (i : Str)
  /-- the interface contains a type transition -/
  | filetrans (i : Str)
  /-- the interface gives a role types -/
  | roles (i : Str)
  deriving DecidableEq

/-- The name is that of a file transition interface. -/
def filetransName (n : Str) : Prop :=
  n = cs!"filetrans_pattern" ∨ n = cs!"filetrans_add_pattern" ∨ cs!"_filetrans" <:+ n

instance (n : Str) : Decidable (filetransName n) := by unfold filetransName; infer_instance

/-- The endings of the names of interfaces that transform their argument. -/
def transformEndings : List Str :=
  [cs!"_type", cs!"_file", cs!"_domain", cs!"_node", cs!"_agent", cs!"_delivery", cs!"_sender",
    cs!"_boolean", cs!"_content", cs!"_constrained", cs!"_executable", cs!"_exemption", cs!"_object",
    cs!"_mountpoint"]

/-- The name has one of these endings. -/
def transformName (n : Str) : Prop := ∃ e ∈ transformEndings, e <:+ n

instance (n : Str) : Decidable (transformName n) := by unfold transformName; infer_instance

/-- A fact about the enclosing interface, if there is one. -/
def about (inside : Option Str) (f : Str → Fact) (p : Prop) [Decidable p] : List Fact :=
  match inside with
  | some i => if p then [f i] else []
  | none => []

/-- The facts a declaration states. -/
def declFacts : Decl → List Fact
  | .type n => [.declares .type n]
  | .typeAttrs n _ => [.declares .type n]
  | .typeAlias n l => .declares .type n :: l.value.map .aliases
  | .typeAliasAttrs n l _ => .declares .type n :: l.value.map .aliases
  | .attr n => [.declares .attribute n]
  | .cls n _ => [.declares .cls n]
  | .role n => [.declares .role n]
  | .attributeRole n => [.declares .attributeRole n]
  | .bool n => [.declares .bool n]
  | .genBool n _ => [.declares .bool n]
  | .genTunableQuoted n _ => [.declares .bool n]
  | .genTunable n _ => [.declares .bool n]

/-- The facts an attribute statement states. -/
def attributeFacts (mod : Str) (inside : Option Str) : List Fact :=
  match inside with
  | some i => if transformName i ∨ mod = cs!"mls" ∨ mod = cs!"mcs" then [.transforms i] else []
  | none => []

/-- The facts a statement of module `mod` states. -/
def simpleFacts (mod : Str) (inside : Option Str) : Simple → List Fact
  | .decl d => declFacts d
  | .typeAlias _ l => l.value.map .aliases
  | .rule _ _ _ _ perms => about inside .transforms (cs!"associate" ∈ perms.value)
  | .typeAttribute _ _ | .roleAttribute _ _ => attributeFacts mod inside
  | .roleTypes _ l => about inside .roles (∃ t ∈ l.value, t.head? = some '$')
  | .typeTransition _ _ c _ _ | .typeMember _ _ c _ | .typeChange _ _ c _ | .rangeTransition _ _ c _ =>
    about inside .filetrans (cs!"process" ∉ c.value)
  | .call n none => [.calls ⟨n, []⟩ inside]
  | .call n (some a) => [.calls ⟨n, a.value⟩ inside]
  | _ => []

mutual
/-- The facts of lines. -/
def linesFacts (mod : Str) (inside : Option Str) : Lines → List Fact
  | .one l => lineFacts mod inside l
  | .more ls l => linesFacts mod inside ls ++ lineFacts mod inside l
/-- The facts of a line. -/
def lineFacts (mod : Str) (inside : Option Str) : Line → List Fact
  | .bare s => stmtFacts mod inside s
  | .withCommand s _ => stmtFacts mod inside s
/-- The facts of a statement. What is in a block is not a direct part of the interface. -/
def stmtFacts (mod : Str) (inside : Option Str) : Stmt → List Fact
  | .silent _ => []
  | .simple _ s => simpleFacts mod inside s
  | .optional _ _ body => linesFacts mod none body
  | .optionalEmpty _ _ => []
  | .optionalElse _ _ body _ els => linesFacts mod none body ++ linesFacts mod none els
  | .genRequire _ _ _ _ | .genRequireUnquoted _ _ _ | .require _ _ _ => []
  | .ifdef _ _ _ args => argsFacts mod args
  | .ifelse _ args => argsFacts mod args
  | .userdebugOrEng body => linesFacts mod inside body
  | .tunable _ _ _ args => argsFacts mod args
  | .boolean _ _ _ body => linesFacts mod none body
  | .booleanElse _ _ _ body els => linesFacts mod none body ++ linesFacts mod none els
  | .define _ _ _ _ => []
/-- The facts of m4 arguments. -/
def argsFacts (mod : Str) : M4Args → List Fact
  | .one _ a => argFacts mod a
  | .more as _ a => argsFacts mod as ++ argFacts mod a
/-- The facts of an m4 argument. -/
def argFacts (mod : Str) : M4Argument → List Fact
  | .empty => []
  | .emptyQuoted => []
  | .quoted body => linesFacts mod none body
  | .word _ => []
end

/-- The facts of the body of an interface or template. -/
def ifDefFacts (mod : Str) (d : IfDef) : List Fact :=
  match d.body with
  | none => []
  | some b => linesFacts mod (if d.isTemplate then none else some d.name) b

/-- The names that facts declare: parameters are not names, except in a list of aliases. -/
def declared : Fact → List (DeclFlavor × Str)
  | .declares fl n => if n.head? = some '$' then [] else [(fl, n)]
  | .aliases n => [(.type, n)]
  | _ => []

/-- The names that facts declare in a template: the same with parameters. -/
def templateDeclared : Fact → List (DeclFlavor × Str)
  | .declares fl n => [(fl, n)]
  | .aliases n => [(.type, n)]
  | _ => []

/-- The calls among facts. -/
def called : Fact → List IfCallData
  | .calls c _ => [c]
  | _ => []

/-- The definitions in an interface file. -/
def ifDefs (first : IfDef) (rest : List IfLine) : List IfDef :=
  first :: rest.filterMap fun | .defn d => some d | .comment _ => none

/-- The facts a policy file states outside templates. -/
def fileFacts (mod : Str) : SourceFile → List Fact
  | .te _ _ b => linesFacts mod none b
  | .iface _ d ls => ((ifDefs d ls).filter (!·.isTemplate)).flatMap (ifDefFacts mod)
  | _ => []

/-! ## The insertions a file stands for -/

/-- Declarations entered for a module. -/
def declOps (mod : Str) (ds : List (DeclFlavor × Str)) : List MapOp := ds.map fun d => .decl d.2 mod d.1

/-- Expanding the call `c` with the template table `T`, for whatever declarations are known,
enters `out` and returns `e`. -/
def Expansion (T : Assoc TemplateElem) (mod : Str) (c : IfCallData) (e : SelintError)
    (out : List (DeclFlavor × Str)) : Prop :=
  ∀ m, m.template = T →
    expandTemplate c.name c.argStrs mod m = .done e ((declOps mod out).foldl MapOp.apply m)

/-- The insertions for a fact outside templates. A declared name that is a parameter stands
for no name. A call stands for the declarations its expansion enters; if it succeeds and is
one of a file transition interface, the interface it is in is one as well. -/
def FactOps (T : Assoc TemplateElem) (mod : Str) : Fact → List MapOp → Prop
  | .calls c inside, ops => ∃ e out, Expansion T mod c e out ∧
      ops = declOps mod out ++
        match inside with
        | some i => if e = .success ∧ filetransName c.name then [.filetrans i] else []
        | none => []
  | .transforms i, ops => ops = [.transform i]
  | .filetrans i, ops => ops = [.filetrans i]
  | .roles i, ops => ops = [.role i]
  | f, ops => ops = declOps mod (declared f)

/-- The insertions for facts outside templates, in order. -/
def FactsOps (T : Assoc TemplateElem) (mod : Str) : List Fact → List MapOp → Prop
  | [], ops => ops = []
  | f :: fs, ops => ∃ a b, ops = a ++ b ∧ FactOps T mod f a ∧ FactsOps T mod fs b

/-- The insertions for a fact inside template `t`. -/
def templateFactOps (t : Str) (f : Fact) : List MapOp :=
  (templateDeclared f).map (fun d => .templateDecl t d.1 d.2) ++ (called f).map (.templateCall t)

/-- The insertions for a definition: its name, and the facts of its body. -/
def DefOps (m : Maps) (mod : Str) (d : IfDef) (ops : List MapOp) : Prop :=
  if d.isTemplate then
    ops = [.template d.name, .iface d.name mod] ++ (ifDefFacts mod d).flatMap (templateFactOps d.name)
  else ∃ a, ops = .iface d.name mod :: a ∧ FactsOps m.template mod (ifDefFacts mod d) a

/-- The insertions for definitions; every definition sees the templates before it. -/
def DefsOps (mod : Str) : Maps → List IfDef → List MapOp → Prop
  | _, [], ops => ops = []
  | m, d :: ds, ops => ∃ a b, ops = a ++ b ∧ DefOps m mod d a ∧ DefsOps mod (a.foldl MapOp.apply m) ds b

/-- The insertions for a support definition: only permission sets are recorded, and no
deprecated ones. -/
def sptOps (d : SptDef) : List MapOp :=
  if d.warn = none ∧ cs!"_perms" <:+ d.name then [.permmacro d.name d.list.value] else []

/-- The module name of access vectors. -/
def avModule : Str := cs!"__av_file__"

/-- The insertions for a list of permissions. -/
def avPermsOps (p : AvPerms) : List MapOp := p.all.filterMap fun o => o.map fun s => .decl s avModule .perm

/-- The insertions for an access vector definition. -/
def avOps : AvDef → List MapOp
  | .cls n p => avPermsOps p ++ [.decl n avModule .cls]
  | .inherits n _ => [.decl n avModule .cls]
  | .inheritsPerms n _ p => avPermsOps p ++ [.decl n avModule .cls]
  | .common _ p => avPermsOps p

/-- The insertions a file of module `mod` stands for, when the tables are `m` before. -/
def FileOps (m : Maps) (mod : Str) : SourceFile → List MapOp → Prop
  | .te _ _ b, ops => FactsOps m.template mod (linesFacts mod none b) ops
  | .iface _ d ls, ops => DefsOps mod m (ifDefs d ls) ops
  | .spt _ d ds, ops => ops = (some d :: ds).flatMap fun o => (o.map sptOps).getD []
  | .av _ d ds, ops => ops = (some d :: ds).flatMap fun o => (o.map avOps).getD []
  | .empty, ops => ops = []
  | .comments _ _, ops => ops = []

end Selint.Spec
