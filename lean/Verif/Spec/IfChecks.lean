import Verif.Spec.Checks
/-! # Specification of the checks on if files -/

namespace Selint.Spec

/-! ## C-006 -/

/-- In the configured order of flavors `a` stands before `b` (or `b` does not stand in it). -/
def FlavorBefore (order : List DeclFlavor) (a b : DeclFlavor) : Prop :=
  a ≠ b ∧ ∃ before after, order = before ++ a :: after ∧ b ∉ before

/-- The name as it is sorted: a final `_t` counts as two underscores. -/
def sortKey (s : Str) : Str :=
  if cs!"_t" <:+ s then s.take (s.length - 2) ++ cs!"__" else s

/-- The name without a final `_t`. -/
def withoutT (s : Str) : Str := if cs!"_t" <:+ s then s.take (s.length - 2) else s

/-- Two different names that the comparison cannot tell apart. -/
def Confused (a b : Str) : Prop :=
  ∃ q s, (a = q ++ cs!"_t" ∧ b = q ++ cs!"__" ++ s) ∨ (b = q ++ cs!"_t" ∧ a = q ++ cs!"__" ++ s)

/-- `a` is a name that stands before `b`. -/
def NameBefore (a b : Str) : Prop := sortKey a < sortKey b ∧ ¬ Confused a b

/-- The declaration `a` may be followed by `b`. -/
def MayPrecede (config : ConfigCheckData) (a b : DeclData) : Prop :=
  FlavorBefore config.orderRequires a.flavor b.flavor ∨
  ¬ FlavorBefore config.orderRequires b.flavor a.flavor ∧
    (config.orderingRequiresSameFlavor = false ∨ NameBefore a.name b.name)

/-- The declarations are taken to be the same. -/
def TakenAsRepeated (config : ConfigCheckData) (a b : DeclData) : Prop :=
  ¬ FlavorBefore config.orderRequires a.flavor b.flavor ∧
  ¬ FlavorBefore config.orderRequires b.flavor a.flavor ∧
  config.orderingRequiresSameFlavor = true ∧ (a.name = b.name ∨ Confused a.name b.name)

/-- What C-006 says about two neighbouring declarations that are not in order. -/
def RequireMessage (config : ConfigCheckData) (a b : DeclData) (msg : Str) : Prop :=
  TakenAsRepeated config a b ∧ msg = cs!"Repeated declaration in require block (" ++
      declFlavorToString b.flavor ++ cs!" " ++ b.name ++ cs!")" ∨
  ¬ TakenAsRepeated config a b ∧ msg = cs!"Unordered declaration in require block (" ++
      declFlavorToString a.flavor ++ cs!" " ++ a.name ++ cs!" before " ++
      declFlavorToString b.flavor ++ cs!" " ++ b.name ++ cs!")"

/-! ## Definitions around a statement -/

/-- `d` is the innermost definition of an interface or template around `l`. -/
def DefinitionAround (d l : Loc) : Prop :=
  Definition d ∧ Encloses d l ∧ ∀ d', Definition d' → Encloses d' l → d' = d ∨ Encloses d' d

/-- `r` is the outermost require block around `l` inside the definition `d`. -/
def OutermostRequire (d r l : Loc) : Prop :=
  RequireBlock r ∧ Encloses d r ∧ Encloses r l ∧
    ∀ r', RequireBlock r' → Encloses d r' → Encloses r' l → r' = r ∨ Encloses r r'

/-- What kind of symbol W-002 takes a name for. -/
def KindOf (ops : List MapOp) (name kind : Str) : Prop :=
  (DeclaredIn ops .type name ∧ kind = cs!"Type") ∨
  (¬ DeclaredIn ops .type name ∧ DeclaredIn ops .attribute name ∧ kind = cs!"Attribute") ∨
  (¬ DeclaredIn ops .type name ∧ ¬ DeclaredIn ops .attribute name ∧
    DeclaredIn ops .attributeRole name ∧ kind = cs!"Role Attribute") ∨
  (¬ DeclaredIn ops .type name ∧ ¬ DeclaredIn ops .attribute name ∧
    ¬ DeclaredIn ops .attributeRole name ∧ DeclaredIn ops .role name ∧ kind = cs!"Role")

/-- Some statement directly in the block mentions the name. -/
def BlockMentions (block : Loc) (name : Str) : Prop :=
  ∃ c ∈ block.focus.children, ∃ w, Mentions c.info.data w ∧ NameOf w name

/-- The name of the required class of symbols W-003 looks at. -/
def CheckedKind (fl : DeclFlavor) (kind : Str) : Prop :=
  (fl = .type ∧ kind = cs!"Type") ∨ (fl = .attribute ∧ kind = cs!"Attribute") ∨
  (fl = .attributeRole ∧ kind = cs!"Role Attribute") ∨ (fl = .role ∧ kind = cs!"Role")

/-- Some statement after the block, within the block around it and at any depth, mentions the
name. -/
def MentionedAfter (block : Loc) (name : Str) : Prop :=
  ∃ i ∈ Tree.preorderList block.rights, ∃ w, Mentions i.data w ∧ NameOf w name

end Selint.Spec

namespace Selint.Spec

/-- Some insertion makes the template known. -/
def KnownTemplate (ops : List MapOp) (name : Str) : Prop :=
  MapOp.template name ∈ ops ∨ (∃ fl s, MapOp.templateDecl name fl s ∈ ops) ∨
    ∃ c, MapOp.templateCall name c ∈ ops

/-- S-005: of the definitions and require blocks around `l` the innermost is the definition of
an interface. -/
def DirectlyInInterface (l : Loc) : Prop :=
  ∃ d : Loc, d.flavor = .interfaceDef ∧ Encloses d l ∧
    ∀ b, Definition b ∨ RequireBlock b → Encloses b l → b = d ∨ Encloses b d

/-- W-011: the declaration in a require block that is to be of the module's own. Roles may be
declared in the module `kernel`. -/
def OwnSymbol (ops : List MapOp) (own : Str) (d : DeclData) : Prop :=
  FirstDeclaredBy ops d.flavor d.name own ∨
    (d.flavor = .role ∧ FirstDeclaredBy ops d.flavor d.name cs!"kernel")

/-- W-011: the declaration is looked at. -/
def OwnershipChecked (l : Loc) (d : DeclData) : Prop :=
  d.flavor ≠ .cls ∧ d.flavor ≠ .perm ∧ d.flavor ≠ .user ∧ (¬ ∃ rest, d.name = '$' :: rest) ∧
    ∃ r, RequireBlock r ∧ Encloses r l

end Selint.Spec
