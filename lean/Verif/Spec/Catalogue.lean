import Verif.Spec.TeChecks
import Verif.Spec.IfChecks
import Verif.Spec.Selection
/-! # The catalogue of the checks on te and interface files

What each of these checks complains about, in one place. `m` is what is known of the policy: which
module declares a symbol first (`m.lookUpDecl`), which defines an interface first (`m.lookUpIf`), which
names are templates, permission sets and configured modules. C73, C76 and C77 say where this comes from.
`data` tells the file: its name, its kind, the module it belongs to, and the settings. -/

namespace Selint.Spec

/-- The name is declared somewhere. -/
def Declared (m : Maps) (fl : DeclFlavor) (name : Str) : Prop := m.lookUpDecl name fl ≠ none

/-- W-001: the name is taken for a symbol of class `fl`, declared first in module `mod`: for a type, else for
an attribute, else for a role attribute. -/
def TakenFor (m : Maps) (name mod : Str) (fl : DeclFlavor) : Prop :=
  m.lookUpDecl name fl = some mod ∧
    (fl = .type ∨ fl = .attribute ∧ ¬Declared m .type name ∨
     fl = .attributeRole ∧ ¬Declared m .type name ∧ ¬Declared m .attribute name)

/-- W-002: what kind of symbol the name is taken for. -/
def KindIn (m : Maps) (name kind : Str) : Prop :=
  Declared m .type name ∧ kind = cs!"Type" ∨
  ¬Declared m .type name ∧ Declared m .attribute name ∧ kind = cs!"Attribute" ∨
  ¬Declared m .type name ∧ ¬Declared m .attribute name ∧ Declared m .attributeRole name ∧ kind = cs!"Role Attribute" ∨
  ¬Declared m .type name ∧ ¬Declared m .attribute name ∧ ¬Declared m .attributeRole name ∧ Declared m .role name ∧
    kind = cs!"Role"

/-- W-007: a space stands between the words `p` and `arg` of an argument, and `arg` is not an exclusion (with `-`)
from something that is no known symbol. -/
def SpaceCounts (m : Maps) (p arg : Str) : Prop :=
  (¬∃ rest, arg = '-' :: rest) ∨ Declared m .type p ∨ Declared m .attribute p ∨ Declared m .role p ∨
    Declared m .attributeRole p ∨ Declared m .user p

/-- W-007: the word number `pos` is `p`, an unquoted space that counts follows it, and it belongs to the argument
number `k`. -/
def SpaceFollows (m : Maps) (args : List (Str × Bool)) (pos : Nat) (p : Str) (k : Nat) : Prop :=
  ∃ before b arg after, args = before ++ (p, b) :: (arg, true) :: after ∧ before.length = pos ∧ SpaceCounts m p arg ∧
    k = (before ++ [(p, b)]).countP fun a => !a.2

/-- W-010: the name begins with the name of a configured module, or an abbreviation for one, and an underscore. -/
def BeginsWithModule (m : Maps) (name : Str) : Prop :=
  ∃ p s, name = p ++ '_' :: s ∧ (m.lookUpMod p ≠ none ∨ ∃ full, (p, full) ∈ abbreviations ∧ m.lookUpMod full ≠ none)

/-- C-006: the declarations at the beginning of a require block, up to anything else. -/
def leadingDecls : List Tree → List DeclData
  | [] => []
  | t :: ts => match t.info.data with
    | .decl d => d :: leadingDecls ts
    | _ => []

/-- What the checks complain about at a place `l` of a te or interface file. -/
inductive Complaint (m : Maps) (data : CheckData) (l : Loc) : CheckResult → Prop
  /-- C-004: a definition without a comment before it. -/
  | comment {fl : PlainFlavor} {name : Str} : Definition l → l.data = .plain fl (some name) →
      (¬∃ p, l.prev? = some p ∧ p.flavor = .comment) →
      Complaint m data l ⟨'C', 4, cs!"No comment before interface definition for " ++ name⟩
  /-- C-005: permissions that are not in order. -/
  | permissions {kind : Str} {perms : List Str} {pc : Str × Str} : PermsOf l.data kind perms →
      FirstIn Misordered (neighbours perms) pc → Complaint m data l ⟨'C', 5, misorderedMessage kind pc⟩
  /-- C-006: declarations in a require block that are not in order. -/
  | requires {pd : DeclData × DeclData} {msg : Str} : RequireBlock l →
      FirstIn (fun pd => ¬MayPrecede data.config pd.1 pd.2) (neighbours (leadingDecls l.focus.children.tail)) pd →
      RequireMessage data.config pd.1 pd.2 msg → Complaint m data l ⟨'C', 6, msg⟩
  /-- C-006: a require block without contents. -/
  | requiresNothing : RequireBlock l → l.focus.children.tail = [] → Complaint m data l ⟨'C', 6, cs!"Empty require block"⟩
  /-- C-007: a rule from a type to itself that does not say `self`. -/
  | self {d : AvData} {t : Str} : (l.data = .av d ∨ ∃ op, l.data = .xav d op) → d.sources = [t] → d.targets = [t] →
      t ≠ cs!"self" → (t.head? = some '$' ∧ cs!"_t" <:+ t ∨ t.head? ≠ some '$' ∧ Declared m .type t) →
      Complaint m data l ⟨'C', 7, cs!"Recommend use of self keyword instead of redundant type"⟩
  /-- S-001: a require block of a te file for other things than classes and permissions. -/
  | requireInTe : data.flavor = .teFile → RequireBlock l → RequiresSymbol l →
      Complaint m data l ⟨'S', 1, cs!"Require block used in te file (use an interface call instead)"⟩
  /-- S-003: a semicolon that ends nothing. -/
  | semicolon : l.flavor = .semicolon → Complaint m data l ⟨'S', 3, cs!"Unnecessary semicolon"⟩
  /-- S-004: an interface that calls a template. -/
  | callsTemplate {d : IfCallData} {p : Loc} {nm : Str} : data.flavor = .ifFile → l.data = .ifCall d →
      DefinitionAround p l → p.data = .plain .interfaceDef (some nm) → m.lookUpTemplate d.name ≠ none →
      Complaint m data l ⟨'S', 4, cs!"interface " ++ nm ++ cs!" calls template " ++ d.name⟩
  /-- S-005: a declaration in an interface. -/
  | declares {d : DeclData} : data.flavor = .ifFile → l.data = .decl d → DirectlyInInterface l →
      Complaint m data l ⟨'S', 5, cs!"Declaration of " ++ d.name ++ cs!" in interface"⟩
  /-- S-006: a module statement without the macro. -/
  | bareModule {d : HeaderData} : l.data = .header d → d.flavor = .bare →
      Complaint m data l ⟨'S', 6, cs!"Bare module statement (use `policy_module()` instead)"⟩
  /-- S-008: a `gen_require` without quotes. -/
  | unquoted : l.data = .genReq true → Complaint m data l ⟨'S', 8, cs!"Gen require block unquoted"⟩
  /-- S-009: a permission macro that is not for the classes of the rule. -/
  | macroMismatch {d : AvData} {c : Str} {cs : List Str} {perm : Str} : l.data = .av d → d.objectClasses = c :: cs →
      ¬cs!"_class_set" <:+ c → FirstIn (MismatchedMacro (c :: cs)) d.perms perm →
      Complaint m data l ⟨'S', 9, cs!"Permission macro " ++ perm ++ cs!" does not match class " ++
        (if cs ≠ [] then cs!"(multi class av rule)" else c)⟩
  /-- W-001: in a te file, a symbol of another module that no require block in scope lists. -/
  | foreign {name mod : Str} {fl : DeclFlavor} : data.flavor = .teFile → l.flavor ∈ namingNodes → Uses l.data name →
      TakenFor m name mod fl → mod ≠ data.modName → (¬∃ r, InScope r l ∧ RequireBlock r ∧ ListsSymbol r name fl) →
      Complaint m data l ⟨'W', 1, cs!"No explicit declaration for " ++ name ++ cs!" from module " ++ mod ++
        cs!".  You should access it via interface call or use a require block."⟩
  /-- W-002: in a definition, a symbol that no require block before it in the definition mentions. -/
  | notRequired {d : Loc} {name kind : Str} : data.flavor = .ifFile → l.flavor ∈ namingNodes → DefinitionAround d l →
      Uses l.data name → name ≠ cs!"system_r" → KindIn m name kind →
      (¬∃ b, RequireBlock b ∧ Encloses d b ∧ b.addr < l.addr ∧ BlockMentions b name) →
      Complaint m data l ⟨'W', 2, kind ++ cs!" " ++ name ++ cs!" is used in interface but not required"⟩
  /-- W-003: a symbol that is required in a definition and not used after the require block. -/
  | notUsed {d r : Loc} {dd : DeclData} {kind w name : Str} : data.flavor = .ifFile → l.data = .decl dd →
      CheckedKind dd.flavor kind → DefinitionAround d l → OutermostRequire d r l →
      (¬∃ nm, d.data = .plain .interfaceDef (some (nm ++ cs!"_stub"))) → Mentions l.data w → NameOf w name →
      ¬MentionedAfter r name →
      Complaint m data l ⟨'W', 3, kind ++ cs!" " ++ name ++ cs!" is listed in require block but not used in interface"⟩
  /-- W-005: a call to an interface of another module, not in the base, that is not optional. -/
  | notOptional {d : IfCallData} {mod status : Str} : l.data = .ifCall d → m.lookUpIf d.name = some mod →
      mod ≠ data.modName → m.lookUpMod mod = some status → status ≠ cs!"base" →
      (¬∃ b, Encloses b l ∧ b.flavor = .optionalPolicy) →
      Complaint m data l ⟨'W', 5, cs!"Call to interface " ++ d.name ++ cs!" defined in module " ++ mod ++
        cs!" should be in optional_policy block"⟩
  /-- W-006: a call without arguments. -/
  | noArgument {d : IfCallData} : l.data = .ifCall d → d.args = [] →
      Complaint m data l ⟨'W', 6, cs!"Call to interface " ++ d.name ++ cs!" with empty argument"⟩
  /-- W-007: a space in an argument of a call that is not quoted. -/
  | space {d : IfCallData} {pos : Nat} {p : Str} {k : Nat} : l.data = .ifCall d → SpaceFollows m d.args pos p k →
      (∀ pos' < pos, ∀ p' k', ¬SpaceFollows m d.args pos' p' k') →
      Complaint m data l ⟨'W', 7, cs!"Argument no. " ++ natToStr k ++ cs!" '" ++ p ++
        cs!" ...' of call to interface " ++ d.name ++ cs!" contains unquoted space"⟩
  /-- W-008: an allow rule for all permissions or all but some. -/
  | risky {d : AvData} : l.data = .av d → d.flavor = .allow → (cs!"*" ∈ d.perms ∨ cs!"~" ∈ d.perms) →
      Complaint m data l ⟨'W', 8, cs!"Allow rule with complement or wildcard permission"⟩
  /-- W-009: a module with another name than its file. -/
  | moduleName {d : HeaderData} : l.data = .header d → ¬Stem data.filename d.moduleName →
      Complaint m data l ⟨'W', 9, cs!"Module name " ++ d.moduleName ++ cs!" does not match file name " ++ data.filename⟩
  /-- W-010: a call of something that is named like an interface and is none. -/
  | unknownCall {d : IfCallData} : l.data = .ifCall d → d.name ≠ cs!"domain_auto_transition_pattern" →
      d.name ≠ cs!"domain_transition_pattern" → BeginsWithModule m d.name → m.lookUpIf d.name = none →
      Complaint m data l ⟨'W', 10, cs!"Call to " ++ d.name ++ cs!" can not be referenced to any interface"⟩
  /-- W-011: a symbol that is required in an interface file and declared nowhere. -/
  | ownNowhere {d : DeclData} : data.flavor = .ifFile → l.data = .decl d → OwnershipChecked l d →
      m.lookUpDecl d.name d.flavor = none →
      Complaint m data l ⟨'W', 11, cs!"Definition of declared " ++ declFlavorToString d.flavor ++ cs!" " ++ d.name ++
        cs!" not found in any module"⟩
  /-- W-011: a symbol that is required in an interface file and declared in another module. -/
  | ownElsewhere {d : DeclData} {mod : Str} : data.flavor = .ifFile → l.data = .decl d → OwnershipChecked l d →
      m.lookUpDecl d.name d.flavor = some mod → mod ≠ data.modName → ¬(d.flavor = .role ∧ mod = cs!"kernel") →
      Complaint m data l ⟨'W', 11, cs!"Definition of declared " ++ declFlavorToString d.flavor ++ cs!" " ++ d.name ++
        cs!" not found in own module, but in module " ++ mod⟩
  /-- E-006: a declared name that is that of an interface. -/
  | nameclash {d : DeclData} : l.data = .decl d → m.lookUpIf d.name ≠ none →
      Complaint m data l ⟨'E', 6, cs!"Declaration with name " ++ d.name ++ cs!" clashes with same named interface"⟩
  /-- E-007: a permission that does not exist. -/
  | permission {d : AvData} {k : Str} : l.data = .av d →
      FirstIn (fun k => k ≠ cs!"*" ∧ k ≠ cs!"~" ∧ ¬(cs!"all_" <+: k ∧ cs!"_perms" <:+ k) ∧ ¬Declared m .perm k ∧
        m.lookUpPermmacro k = none) d.perms k →
      Complaint m data l ⟨'E', 7, cs!"Unknown permission " ++ k ++ cs!" used"⟩
  /-- E-008: a class that does not exist. -/
  | objectClass {classes : List Str} {k : Str} : ClassesOf l.data classes →
      FirstIn (fun k => ¬(∃ d rest, k = '$' :: d :: rest ∧ d.isDigit = true) ∧ ¬cs!"_class_set" <:+ k ∧
        ¬Declared m .cls k) classes k →
      Complaint m data l ⟨'E', 8, cs!"Unknown class " ++ k ++ cs!" used"⟩
  /-- E-009: a block without statements. -/
  | emptyBlock : (l.flavor = .optionalPolicy ∨ RequireBlock l) → (∀ t ∈ l.focus.children, NoStatement t) →
      Complaint m data l ⟨'E', 9, cs!"Empty block found"⟩
  /-- E-010: a word that stands alone. -/
  | word {name : Str} : l.data = .plain .m4SimpleMacro (some name) → name ∉ data.config.customTeSimpleMacros →
      ¬InComparison l →
      Complaint m data l ⟨'E', 10, cs!"Found stray word " ++ name ++ cs!". If it is a simple m4 macro please add an selint-disable comment or ignore in the SELint configuration file."⟩

/-- The checks of the catalogue. -/
def catalogued : List CheckFn :=
  [.interfaceDefinitionsHaveComment, .unorderedPerms, .unorderedDeclarationInRequire, .noSelf, .requireBlock,
    .uselessSemicolon, .ifCallsTemplate, .declInIf, .bareModuleStatement, .unquotedGenRequireBlock,
    .permMacroClassMismatch, .noExplicitDeclaration, .nameUsedButNotRequiredInIf, .nameRequiredButNotUsedInIf,
    .moduleIfCallInOptional, .emptyIfCallArg, .spaceIfCallArg, .riskyAllowPerm, .moduleFileNameMismatch,
    .unknownInterfaceCall, .requiredDeclarationOwn, .declarationInterfaceNameclash, .unknownPermission, .unknownClass,
    .emptyBlock, .strayWord]

end Selint.Spec
