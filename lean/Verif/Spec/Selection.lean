import Verif.Model.Register
/-!
# Specification of check selection

From selint.conf and the README: which checks run.
-/

namespace Selint.Spec

/-- A step of the documented override order: a list of ids and what it does to them. -/
structure OverrideStep where
  ids : List Str
  enables : Bool

/-- The verdict of the *last* step that mentions `id`; `dflt` if none does. -/
def lastMention (steps : List OverrideStep) (id : Str) (dflt : Bool) : Bool :=
  match (steps.filter fun s => decide (id ∈ s.ids)).getLast? with
  | some s => s.enables
  | none => dflt

/-- selint.conf: steps 1-5. All checks are on; then config `disable`, config `enable_*`,
command line `-d`, command line `-e`. -/
def overrideSteps (c : EnableConf) : List OverrideStep :=
  [⟨c.configDisabled, false⟩, ⟨c.configEnabled, true⟩,
   ⟨c.clDisabled, false⟩, ⟨c.clEnabled, true⟩]

/-- Severities in increasing order of significance (README, SEVERITY LEVELS). -/
def severityRank : Char → Option Nat
  | 'C' => some 0
  | 'S' => some 1
  | 'W' => some 2
  | 'E' => some 3
  | 'F' => some 4
  | _ => none

/-- One documented check (README, CHECK IDS): id, what it is hooked on, and the function
that implements it. `needs` is the data precondition. -/
structure CheckRow where
  sev : Char
  num : Nat
  fn : CheckFn
  on : List NodeFlavor
  needs : Maps → Bool := fun _ => true

/-- The printed id: letter, dash, three digits. -/
def CheckRow.id (r : CheckRow) : Str :=
  [r.sev, '-', Char.ofNat (48 + r.num / 100 % 10), Char.ofNat (48 + r.num / 10 % 10),
   Char.ofNat (48 + r.num % 10)]

/-- Nodes that mention types, attributes or roles. -/
def namingNodes : List NodeFlavor :=
  [.avRule, .xavRule, .ifCall, .ttRule, .rtRule, .roleAllow, .roleTypes, .alias, .typeAlias,
   .typeAttribute, .roleAttribute, .permissive, .decl]

/-- The documented checks, least severe first, by number. -/
def checkTable : List CheckRow :=
  [ ⟨'C', 1, .teOrder, [.teFile, .decl, .avRule, .xavRule, .ifCall, .ttRule, .cleanup], fun _ => true⟩,
    ⟨'C', 4, .interfaceDefinitionsHaveComment, [.interfaceDef, .tempDef], fun _ => true⟩,
    ⟨'C', 5, .unorderedPerms, [.avRule, .xavRule, .decl], fun _ => true⟩,
    ⟨'C', 6, .unorderedDeclarationInRequire, [.require, .genReq], fun _ => true⟩,
    ⟨'C', 7, .noSelf, [.avRule, .xavRule], fun _ => true⟩,
    ⟨'S', 1, .requireBlock, [.require, .genReq], fun _ => true⟩,
    ⟨'S', 2, .fileContextTypesInMod, [.fcEntry], fun _ => true⟩,
    ⟨'S', 3, .uselessSemicolon, [.semicolon], fun _ => true⟩,
    ⟨'S', 4, .ifCallsTemplate, [.ifCall], fun _ => true⟩,
    ⟨'S', 5, .declInIf, [.decl], fun _ => true⟩,
    ⟨'S', 6, .bareModuleStatement, [.header], fun _ => true⟩,
    ⟨'S', 7, .genContextNoRange, [.fcEntry], fun _ => true⟩,
    ⟨'S', 8, .unquotedGenRequireBlock, [.genReq], fun _ => true⟩,
    ⟨'S', 9, .permMacroClassMismatch, [.avRule], fun _ => true⟩,
    ⟨'S', 10, .permMacroAvailable, [.avRule], fun _ => true⟩,
    ⟨'W', 1, .noExplicitDeclaration, namingNodes, fun _ => true⟩,
    ⟨'W', 2, .nameUsedButNotRequiredInIf, namingNodes, fun _ => true⟩,
    ⟨'W', 3, .nameRequiredButNotUsedInIf, [.decl], fun _ => true⟩,
    ⟨'W', 4, .fileContextRegex, [.fcEntry], fun _ => true⟩,
    ⟨'W', 5, .moduleIfCallInOptional, [.ifCall], fun _ => true⟩,
    ⟨'W', 6, .emptyIfCallArg, [.ifCall], fun _ => true⟩,
    ⟨'W', 7, .spaceIfCallArg, [.ifCall], fun _ => true⟩,
    ⟨'W', 8, .riskyAllowPerm, [.avRule], fun _ => true⟩,
    ⟨'W', 9, .moduleFileNameMismatch, [.header], fun _ => true⟩,
    ⟨'W', 10, .unknownInterfaceCall, [.ifCall], fun _ => true⟩,
    ⟨'W', 11, .requiredDeclarationOwn, [.decl], fun _ => true⟩,
    ⟨'E', 2, .fileContextErrorNodes, [.error], fun _ => true⟩,
    ⟨'E', 3, .fileContextUsers, [.fcEntry], fun _ => true⟩,
    ⟨'E', 4, .fileContextRoles, [.fcEntry], fun _ => true⟩,
    ⟨'E', 5, .fileContextTypesExist, [.fcEntry], fun _ => true⟩,
    ⟨'E', 6, .declarationInterfaceNameclash, [.decl], fun _ => true⟩,
    ⟨'E', 7, .unknownPermission, [.avRule], fun m => m.perm ≠ [] ∧ m.permmacros ≠ []⟩,
    ⟨'E', 8, .unknownClass, [.avRule, .rtRule, .ttRule], fun m => m.cls ≠ []⟩,
    ⟨'E', 9, .emptyBlock, [.optionalPolicy, .genReq, .require], fun _ => true⟩,
    ⟨'E', 10, .strayWord, [.m4SimpleMacro], fun _ => true⟩ ]

/-- Is severity `sev` at or above `level`? (False if either is not a severity.) -/
def atLeast (sev level : Char) : Bool :=
  match severityRank sev, severityRank level with
  | some a, some b => decide (b ≤ a)
  | _, _ => false

/-- The hooks that should be installed on nodes of flavor `fl`. -/
def hooksOn (level : Char) (enabled : Str → Bool) (m : Maps) (fl : NodeFlavor) :
    List (CheckNode CheckFn) :=
  (checkTable.filter fun r =>
      atLeast r.sev level && enabled r.id && r.needs m && decide (fl ∈ r.on)).map
    fun r => ⟨r.fn, r.id, 0⟩

end Selint.Spec
