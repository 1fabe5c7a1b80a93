import Verif.Model.Hooks
/-! # Which checks run (runner.c:56-304) -/

namespace Selint

/-- The check functions (te_checks.h, if_checks.h, fc_checks.h). -/
inductive CheckFn where
  | teOrder | interfaceDefinitionsHaveComment | unorderedPerms
  | unorderedDeclarationInRequire | noSelf
  | requireBlock | fileContextTypesInMod | uselessSemicolon | ifCallsTemplate | declInIf
  | bareModuleStatement | genContextNoRange | unquotedGenRequireBlock
  | permMacroClassMismatch | permMacroAvailable
  | noExplicitDeclaration | nameUsedButNotRequiredInIf | nameRequiredButNotUsedInIf
  | fileContextRegex | moduleIfCallInOptional | emptyIfCallArg | spaceIfCallArg
  | riskyAllowPerm | moduleFileNameMismatch | unknownInterfaceCall | requiredDeclarationOwn
  | fileContextErrorNodes | fileContextUsers | fileContextRoles | fileContextTypesExist
  | declarationInterfaceNameclash | unknownPermission | unknownClass | emptyBlock | strayWord
  deriving DecidableEq, Repr

/-- The four lists and the flag `is_check_enabled` looks at (runner.c:56-61). -/
structure EnableConf where
  configEnabled : List Str
  configDisabled : List Str
  clEnabled : List Str
  clDisabled : List Str
  onlyEnabled : Bool
  deriving DecidableEq, Repr

/-- runner.c:56-91 `is_check_enabled`. -/
def isCheckEnabled (name : Str) (c : EnableConf) : Bool :=
  let e0 := true
  let e1 :=
    if c.onlyEnabled then false
    else
      let e := if strInSl name c.configDisabled then false else e0
      let e := if strInSl name c.configEnabled then true else e
      if strInSl name c.clDisabled then false else e
  if strInSl name c.clEnabled then true else e1

/-- te_checks.c:688-703 `check_unknown_permission_condition`; what it prints is in `MainText.lean`. -/
def unknownPermissionCondition (m : Maps) : Bool :=
  decide (0 < m.declCount .perm) && decide (0 < m.permmacrosCount)

/-- te_checks.c:740-750 `check_unknown_class_condition`; what it prints is in `MainText.lean`. -/
def unknownClassCondition (m : Maps) : Bool := decide (0 < m.declCount .cls)

/-- A group of `add_check` calls with one id and function, guarded by a condition. -/
def addIf (cond : Bool) (id : Str) (fn : CheckFn) (fls : List NodeFlavor)
    (ck : Checks CheckFn) : Checks CheckFn :=
  if cond then fls.foldl (fun ck fl => addCheck fl ck id fn) ck else ck

/-- runner.c:106-149, `case 'C'` up to the fall-through. -/
def registerC (en : Str → Bool) (ck : Checks CheckFn) : Checks CheckFn :=
  let ck := addIf (en cs!"C-001") cs!"C-001" .teOrder
    [.teFile, .decl, .avRule, .xavRule, .ifCall, .ttRule, .cleanup] ck
  let ck := addIf (en cs!"C-004") cs!"C-004" .interfaceDefinitionsHaveComment
    [.interfaceDef, .tempDef] ck
  let ck := addIf (en cs!"C-005") cs!"C-005" .unorderedPerms [.avRule, .xavRule, .decl] ck
  let ck := addIf (en cs!"C-006") cs!"C-006" .unorderedDeclarationInRequire [.require, .genReq] ck
  let ck := addIf (en cs!"C-007") cs!"C-007" .noSelf [.avRule, .xavRule] ck
  ck

/-- runner.c:150-192, `case 'S'`. -/
def registerS (en : Str → Bool) (ck : Checks CheckFn) : Checks CheckFn :=
  let ck := addIf (en cs!"S-001") cs!"S-001" .requireBlock [.require, .genReq] ck
  let ck := addIf (en cs!"S-002") cs!"S-002" .fileContextTypesInMod [.fcEntry] ck
  let ck := addIf (en cs!"S-003") cs!"S-003" .uselessSemicolon [.semicolon] ck
  let ck := addIf (en cs!"S-004") cs!"S-004" .ifCallsTemplate [.ifCall] ck
  let ck := addIf (en cs!"S-005") cs!"S-005" .declInIf [.decl] ck
  let ck := addIf (en cs!"S-006") cs!"S-006" .bareModuleStatement [.header] ck
  let ck := addIf (en cs!"S-007") cs!"S-007" .genContextNoRange [.fcEntry] ck
  let ck := addIf (en cs!"S-008") cs!"S-008" .unquotedGenRequireBlock [.genReq] ck
  let ck := addIf (en cs!"S-009") cs!"S-009" .permMacroClassMismatch [.avRule] ck
  let ck := addIf (en cs!"S-010") cs!"S-010" .permMacroAvailable [.avRule] ck
  ck

/-- runner.c:193-259, `case 'W'`. -/
def registerW (en : Str → Bool) (ck : Checks CheckFn) : Checks CheckFn :=
  let ck := addIf (en cs!"W-001") cs!"W-001" .noExplicitDeclaration
    [.avRule, .xavRule, .ifCall, .ttRule, .rtRule, .roleAllow, .roleTypes, .alias, .typeAlias,
     .typeAttribute, .roleAttribute, .permissive, .decl] ck
  let ck := addIf (en cs!"W-002") cs!"W-002" .nameUsedButNotRequiredInIf
    [.avRule, .xavRule, .ifCall, .ttRule, .rtRule, .roleAllow, .roleTypes, .alias, .typeAlias,
     .typeAttribute, .roleAttribute, .permissive, .decl] ck
  let ck := addIf (en cs!"W-003") cs!"W-003" .nameRequiredButNotUsedInIf [.decl] ck
  let ck := addIf (en cs!"W-004") cs!"W-004" .fileContextRegex [.fcEntry] ck
  let ck := addIf (en cs!"W-005") cs!"W-005" .moduleIfCallInOptional [.ifCall] ck
  let ck := addIf (en cs!"W-006") cs!"W-006" .emptyIfCallArg [.ifCall] ck
  let ck := addIf (en cs!"W-007") cs!"W-007" .spaceIfCallArg [.ifCall] ck
  let ck := addIf (en cs!"W-008") cs!"W-008" .riskyAllowPerm [.avRule] ck
  let ck := addIf (en cs!"W-009") cs!"W-009" .moduleFileNameMismatch [.header] ck
  let ck := addIf (en cs!"W-010") cs!"W-010" .unknownInterfaceCall [.ifCall] ck
  let ck := addIf (en cs!"W-011") cs!"W-011" .requiredDeclarationOwn [.decl] ck
  ck

/-- runner.c:260-296, `case 'E'`. -/
def registerE (en : Str → Bool) (m : Maps) (ck : Checks CheckFn) : Checks CheckFn :=
  let ck := addIf (en cs!"E-002") cs!"E-002" .fileContextErrorNodes [.error] ck
  let ck := addIf (en cs!"E-003") cs!"E-003" .fileContextUsers [.fcEntry] ck
  let ck := addIf (en cs!"E-004") cs!"E-004" .fileContextRoles [.fcEntry] ck
  let ck := addIf (en cs!"E-005") cs!"E-005" .fileContextTypesExist [.fcEntry] ck
  let ck := addIf (en cs!"E-006") cs!"E-006" .declarationInterfaceNameclash [.decl] ck
  let ck := addIf (en cs!"E-007" && unknownPermissionCondition m) cs!"E-007"
    .unknownPermission [.avRule] ck
  let ck := addIf (en cs!"E-008" && unknownClassCondition m) cs!"E-008"
    .unknownClass [.avRule, .rtRule, .ttRule] ck
  let ck := addIf (en cs!"E-009") cs!"E-009" .emptyBlock [.optionalPolicy, .genReq, .require] ck
  let ck := addIf (en cs!"E-010") cs!"E-010" .strayWord [.m4SimpleMacro] ck
  ck

/-- runner.c:93-304 `register_checks`; `none` is the NULL result for an invalid level. The
fall-through `switch` enters at the level's case and runs to the end. -/
def registerChecks (level : Char) (c : EnableConf) (m : Maps) : Option (Checks CheckFn) :=
  let en := fun id => isCheckEnabled id c
  match level with
  | 'C' => some (registerE en m (registerW en (registerS en (registerC en .empty))))
  | 'S' => some (registerE en m (registerW en (registerS en .empty)))
  | 'W' => some (registerE en m (registerW en .empty))
  | 'E' => some (registerE en m .empty)
  | 'F' => some .empty
  | _ => none

end Selint
