import Verif.Model.FcChecks
import Verif.Model.IfChecks
import Verif.Model.Ordering
import Verif.Model.Register
/-! # The check functions behind the hooks (te_checks.c, if_checks.c, fc_checks.c) -/

namespace Selint

/-- The static variables of the check functions and of perm_macro.c: te_checks.c:38-39
(C-001), perm_macro.c:36-44 (S-010) and fc_checks.c:46 `notified` (S-002). -/
structure Statics where
  order : OrderState
  pm : PmState
  notified : Bool

/-- The values at program start. -/
def Statics.init : Statics := ⟨⟨none, 0⟩, .init, false⟩

/-- A check that leaves the static variables alone. -/
def stateless (s : Statics) (r : CheckOut) : Res (Statics × Option CheckResult) := do
  let r ← r
  pure (s, r)

/-- The function a hook calls, by its name (runner.c:106-296). -/
def CheckFn.run (m : Maps) (data : CheckData) (node : Loc) (s : Statics) :
    CheckFn → Res (Statics × Option CheckResult)
  | .teOrder => do
    let (o, r) ← checkTeOrder m data node s.order
    pure ({ s with order := o }, r)
  | .permMacroAvailable => do
    let (p, r) ← checkPermMacroAvailable m node s.pm
    pure ({ s with pm := p }, r)
  | .fileContextTypesInMod =>
    .ok ({ s with notified := fcTypesNotified data node s.notified },
      checkFileContextTypesInMod m data node)
  | .interfaceDefinitionsHaveComment => stateless s (checkInterfaceDefinitionsHaveComment node)
  | .unorderedPerms => stateless s (checkUnorderedPerms node)
  | .unorderedDeclarationInRequire => stateless s (checkUnorderedDeclarationInRequire data node)
  | .noSelf => stateless s (checkNoSelf m node)
  | .requireBlock => stateless s (checkRequireBlock data node)
  | .uselessSemicolon => stateless s checkUselessSemicolon
  | .ifCallsTemplate => stateless s (checkIfCallsTemplate m data node)
  | .declInIf => stateless s (checkDeclInIf data node)
  | .bareModuleStatement => stateless s (checkBareModuleStatement node)
  | .genContextNoRange => stateless s (.ok (checkGenContextNoRange node))
  | .unquotedGenRequireBlock => stateless s (checkUnquotedGenRequireBlock node)
  | .permMacroClassMismatch => stateless s (checkPermMacroClassMismatch node)
  | .noExplicitDeclaration => stateless s (checkNoExplicitDeclaration m data node)
  | .nameUsedButNotRequiredInIf => stateless s (checkNameUsedButNotRequiredInIf m data node)
  | .nameRequiredButNotUsedInIf => stateless s (checkNameRequiredButNotUsedInIf data node)
  | .fileContextRegex => stateless s (.ok (checkFileContextRegex node))
  | .moduleIfCallInOptional => stateless s (checkModuleIfCallInOptional m data node)
  | .emptyIfCallArg => stateless s (checkEmptyIfCallArg node)
  | .spaceIfCallArg => stateless s (checkSpaceIfCallArg m node)
  | .riskyAllowPerm => stateless s (checkRiskyAllowPerm node)
  | .moduleFileNameMismatch => stateless s (checkModuleFileNameMismatch data node)
  | .unknownInterfaceCall => stateless s (checkUnknownInterfaceCall m node)
  | .requiredDeclarationOwn => stateless s (checkRequiredDeclarationOwn m data node)
  | .fileContextErrorNodes => stateless s (.ok (checkFileContextErrorNodes node))
  | .fileContextUsers => stateless s (.ok (checkFileContextUsers m node))
  | .fileContextRoles => stateless s (.ok (checkFileContextRoles m node))
  | .fileContextTypesExist => stateless s (.ok (checkFileContextTypesExist m node))
  | .declarationInterfaceNameclash => stateless s (checkDeclarationInterfaceNameclash m node)
  | .unknownPermission => stateless s (checkUnknownPermission m node)
  | .unknownClass => stateless s (checkUnknownClass m node)
  | .emptyBlock => stateless s (checkEmptyBlock node)
  | .strayWord => stateless s (checkStrayWord data node)

/-- The check functions as `call_checks` sees them. The state `ub` records that some call had
undefined behaviour; what the program does from then on is unknown, the model stays in `ub`
and returns no results. -/
def selintExec (m : Maps) : Exec CheckFn (Res Statics) := fun fn data node st =>
  match st with
  | .ub => (.ub, none)
  | .ok s =>
    match fn.run m data node s with
    | .ub => (.ub, none)
    | .ok (s', r) => (.ok s', r)

end Selint
