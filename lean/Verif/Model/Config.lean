import Verif.Model.Hooks
/-! # Configuration (selint_config.c) -/

namespace Selint

/-- selint_config.c:83-97: the values of the options of a configuration file as libconfuse
delivers them (defaults filled in). The file syntax itself is libconfuse's. -/
structure Cfg where
  severity : Str := cs!"convention"
  disable : List Str := []
  enableNormal : List Str := []
  enableSource : List Str := []
  assumeUsers : List Str := []
  assumeRoles : List Str := []
  customFcMacros : List Str := []
  customTeSimpleMacros : List Str := []
  orderingRules : Str := cs!"refpolicy-lax"
  orderingRequires : List Str :=
    [cs!"bool", cs!"class", cs!"role", cs!"attribute_role", cs!"attribute", cs!"type"]
  orderingRequiresSameFlavor : Str := cs!"true"
  skipCheckingGeneratedFcs : Str := cs!"true"
  deriving DecidableEq, Repr

/-- What `parse_config` hands back through its out-parameters and the symbol tables. -/
structure ParsedConfig where
  severity : Char
  disabled : List Str
  enabled : List Str
  customFcMacros : List Str
  checkData : ConfigCheckData
  maps : Maps
  deriving DecidableEq, Repr

/-- selint_config.c:38-61 `parse_bool`; `none` is SELINT_CONFIG_PARSE_ERROR. -/
def parseBool (s : Str) : Option Bool :=
  if strcmp cs!"true" s = 0 ∨ strcmp cs!"True" s = 0 ∨ strcmp cs!"TRUE" s = 0 ∨
     strcmp cs!"yes" s = 0 ∨ strcmp cs!"Yes" s = 0 ∨ strcmp cs!"YES" s = 0 then some true
  else if strcmp cs!"false" s = 0 ∨ strcmp cs!"False" s = 0 ∨ strcmp cs!"FALSE" s = 0 ∨
     strcmp cs!"no" s = 0 ∨ strcmp cs!"No" s = 0 ∨ strcmp cs!"NO" s = 0 then some false
  else none

/-- selint_config.c:63-70 `insert_config_declarations`. -/
def insertConfigDeclarations (m : Maps) (names : List Str) (fl : DeclFlavor) : Maps :=
  names.foldl (fun m n => m.insertDecl n cs!"__assumed__" fl) m

/-- selint_config.c:115-132: the severity names. -/
def parseSeverity (s : Str) : Option Char :=
  if strcmp s cs!"convention" = 0 then some 'C'
  else if strcmp s cs!"style" = 0 then some 'S'
  else if strcmp s cs!"warning" = 0 then some 'W'
  else if strcmp s cs!"error" = 0 then some 'E'
  else if strcmp s cs!"fatal" = 0 then some 'F'
  else none

/-- selint_config.c:155-168: the ordering rules. -/
def parseOrderConf (s : Str) : Option OrderConf :=
  if strcmp s cs!"refpolicy" = 0 then some .ref
  else if strcmp s cs!"refpolicy-light" = 0 then some .light
  else if strcmp s cs!"refpolicy-lax" = 0 then some .lax
  else none

/-- selint_config.c:180-199: one flavor name. -/
def parseReqFlavor (s : Str) : Option DeclFlavor :=
  if strcmp cs!"attribute" s = 0 then some .attribute
  else if strcmp cs!"attribute_role" s = 0 then some .attributeRole
  else if strcmp cs!"bool" s = 0 then some .bool
  else if strcmp cs!"class" s = 0 then some .cls
  else if strcmp cs!"role" s = 0 then some .role
  else if strcmp cs!"type" s = 0 then some .type
  else none

/-- selint_config.c:179-211: the loop over the flavors; `acc` is the part of
`order_requires` filled so far, the inner loop (201-208) is the membership test. -/
def parseReqFlavors (acc : List DeclFlavor) : List Str → Option (List DeclFlavor)
  | [] => some acc
  | s :: rest =>
    match parseReqFlavor s with
    | none => none
    | some f => if acc.any (fun g => g == f) then none else parseReqFlavors (acc ++ [f]) rest

/-- selint_config.c:72-242 `parse_config` once libconfuse has parsed the file. `none` is
SELINT_CONFIG_PARSE_ERROR. Simplification: the partial effects on the symbol tables before
an error are dropped, because `main` exits (main.c:345-351). -/
def parseConfig (cfg : Cfg) (sourceMode : Bool) (m : Maps) : Option ParsedConfig :=
  match parseSeverity cfg.severity with
  | none => none
  | some sev =>
    let m := insertConfigDeclarations m cfg.assumeUsers .user
    let m := insertConfigDeclarations m cfg.assumeRoles .role
    match parseOrderConf cfg.orderingRules with
    | none => none
    | some oc =>
      if cfg.orderingRequires.length ≠ 6 then none
      else match parseReqFlavors [] cfg.orderingRequires with
        | none => none
        | some req =>
          match parseBool cfg.orderingRequiresSameFlavor with
          | none => none
          | some same =>
            match parseBool cfg.skipCheckingGeneratedFcs with
            | none => none
            | some skip =>
              some { severity := sev
                     disabled := cfg.disable
                     enabled := if sourceMode then cfg.enableSource else cfg.enableNormal
                     customFcMacros := cfg.customFcMacros
                     checkData := ⟨oc, req, same, skip, cfg.customTeSimpleMacros⟩
                     maps := m }

/-- main.c:341: the settings without configuration file; the omitted `order_requires`
initialisers are zero, i.e. `DECL_TYPE`. -/
def defaultCheckData : ConfigCheckData := ⟨.lax, List.replicate 6 .type, true, true, []⟩

end Selint
