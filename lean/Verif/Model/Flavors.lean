import Verif.Model.Basic
/-! # Enumerations of tree.h -/

namespace Selint

/-- tree.h:24-68 `enum node_flavor`. -/
inductive NodeFlavor where
  | teFile | ifFile | fcFile | sptFile | avFile
  | avRule | xavRule | ttRule | rtRule | header | roleAllow | roleTypes
  | decl | alias | typeAlias | typeAttribute | roleAttribute
  | m4Call | m4SimpleMacro | define
  | optionalPolicy | optionalElse | booleanPolicy | tunablePolicy | ifdef | ifelse
  | m4Arg | startBlock | interfaceDef | tempDef | ifCall
  | require | genReq | permissive | fcEntry | comment | empty | semicolon | cleanup | error
  deriving DecidableEq, Repr

/-- All values of `enum node_flavor`, in declaration order. -/
def NodeFlavor.all : List NodeFlavor :=
  [.teFile, .ifFile, .fcFile, .sptFile, .avFile,
   .avRule, .xavRule, .ttRule, .rtRule, .header, .roleAllow, .roleTypes,
   .decl, .alias, .typeAlias, .typeAttribute, .roleAttribute,
   .m4Call, .m4SimpleMacro, .define,
   .optionalPolicy, .optionalElse, .booleanPolicy, .tunablePolicy, .ifdef, .ifelse,
   .m4Arg, .startBlock, .interfaceDef, .tempDef, .ifCall,
   .require, .genReq, .permissive, .fcEntry, .comment, .empty, .semicolon, .cleanup, .error]

/-- tree.h:70-73 `enum header_flavor`. -/
inductive HeaderFlavor where
  | bare | macro
  deriving DecidableEq, Repr

/-- tree.h:75-80 `enum av_rule_flavor`. -/
inductive AvFlavor where
  | allow | auditallow | dontaudit | neverallow
  deriving DecidableEq, Repr

/-- tree.h:82-91 `enum decl_flavor`. -/
inductive DeclFlavor where
  | type | attribute | attributeRole | role | user | cls | perm | bool
  deriving DecidableEq, Repr

/-- tree.h:93-96 `enum attr_flavor`. -/
inductive AttrFlavor where
  | type | role
  deriving DecidableEq, Repr

/-- tree.h:98-103 `enum tt_flavor`. -/
inductive TtFlavor where
  | tt | tm | tc | rt
  deriving DecidableEq, Repr

/-- tree.c:122-144 `decl_flavor_to_string`. -/
def declFlavorToString : DeclFlavor → Str
  | .type => cs!"type"
  | .attribute => cs!"attribute"
  | .attributeRole => cs!"attribute role"
  | .role => cs!"role"
  | .user => cs!"user"
  | .cls => cs!"class"
  | .perm => cs!"permission"
  | .bool => cs!"boolean"

end Selint
