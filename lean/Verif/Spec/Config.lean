import Verif.Model.Config
/-! # Specification of the configuration file (selint.conf) -/

namespace Selint.Spec

/-- Documented severity names and their letters. -/
def severityNames : List (Str × Char) :=
  [(cs!"convention", 'C'), (cs!"style", 'S'), (cs!"warning", 'W'), (cs!"error", 'E'), (cs!"fatal", 'F')]

/-- Documented ordering standards. -/
def orderingNames : List (Str × OrderConf) :=
  [(cs!"refpolicy", .ref), (cs!"refpolicy-light", .light), (cs!"refpolicy-lax", .lax)]

/-- Documented flavors for `ordering_requires`. -/
def flavorNames : List (Str × DeclFlavor) :=
  [(cs!"attribute", .attribute), (cs!"attribute_role", .attributeRole), (cs!"bool", .bool),
   (cs!"class", .cls), (cs!"role", .role), (cs!"type", .type)]

/-- Spellings of booleans. -/
def boolNames : List (Str × Bool) :=
  [(cs!"true", true), (cs!"True", true), (cs!"TRUE", true),
   (cs!"yes", true), (cs!"Yes", true), (cs!"YES", true),
   (cs!"false", false), (cs!"False", false), (cs!"FALSE", false),
   (cs!"no", false), (cs!"No", false), (cs!"NO", false)]

/-- A configuration is valid if every setting has a documented value and the six flavors
each occur exactly once in `ordering_requires`. -/
structure ValidConfig (cfg : Cfg) : Prop where
  severity : ∃ c, (cfg.severity, c) ∈ severityNames
  ordering : ∃ o, (cfg.orderingRules, o) ∈ orderingNames
  requires : cfg.orderingRequires.Perm (flavorNames.map (·.1))
  same : ∃ b, (cfg.orderingRequiresSameFlavor, b) ∈ boolNames
  skip : ∃ b, (cfg.skipCheckingGeneratedFcs, b) ∈ boolNames

end Selint.Spec
