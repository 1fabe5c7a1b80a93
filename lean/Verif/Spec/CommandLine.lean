import Verif.Spec.Main
/-! # Specification of what the command line and the configuration file select -/

namespace Selint.Spec

/-- The configuration in effect, if there is one. -/
def configured (w : ConfigWorld) (args : List Opt) : Option Cfg :=
  (effectiveConfig w (optionsOf args)).bind w.contents

/-- Is this a run in source mode (`-s`, or a context path)? -/
def sourceMode (args : List Opt) : Prop := Opt.source ∈ args ∨ ∃ p, Opt.context p ∈ args

instance (args : List Opt) : Decidable (sourceMode args) :=
  decidable_of_iff (args.any fun | .source => true | .context _ => true | _ => false) (by
    simp only [List.any_eq_true, sourceMode]
    constructor
    · rintro ⟨x, h1, h2⟩
      cases x <;> first | cases h2; done | skip
      · exact .inr ⟨_, h1⟩
      · exact .inl h1
    · rintro (h | ⟨p, h⟩)
      · exact ⟨_, h, rfl⟩
      · exact ⟨_, h, rfl⟩)

/-- The ids that the configuration enables: there is a list for source mode and one for the other. -/
def enabledIn (args : List Opt) (cfg : Cfg) : List Str :=
  if sourceMode args then cfg.enableSource else cfg.enableNormal

/-- Does a run with these options leave the check enabled? With `--only-enabled`, if it is named with
`-e`. Else `-e` wins over `-d`, both win over the configuration, and in the configuration enabling
wins over disabling. -/
def EnabledBy (w : ConfigWorld) (args : List Opt) (id : Str) : Prop :=
  if Opt.onlyEnabled ∈ args then Opt.enable id ∈ args
  else if Opt.enable id ∈ args then True
  else if Opt.disable id ∈ args then False
  else ∀ cfg, configured w args = some cfg → id ∈ cfg.disable → id ∈ enabledIn args cfg

/-- The letter of the last `-l`. -/
def chosenLevel (args : List Opt) : Option Char := lastArg (fun | .level a => a.head? | _ => none) args

/-- The level of a run: the last `-l`, else what the configuration says, else convention. -/
def LevelIs (w : ConfigWorld) (args : List Opt) (level : Char) : Prop :=
  match chosenLevel args, configured w args with
  | some l, _ => level = l
  | none, some cfg => (cfg.severity, level) ∈ severityNames
  | none, none => level = 'C'

/-- What the checks of a run are told: what the configuration says, or else the lax order of statements, requires
of one flavor per line, and that generated files with contexts are left out. -/
def ToldBy (w : ConfigWorld) (args : List Opt) (told : ConfigCheckData) (fcMacros : List Str) : Prop :=
  match configured w args with
  | some cfg => (cfg.orderingRules, told.orderConf) ∈ orderingNames ∧
      told.orderRequires.length = 6 ∧ (∀ q ∈ cfg.orderingRequires.zip told.orderRequires, q ∈ flavorNames) ∧
      (cfg.orderingRequiresSameFlavor, told.orderingRequiresSameFlavor) ∈ boolNames ∧
      (cfg.skipCheckingGeneratedFcs, told.skipCheckingGeneratedFcs) ∈ boolNames ∧
      told.customTeSimpleMacros = cfg.customTeSimpleMacros ∧ fcMacros = cfg.customFcMacros
  | none => told.orderConf = .lax ∧ told.orderRequires = [.type, .type, .type, .type, .type, .type] ∧
      told.orderingRequiresSameFlavor = true ∧ told.skipCheckingGeneratedFcs = true ∧
      told.customTeSimpleMacros = [] ∧ fcMacros = []

/-- The ids that a run is given, in the order in which they are looked at: those of the `-d`
options, those of the `-e` options, those of the lists of a valid configuration. -/
def givenIds (w : ConfigWorld) (args : List Opt) : List Str :=
  (args.filterMap fun | .disable id => some id | _ => none) ++
  (args.filterMap fun | .enable id => some id | _ => none) ++
  match configured w args with
  | some cfg => cfg.disable ++ enabledIn args cfg
  | none => []

end Selint.Spec
