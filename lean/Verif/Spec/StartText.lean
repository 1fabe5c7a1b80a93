import Verif.Spec.Main
import Verif.Spec.Colours
import Verif.Model.Usage
/-!
# What the program may say before it looks at a file
-/

namespace Selint
namespace Spec

/-- The words that lines begin with. -/
inductive Label
  | note | warning | error

/-- A label, in magenta, yellow or red if there are colours. -/
def Label.shown : Label → Bool → Str
  | .note, false => cs!"Note"
  | .note, true => cs!"\x1b[35;1mNote\x1b[0m"
  | .warning, false => cs!"Warning"
  | .warning, true => cs!"\x1b[33;1mWarning\x1b[0m"
  | .error, false => cs!"Error"
  | .error, true => cs!"\x1b[31;1mError\x1b[0m"

/-- What is wrong with a configuration, and how it is said. -/
inductive Refusal (cfg : Cfg) : Str → Prop
  | severity : cfg.severity ∉ severityNames.map (·.1) →
      Refusal cfg (cs!"Invalid severity level (" ++ cfg.severity ++ cs!") specified in config.\n" ++
        cs!"Options are \"convention\", \"style\", \"warning\", \"error\" and \"fatal\"\n")
  | ordering : cfg.orderingRules ∉ orderingNames.map (·.1) →
      Refusal cfg (cs!"Invalid ordering rules (" ++ cfg.orderingRules ++ cs!") specified in config.\n" ++
        cs!"Options are \"refpolicy\", \"refpolicy-light\"\nand \"refpolicy-lax\"\n")
  | amount : cfg.orderingRequires.length ≠ 6 →
      Refusal cfg (cs!"Incorrect amount of ordering_requires flavors (" ++ natToStr cfg.orderingRequires.length ++
        cs!") specified in config.\n" ++ cs!"The required amount is 6.\n")
  | flavor (f : Str) : f ∈ cfg.orderingRequires → f ∉ flavorNames.map (·.1) →
      Refusal cfg (cs!"Invalid ordering_requires flavor (" ++ f ++ cs!") specified in config.\n" ++
        cs!"See configuration file for available options\n")
  | twice (f : Str) : 2 ≤ cfg.orderingRequires.count f →
      Refusal cfg (cs!"Duplicate ordering_requires flavor (" ++ f ++ cs!") specified in config.\n")
  | same : cfg.orderingRequiresSameFlavor ∉ boolNames.map (·.1) →
      Refusal cfg (cs!"Invalid ordering_requires_same_flavor setting (" ++ cfg.orderingRequiresSameFlavor ++
        cs!") specified in config.\n" ++ cs!"Options are \"true\" and \"false\"\n")
  | skip : cfg.skipCheckingGeneratedFcs ∉ boolNames.map (·.1) →
      Refusal cfg (cs!"Invalid skip_checking_generated_fcs setting (" ++ cfg.skipCheckingGeneratedFcs ++
        cs!") specified in config.\n" ++ cs!"Options are \"true\" and \"false\"\n")

/-- Why the program ends at once, with which status, and how it says so. `color`: are there colours? -/
inductive Why (version : Str) (w : ConfigWorld) (color : Bool) (args : List Opt) (nPaths : Nat) : Nat → Str → Prop
  | help : .help ∈ args → Why version w color args nPaths 0 usageText
  | version : .version ∈ args → Why version w color args nPaths 0 (cs!"SELint " ++ version ++ cs!"\n")
  | unknown : .unknown ∈ args → Why version w color args nPaths 64 usageText
  | color (a : Str) : .color a ∈ args → a ∉ [cs!"on", cs!"off", cs!"auto"] →
      Why version w color args nPaths 64
        (cs!"Invalid argument '" ++ a ++ cs!"' given for option --color\n" ++ usageText)
  | level (a : Str) : .level a ∈ args → (∀ c ∈ cs!"CSWEF", a.head? ≠ some c) →
      Why version w color args nPaths 64
        (cs!"Invalid argument '" ++ a ++ cs!"' given for option --level\n" ++ usageText)
  | noConfig (f : Str) : (optionsOf args).configFile = some f → w.readable f = false →
      Why version w color args nPaths 64
        (Label.error.shown color ++ cs!": No configuration file found at '" ++ f ++ cs!"'!\n")
  | badConfig (f : Str) : effectiveConfig w (optionsOf args) = some f → w.contents f = none →
      Why version w color args nPaths 78 cs!"Parse error when attempting to parse configuration file.\n"
  | refused (f : Str) (cfg : Cfg) (sentence : Str) : effectiveConfig w (optionsOf args) = some f →
      w.contents f = some cfg → Refusal cfg sentence → Why version w color args nPaths 78 sentence
  | nothingEnabled : .onlyEnabled ∈ args → (∀ a, .enable a ∉ args) →
      Why version w color args nPaths 64 (Label.error.shown color ++ cs!": no warning enabled!\n")
  | noPath : nPaths = 0 → Why version w color args nPaths 64 usageText

/-- The configuration that is read. -/
def readConfig (w : ConfigWorld) (args : List Opt) : Option Cfg :=
  (effectiveConfig w (optionsOf args)).bind w.contents

/-- The ids a list of the configuration gives, if one is read. -/
def configList (w : ConfigWorld) (args : List Opt) (f : Cfg → List Str) : List Str :=
  ((readConfig w args).map f).getD []

/-- The ids that are enabled or disabled, and how that is described: on the command line the disabled
ones first, and in the configuration file likewise. -/
def switched (w : ConfigWorld) (args : List Opt) : List (Str × Str) :=
  (args.filterMap fun | .disable a => some (a, cs!"disabled on command line") | _ => none) ++
  (args.filterMap fun | .enable a => some (a, cs!"enabled on command line") | _ => none) ++
  (configList w args (·.disable)).map (·, cs!"disabled in config") ++
  (configList w args fun cfg => if (optionsOf args).sourceFlag then cfg.enableSource else cfg.enableNormal).map
    (·, cs!"enabled in config")

/-- The argument of `--color`. -/
def colorArg : Opt → Option Str
  | .color a => some a
  | _ => none

/-- Are there colours? The last `--color` decides; without one, or with `auto`, the terminal does. -/
def colours (tty : Bool) (args : List Opt) : Bool :=
  match lastArg colorArg args with
  | some a => if a = cs!"on" then true else if a = cs!"off" then false else tty
  | none => tty

/-- The warning about an id. -/
def warning (color : Bool) (x : Str × Str) : Str :=
  Label.warning.shown color ++ cs!": " ++ x.1 ++ cs!", " ++ x.2 ++ cs!", is not a valid check id.\n"

/-- The note about the mode without `-r`. -/
def sourceNote (color : Bool) : Str :=
  Label.note.shown color ++
    cs!": Source mode enabled without recursive flag (only explicit specified files will be checked).\n"

/-- The warnings about ids that are not valid, in order. -/
def warnings (color : Bool) (l : List (Str × Str)) : Str :=
  (l.filter fun x => decide (isValidCheck (some x.1) = .ok false)).flatMap (warning color)

/-- The note, if the mode is source mode and `-r` is not given. -/
def notes (color : Bool) (args : List Opt) : Str :=
  if (optionsOf args).sourceFlag = true ∧ .recursive ∉ args then sourceNote color else []

/-- The second text has everything that the first one has, in this order; either both are defined or
neither is. -/
def MoreRes : Res Str → Res Str → Prop
  | .ok less, .ok more => less.Sublist more
  | .ub, .ub => True
  | _, _ => False

end Spec
end Selint
