import Verif.Model.Selint
import Verif.Model.Usage
import Verif.Model.LineCache
/-!
# What is printed before any file is looked at (main.c:118-370, selint_config.c:103-235)

Standard output only; `getopt_long` itself writes to the standard error.
-/

namespace Selint

/-- color.c:63-70 `color_note`. -/
def colorNote (enabled : Bool) : Str := if enabled then cs!"\x1b[35;1m" else []

/-- util.c:25-38 `print_if_verbose`. -/
def ifVerbose (verbose : Bool) (s : Str) : Str := if verbose then s else []

/-- main.c:183, 190-193, 220-222, 236-243, 276-279, 285-287: what an option prints. `version` is the
macro `VERSION`. -/
def optText (version : Str) : Opt → Str
  | .color a =>
    if strcmp a cs!"on" = 0 then []
    else if strcmp a cs!"off" = 0 then []
    else if strcmp a cs!"auto" = 0 then []
    else cs!"Invalid argument '" ++ a ++ cs!"' given for option --color\n" ++ usageText
  | .help => usageText
  | .level a =>
    if isValidSeverity (firstChar a) then []
    else cs!"Invalid argument '" ++ a ++ cs!"' given for option --level\n" ++ usageText
  | .version => cs!"SELint " ++ version ++ cs!"\n"
  | .unknown => usageText
  | _ => []

/-- main.c:118-290: what the option loop prints. -/
def optsText (version : Str) (o : Options) : List Opt → Str
  | [] => []
  | x :: xs =>
    optText version x ++
      match optStep o x with
      | .go o' => optsText version o' xs
      | .exit _ => []

/-- main.c:86-89 `WARN_ON_INVALID_CHECK_ID` in a loop over a list. -/
def warnText (color : Bool) (desc : Str) : List Str → Res Str
  | [] => .ok []
  | id :: ids => do
    let valid ← isValidCheck (some id)
    let rest ← warnText color desc ids
    .ok ((if valid then [] else colorWarning color ++ cs!"Warning" ++ colorReset color ++ cs!": " ++ id ++
      cs!", " ++ desc ++ cs!", is not a valid check id.\n") ++ rest)

/-- selint_config.c:179-211: what the loop over the flavors prints. -/
def reqFlavorsText (acc : List DeclFlavor) : List Str → Str
  | [] => []
  | s :: rest =>
    match parseReqFlavor s with
    | none => cs!"Invalid ordering_requires flavor (" ++ s ++
        cs!") specified in config.\n" ++
          cs!"See configuration file for available options\n"
    | some f =>
      if acc.any (fun g => g == f) then
        cs!"Duplicate ordering_requires flavor (" ++ s ++ cs!") specified in config.\n"
      else reqFlavorsText (acc ++ [f]) rest

/-- selint_config.c:105-237 `parse_config`: what it prints once the settings are read. -/
def cfgText (cfg : Cfg) : Str :=
  match parseSeverity cfg.severity with
  | none => cs!"Invalid severity level (" ++ cfg.severity ++
      cs!") specified in config.\n" ++
          cs!"Options are \"convention\", \"style\", \"warning\", \"error\" and \"fatal\"\n"
  | some _ =>
    match parseOrderConf cfg.orderingRules with
    | none => cs!"Invalid ordering rules (" ++ cfg.orderingRules ++
        cs!") specified in config.\n" ++
          cs!"Options are \"refpolicy\", \"refpolicy-light\"\nand \"refpolicy-lax\"\n"
    | some _ =>
      if cfg.orderingRequires.length ≠ 6 then
        cs!"Incorrect amount of ordering_requires flavors (" ++ natToStr cfg.orderingRequires.length ++
          cs!") specified in config.\n" ++
          cs!"The required amount is 6.\n"
      else match parseReqFlavors [] cfg.orderingRequires with
        | none => reqFlavorsText [] cfg.orderingRequires
        | some _ =>
          match parseBool cfg.orderingRequiresSameFlavor with
          | none => cs!"Invalid ordering_requires_same_flavor setting (" ++ cfg.orderingRequiresSameFlavor ++
              cs!") specified in config.\n" ++
          cs!"Options are \"true\" and \"false\"\n"
          | some _ =>
            match parseBool cfg.skipCheckingGeneratedFcs with
            | none => cs!"Invalid skip_checking_generated_fcs setting (" ++ cfg.skipCheckingGeneratedFcs ++
                cs!") specified in config.\n" ++
          cs!"Options are \"true\" and \"false\"\n"
            | some _ => []

/-- selint_config.c:105-111: a file that libconfuse cannot parse (what libconfuse prints itself goes to
the standard error). -/
def configText (verbose : Bool) (filename : Str) (contents : Option Cfg) : Str :=
  ifVerbose verbose (cs!"Loading configuration from: " ++ filename ++ cs!"\n") ++
    match contents with
    | none => cs!"Parse error when attempting to parse configuration file.\n"
    | some cfg => cfgText cfg

/-- main.c:349-370: what is printed once the configuration has been read; `p` is what was read. -/
def readyText (color : Bool) (o : Options) (nPaths : Nat) (p : Option ParsedConfig) : Res Str := do
  let disabled ← warnText color cs!"disabled in config" (p.elim [] (·.disabled))
  let enabled ← warnText color cs!"enabled in config" (p.elim [] (·.enabled))
  let severity := o.severity.getD (p.elim 'C' (·.severity))
  .ok (disabled ++ enabled ++
    if o.onlyEnabled && o.clEnabled.isEmpty then
      colorError color ++ cs!"Error" ++ colorReset color ++ cs!": no warning enabled!\n"
    else ifVerbose o.verbose (cs!"Severity level set to " ++ [severity] ++ cs!"\n") ++
      if nPaths = 0 then usageText else [])

/-- main.c:315-370: the configuration file, and what follows. -/
def settingsText (w : ConfigWorld) (color : Bool) (o : Options) (nPaths : Nat) : Res Str :=
  match chooseConfig w o with
  | .exit _ => .ok (colorError color ++ cs!"Error" ++ colorReset color ++
      cs!": No configuration file found at '" ++ o.configFile.getD [] ++ cs!"'!\n")
  | .go none => do
    let rest ← readyText color o nPaths none
    .ok (ifVerbose o.verbose (cs!"No config specified and could not find default config at " ++ w.defaultPath ++
      cs!".\n") ++ rest)
  | .go (some f) =>
    match (w.contents f).bind fun cfg => parseConfig cfg o.sourceFlag {} with
    | none => .ok (configText o.verbose f (w.contents f))
    | some p => do
      let rest ← readyText color o nPaths (some p)
      .ok (configText o.verbose f (w.contents f) ++ rest)

/-- main.c:292-313: what is printed about the options. -/
def modesText (color : Bool) (o : Options) : Res Str := do
  let disabled ← warnText color cs!"disabled on command line" o.clDisabled
  let enabled ← warnText color cs!"enabled on command line" o.clEnabled
  .ok (ifVerbose o.verbose cs!"Verbose mode enabled\n" ++
    (if color then ifVerbose o.verbose cs!"Color output enabled\n" else []) ++
    (if o.sourceFlag then ifVerbose o.verbose cs!"Source mode enabled\n" ++
        (if o.recursiveScan then [] else colorNote color ++ cs!"Note" ++ colorReset color ++
          cs!": Source mode enabled without recursive flag (only explicit specified files will be checked).\n")
      else []) ++
    disabled ++ enabled)

/-- main.c:294: are colours used? `tty` is what `isatty` says. -/
def colorOn (tty : Bool) (o : Options) : Bool := decide (o.color = 2) || (decide (o.color = 0) && tty)

/-- main.c:91-370: all that `main` prints before it looks at a file. -/
def startText (version : Str) (w : ConfigWorld) (tty : Bool) (args : List Opt) (nPaths : Nat) : Res Str :=
  match parseOpts {} args with
  | .exit _ => .ok (optsText version {} args)
  | .go o => do
    let modes ← modesText (colorOn tty o) o
    let rest ← settingsText w (colorOn tty o) o nPaths
    .ok (optsText version {} args ++ modes ++ rest)

/-- main.c:91-370: the settings, or the exit status if the program ends before it looks at a file. -/
def startUp (w : ConfigWorld) (args : List Opt) (nPaths : Nat) : Flow Settings :=
  match parseOpts {} args with
  | .exit s => .exit s
  | .go o => settings w o nPaths

end Selint
