import Verif.Model.Config
import Verif.Model.Register
/-! # The program's entry point (main.c) -/

namespace Selint

/-! ## Option parsing -/

/-- What `getopt_long` reports (main.c:144-285), one constructor per `case`. The argument
of `level`, `color` etc. is `optarg`. -/
inductive Opt where
  | config (arg : Str) | context (arg : Str) | color (arg : Str) | debugParser
  | disable (arg : Str) | enable (arg : Str) | onlyEnabled | fail | help | level (arg : Str)
  | modulesConf | recursive | source | scanHiddenDirs | summaryOnly | summary | version
  | verbose | unknown
  deriving DecidableEq, Repr

/-- main.c:93-115: the variables set by the options. `color`: 0 auto, 1 off, 2 on. -/
structure Options where
  severity : Option Char := none
  configFile : Option Str := none
  sourceFlag : Bool := false
  recursiveScan : Bool := false
  onlyEnabled : Bool := false
  summaryFlag : Bool := false
  suppressOutput : Bool := false
  failOnFinding : Bool := false
  scanHiddenDirs : Bool := false
  contextPaths : List Str := []
  color : Nat := 0
  clDisabled : List Str := []
  clEnabled : List Str := []
  verbose : Bool := false
  deriving DecidableEq, Repr

/-- sysexits.h: EX_OK. -/
def exOk : Nat := 0
/-- sysexits.h: EX_USAGE. -/
def exUsage : Nat := 64
/-- sysexits.h: EX_DATAERR. -/
def exDataErr : Nat := 65
/-- sysexits.h: EX_SOFTWARE. -/
def exSoftware : Nat := 70
/-- sysexits.h: EX_CONFIG. -/
def exConfig : Nat := 78

/-- Continue with a value or leave the program with an exit status. -/
inductive Flow (α : Type) where
  | go (a : α)
  | exit (status : Nat)
  deriving DecidableEq, Repr

/-- `optarg[0]` (NUL for the empty string). -/
def firstChar (s : Str) : Char := match s with | [] => '\x00' | c :: _ => c

/-- main.c:156-287: the body of the option loop. -/
def optStep (o : Options) : Opt → Flow Options
  | .config a => .go { o with configFile := some a }
  | .context a => .go { o with contextPaths := o.contextPaths ++ [a], sourceFlag := true }
  | .color a =>
    if strcmp a cs!"on" = 0 then .go { o with color := 2 }
    else if strcmp a cs!"off" = 0 then .go { o with color := 1 }
    else if strcmp a cs!"auto" = 0 then .go { o with color := 0 }
    else .exit exUsage
  | .debugParser => .go o
  | .disable a => .go { o with clDisabled := o.clDisabled ++ [a] }
  | .enable a => .go { o with clEnabled := o.clEnabled ++ [a] }
  | .onlyEnabled => .go { o with onlyEnabled := true }
  | .fail => .go { o with failOnFinding := true }
  | .help => .exit 0
  | .level a =>
    if isValidSeverity (firstChar a) then .go { o with severity := some (firstChar a) }
    else .exit exUsage
  | .modulesConf => .go o
  | .recursive => .go { o with recursiveScan := true }
  | .source => .go { o with sourceFlag := true }
  | .scanHiddenDirs => .go { o with scanHiddenDirs := true }
  | .summaryOnly => .go { o with suppressOutput := true, summaryFlag := true }
  | .summary => .go { o with summaryFlag := true }
  | .version => .exit 0
  | .verbose => .go { o with verbose := true }
  | .unknown => .exit exUsage

/-- main.c:118-287: the option loop. -/
def parseOpts (o : Options) : List Opt → Flow Options
  | [] => .go o
  | x :: xs =>
    match optStep o x with
    | .go o' => parseOpts o' xs
    | .exit s => .exit s

/-! ## Settings -/

/-- What the file system says about configuration files: is it readable (`access`), and what
does libconfuse make of it (`none`: syntax error). -/
structure ConfigWorld where
  readable : Str → Bool
  contents : Str → Option Cfg
  /-- `SYSCONFDIR "/selint.conf"` -/
  defaultPath : Str

/-- Everything decided before the files are scanned. -/
structure Settings where
  opts : Options
  severity : Char
  configDisabled : List Str
  configEnabled : List Str
  customFcMacros : List Str
  checkData : ConfigCheckData
  maps : Maps
  deriving DecidableEq, Repr

/-- main.c:315-328: which configuration file is read (`none`: no file); a file named on the
command line must be readable. -/
def chooseConfig (w : ConfigWorld) (o : Options) : Flow (Option Str) :=
  match o.configFile with
  | some f => if w.readable f then .go (some f) else .exit exUsage
  | none => if w.readable w.defaultPath then .go (some w.defaultPath) else .go none

/-- main.c:330-372: from the options to the settings; `nPaths` is `argc - optind`. -/
def settings (w : ConfigWorld) (o : Options) (nPaths : Nat) : Flow Settings :=
  match chooseConfig w o with
  | .exit s => .exit s
  | .go cf =>
    let cfgResult : Flow (Option ParsedConfig) :=
      match cf with
      | none => .go none
      | some f =>
        match w.contents f with
        | none => .exit exConfig
        | some cfg =>
          match parseConfig cfg o.sourceFlag {} with
          | none => .exit exConfig
          | some p => .go (some p)
    match cfgResult with
    | .exit s => .exit s
    | .go pc =>
      if o.onlyEnabled && o.clEnabled.isEmpty then .exit exUsage
      else if nPaths = 0 then .exit exUsage
      else match pc with
        | some p => .go
            { opts := o
              severity := o.severity.getD p.severity
              configDisabled := p.disabled
              configEnabled := p.enabled
              customFcMacros := p.customFcMacros
              checkData := p.checkData
              maps := p.maps }
        | none => .go
            { opts := o
              severity := o.severity.getD 'C'
              configDisabled := []
              configEnabled := []
              customFcMacros := []
              checkData := defaultCheckData
              maps := (({} : Maps).insertDecl cs!"system_u" cs!"__assumed__" .user).insertDecl
                cs!"object_r" cs!"__assumed__" .role }

/-- The enable/disable lists handed to `register_checks` (main.c:573-579). -/
def Settings.enableConf (s : Settings) : EnableConf :=
  { configEnabled := s.configEnabled, configDisabled := s.configDisabled,
    clEnabled := s.opts.clEnabled, clDisabled := s.opts.clDisabled,
    onlyEnabled := s.opts.onlyEnabled }

/-! ## The end of main -/

/-- Result of the analysis: `run_analysis`'s return value and the `found_issue` flag. -/
structure AnalysisOutcome where
  result : SelintError
  foundIssue : Bool
  deriving DecidableEq, Repr

/-- main.c:597-638: exit status after `run_analysis`. -/
def exitStatus (failOnFinding : Bool) (r : AnalysisOutcome) : Nat :=
  let exitCode :=
    match r.result with
    | .success => exOk
    | .parseError => exSoftware
    | _ => exSoftware
  if failOnFinding && r.foundIssue && exitCode == exOk then exDataErr else exitCode

/-- main.c:91-638 `main`: the exit status. `scan` stands for the file scan and the loading of
support files (main.c:374-571), which update the symbol tables; `analyse` stands for
`run_analysis`. -/
def mainStatus (w : ConfigWorld) (scan : Settings → Maps)
    (analyse : Settings → Checks CheckFn → AnalysisOutcome) (args : List Opt) (nPaths : Nat) : Nat :=
  match parseOpts {} args with
  | .exit s => s
  | .go o =>
    match settings w o nPaths with
    | .exit s => s
    | .go st =>
      match registerChecks st.severity st.enableConf (scan st) with
      | none => exConfig
      | some ck => exitStatus o.failOnFinding (analyse st ck)

/-! ## The path array -/

/-- main.c:387: `malloc(sizeof(char *) * (unsigned)argc - (unsigned)optind + 2)`, in
`size_t` (64-bit) arithmetic. -/
def pathsMallocSize (argc optind : Nat) : Nat :=
  ((8 * argc % 2 ^ 64 + (2 ^ 64 - optind)) % 2 ^ 64 + 2) % 2 ^ 64

/-- main.c:389-395: the indices of `paths` written by the loop and the final NULL. -/
def pathsWrites (argc optind : Nat) : List Nat := List.range (argc - optind + 1)

/-! ## The file scan -/

mutual
/-- A file hierarchy as `fts` walks it: anything that is not a directory, or a directory
with its entries in the order in which `fts` delivers them. -/
inductive Fs where
  | file
  | dir (entries : FsList)
/-- Directory entries: name and what is there. -/
inductive FsList where
  | nil
  | cons (name : Str) (fs : Fs) (rest : FsList)
end

/-- `fts_info`: preorder visit of a directory, postorder visit, anything else. -/
inductive FtsInfo where
  | d | dp | other
  deriving DecidableEq, Repr

/-- The members of `FTSENT` that `main` reads. -/
structure FtsEnt where
  path : Str
  name : Str
  parentName : Str
  info : FtsInfo
  deriving DecidableEq, Repr

/-- What the scan collects (main.c:374-401). -/
structure Scan where
  te : List Str := []
  ifs : List Str := []
  fc : List Str := []
  contextTe : List Str := []
  contextIf : List Str := []
  maps : Maps := {}
  modulesConf : Option Str := none
  objPermSets : Option Str := none
  accessVectors : Option Str := none
  deriving DecidableEq, Repr

/-- main.c:408: pointer to the last three characters, NULL for short paths. -/
def suffix3 (path : Str) : Option Str :=
  if path.length > 3 then some (path.drop (path.length - 3)) else none

/-- main.c:453-457: the test for hidden directories (without the `FTS_D` part). -/
def hiddenName : Str → Bool
  | '.' :: c :: _ => c != '.'
  | _ => false

/-- main.c:407-463: the body of the scan loop for one `FTSENT`. The second component says
whether `fts_set(…, FTS_SKIP)` was called. -/
def visitMain (o : Options) (e : FtsEnt) (s : Scan) : Scan × Bool :=
  if suffix3 e.path = some cs!".te" then ({ s with te := s.te ++ [e.path] }, false)
  else if suffix3 e.path = some cs!".if" then
    ({ s with ifs := s.ifs ++ [e.path]
              maps := s.maps.insertModLayer (e.name.take (e.name.length - 3)) e.parentName }, false)
  else if suffix3 e.path = some cs!".fc" then ({ s with fc := s.fc ++ [e.path] }, false)
  else if o.sourceFlag && strcmp e.name cs!"modules.conf" = 0 then
    ({ s with modulesConf := some e.path }, false)
  else if o.sourceFlag && strcmp e.name cs!"obj_perm_sets.spt" = 0 then
    ({ s with objPermSets := some e.path }, false)
  else if o.sourceFlag && strcmp e.name cs!"access_vectors" = 0 then
    ({ s with accessVectors := some e.path }, false)
  else
    (s, !o.recursiveScan || (!o.scanHiddenDirs && e.info == .d && hiddenName e.name))

/-- main.c:478-504: the body of the context loop. -/
def visitContext (o : Options) (e : FtsEnt) (s : Scan) : Scan :=
  if suffix3 e.path = some cs!".te" then
    if strInSl e.path s.te then s else { s with contextTe := s.contextTe ++ [e.path] }
  else if suffix3 e.path = some cs!".if" then
    if strInSl e.path s.ifs then s else { s with contextIf := s.contextIf ++ [e.path] }
  else if o.sourceFlag && s.modulesConf.isNone && strcmp e.name cs!"modules.conf" = 0 then
    { s with modulesConf := some e.path }
  else if o.sourceFlag && s.objPermSets.isNone && strcmp e.name cs!"obj_perm_sets.spt" = 0 then
    { s with objPermSets := some e.path }
  else if o.sourceFlag && s.accessVectors.isNone && strcmp e.name cs!"access_vectors" = 0 then
    { s with accessVectors := some e.path }
  else s

/-- fts's path of an entry: directory path, one slash, name. -/
def joinPath (dir name : Str) : Str :=
  if dir.getLast? = some '/' then dir ++ name else dir ++ '/' :: name

/-- fts's name of a root: the part after the last slash, except that "/" is called "/". -/
def baseName (path : Str) : Str :=
  if path = cs!"/" then path
  else match strrchr '/' path with
  | some (_ :: r) => r
  | _ => path

mutual
/-- The sequence of `fts_read` results below one entry, threading the state: directories
are visited before and after their entries; `FTS_SKIP` at the first visit suppresses the
entries. `visit` is the loop body. -/
def ftsWalk {σ : Type} (visit : FtsEnt → σ → σ × Bool) (path name parent : Str) :
    Fs → σ → σ
  | .file, s => (visit ⟨path, name, parent, .other⟩ s).1
  | .dir es, s =>
    let r := visit ⟨path, name, parent, .d⟩ s
    let s2 := if r.2 then r.1 else ftsWalkList visit path name es r.1
    (visit ⟨path, name, parent, .dp⟩ s2).1
/-- The entries of a directory in turn. -/
def ftsWalkList {σ : Type} (visit : FtsEnt → σ → σ × Bool) (dirPath dirName : Str) :
    FsList → σ → σ
  | .nil, s => s
  | .cons n fs rest, s =>
    ftsWalkList visit dirPath dirName rest (ftsWalk visit (joinPath dirPath n) n dirName fs s)
end

/-- main.c:397-466: the scan of the paths on the command line. -/
def scanMain (o : Options) (roots : List (Str × Fs)) (s : Scan) : Scan :=
  roots.foldl (fun s r => ftsWalk (visitMain o) r.1 (baseName r.1) [] r.2 s) s

/-- main.c:468-509: the scan of the context paths. -/
def scanContext (o : Options) (roots : List (Str × Fs)) (s : Scan) : Scan :=
  roots.foldl (fun s r =>
    ftsWalk (fun e s => (visitContext o e s, false)) r.1 (baseName r.1) [] r.2 s) s

end Selint
