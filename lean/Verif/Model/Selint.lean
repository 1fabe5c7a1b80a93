import Verif.Model.Main
import Verif.Model.Whole
import Verif.Model.ModulesConf
/-!
# The program (main.c:91-638)

`main` with all its parts: options, configuration, file scan, support files, checks, analysis and
exit status. Texts printed besides the findings are not modelled, except which check ids are
warned about.
-/

namespace Selint

/-- What the program reads from the system. -/
structure Machine where
  config : ConfigWorld
  /-- What is at a path. -/
  fs : Str → Fs
  /-- The text of a readable file. -/
  text : Str → Option Str
  /-- The lines of an fc file, as `getline` delivers them. -/
  fcLines : Str → Option (List FcInput)
  /-- The lines of a modules.conf file, as `getline` delivers them. -/
  confLines : Str → Option (List (Str × LineBytes))
  /-- What is at /sys/fs/selinux/class. -/
  kernel : Option Fs
  /-- What is at /usr/share/selinux/devel. -/
  devel : Option Fs
  /-- The tables after a support file that could not be parsed: the actions up to the error have
  run. Nothing is assumed about them. -/
  broken : Str → PlainFlavor → Maps → Maps

/-! ## Check ids -/

/-- main.c:86-89 `WARN_ON_INVALID_CHECK_ID` for a list of ids: the ids that are warned about. -/
def invalidIds : List Str → Res (List Str)
  | [] => .ok []
  | id :: ids => do
    let valid ← isValidCheck (some id)
    let rest ← invalidIds ids
    .ok (if valid then rest else id :: rest)

/-- main.c:351-356: the ids of the configuration file, if one is read. -/
def configIds (w : ConfigWorld) (o : Options) : List Str :=
  match chooseConfig w o with
  | .go (some f) =>
    match (w.contents f).bind fun cfg => parseConfig cfg o.sourceFlag {} with
    | some p => p.disabled ++ p.enabled
    | none => []
  | _ => []

/-! ## Support files -/

/-- startup.c:50-66: the body of the loop over /sys/fs/selinux/class, below the root. -/
def visitKernel (e : FtsEnt) (m : Maps) : Maps × Bool :=
  if e.info = .d ∧ e.name ≠ cs!"perms" then (m.insertDecl e.name cs!"class" .cls, false)
  else if e.info = .other ∧ e.name ≠ cs!"index" then (m.insertDecl e.name cs!"perm" .perm, false)
  else (m, false)

/-- startup.c:31-70 `load_access_vectors_kernel`: the tables; its return value only selects a
message. The root itself is not a class. -/
def loadAccessVectorsKernel (kernel : Option Fs) (m : Maps) : Maps :=
  match kernel with
  | none => m
  | some .file => (visitKernel ⟨cs!"/sys/fs/selinux/class", cs!"class", [], .other⟩ m).1
  | some (.dir es) => ftsWalkList visitKernel cs!"/sys/fs/selinux/class" cs!"class" es m

/-- startup.c:231-244: the body of the loop over the development headers. -/
def visitDevel (e : FtsEnt) (s : Scan) : Scan × Bool :=
  if suffix3 e.path = some cs!".if" then
    ({ s with contextIf := s.contextIf ++ [e.path]
              maps := s.maps.insertModLayer (e.name.take (e.name.length - 3)) e.parentName }, false)
  else (s, false)

/-- startup.c:219-249 `load_devel_headers`. -/
def loadDevelHeaders (devel : Option Fs) (s : Scan) : Scan :=
  match devel with
  | none => s
  | some fs => ftsWalk visitDevel cs!"/usr/share/selinux/devel" cs!"devel" [] fs s

/-- startup.c:72-94 `load_access_vectors_source` and startup.c:173-188 `load_obj_perm_sets_source`:
the tables; the return value only selects a message. The module name is the path for an access
vector file; for a permission set file it is whatever was set before, and is not used. -/
def loadSupportFile (w : Machine) (flavor : PlainFlavor) (path : Str) (m : Maps) : Res Maps :=
  match w.text path with
  | none => .ok m
  | some s =>
    match (lexFile s).bind pFile with
    | none => .ok (w.broken path flavor m)
    | some f => do
      match ← f.exec flavor path m with
      | none => .ok (w.broken path flavor m)
      | some st => .ok st.maps

/-- startup.c:124-171 `load_modules_source`: the tables. -/
def loadModules (w : Machine) (path : Str) (m : Maps) : Res Maps :=
  match w.confLines path with
  | none => .ok m
  | some lines => do
    let r ← loadModulesSource m lines
    .ok r.2

/-- Load a support file that was found. -/
def ifFound (path : Option Str) (load : Str → Maps → Res Maps) (m : Maps) : Res Maps :=
  match path with
  | none => .ok m
  | some p => load p m

/-- main.c:511-570: load classes, permissions, modules and permission sets. -/
def loadSupport (w : Machine) (o : Options) (s : Scan) : Res Scan :=
  if o.sourceFlag then do
    let m ← ifFound s.accessVectors (loadSupportFile w .avFile) s.maps
    let m ← ifFound s.modulesConf (loadModules w) m
    let m ← ifFound s.objPermSets (loadSupportFile w .sptFile) m
    .ok { s with maps := m }
  else
    .ok (loadDevelHeaders w.devel { s with maps := loadAccessVectorsKernel w.kernel s.maps })

/-! ## The analysis -/

/-- The calls of `file_list_push_back` for the collected files, the last first. (In the program
the calls for different lists are interleaved; the lists are the same.) -/
def pushes (s : Scan) : List (Which × Str) :=
  (s.te.map (Which.te, ·) ++ s.ifs.map (Which.ifs, ·) ++ s.fc.map (Which.fc, ·) ++
    s.contextTe.map (Which.cte, ·) ++ s.contextIf.map (Which.cif, ·)).reverse

/-- What a run reads. -/
def Machine.sources (w : Machine) (fcMacros : List Str) : Sources := ⟨w.text, w.fcLines, fcMacros⟩

/-- Undefined behaviour while parsing a file. -/
def undefinedFile (src : Sources) (flavor : NodeFlavor) (name : Str) (m : Maps) : Bool :=
  match flavor with
  | .teFile => (match parseOneFile src name .teFile m with | .ub => true | .ok _ => false)
  | .ifFile => (match parseOneFile src name .ifFile m with | .ub => true | .ok _ => false)
  | .fcFile => (match parseFcFile src.fcMacros (src.fcLines name) with | .ub => true | .ok _ => false)
  | _ => false

/-- Undefined behaviour in one of the parses of a run: each is done again with the tables of that
moment. -/
def undefinedParse (src : Sources) (suppress : Bool) (config : ConfigCheckData) : List Event → Maps → Bool
  | [], _ => false
  | .parse _ n fl _ :: rest, m =>
    undefinedFile src fl n m ||
      undefinedParse src suppress config rest ((wholeProgram src suppress config).parser fl n m).2
  | .mark asts :: rest, m =>
    undefinedParse src suppress config rest ((markTransformInterfaces (asts.map Loc.ofForest) m).getD m)
  | _ :: rest, m => undefinedParse src suppress config rest m

/-- main.c:595-596: the analysis of the collected files with these settings and hooks. -/
def analyse (w : Machine) (st : Settings) (s : Scan) (ck : Checks CheckFn) :
    Res (SelintError × RunnerState CheckFn (Res Statics)) :=
  let src := w.sources st.customFcMacros
  let (heap, lists) := pushAll (pushes s)
  match runAnalysis (wholeProgram src st.opts.suppressOutput st.checkData) lists
      ⟨heap, s.maps, ck, ⟨false, .ok .init, []⟩, []⟩ with
  | none => .ub
  | some (e, r) =>
    if undefinedParse src st.opts.suppressOutput st.checkData r.log s.maps then .ub
    else match r.rs.st with
      | .ub => .ub
      | .ok _ => .ok (e, r)

/-- What the program leaves behind: the exit status, the ids warned about, the findings printed,
and the hooks with their counts if a summary is printed. -/
structure MainResult where
  status : Nat
  warned : List Str := []
  findings : List Finding := []
  summary : Option (Checks CheckFn) := none

/-- main.c:374-509: the files the program looks at. -/
def collect (w : Machine) (st : Settings) (paths : List Str) : Scan :=
  scanContext st.opts (st.opts.contextPaths.map fun p => (p, w.fs p))
    (scanMain st.opts (paths.map fun p => (p, w.fs p)) { maps := st.maps })

/-- main.c:374-638, after the settings are known. -/
def mainWith (w : Machine) (st : Settings) (paths : List Str) (warned : List Str) : Res MainResult := do
  let s ← loadSupport w st.opts (collect w st paths)
  match registerChecks st.severity st.enableConf s.maps with
  | none => .ok ⟨exConfig, warned, [], none⟩
  | some ck => do
    let (e, r) ← analyse w st s ck
    .ok ⟨exitStatus st.opts.failOnFinding ⟨e, r.rs.foundIssue⟩, warned, r.rs.out,
      if e = .success ∧ st.opts.summaryFlag then some r.ck else none⟩

/-- main.c:91-638 `main`: options in `args`, paths in `paths`. -/
def selintMain (w : Machine) (args : List Opt) (paths : List Str) : Res MainResult :=
  match parseOpts {} args with
  | .exit s => .ok ⟨s, [], [], none⟩
  | .go o => do
    let w1 ← invalidIds (o.clDisabled ++ o.clEnabled)
    let w2 ← invalidIds (configIds w.config o)
    match settings w.config o paths.length with
    | .exit s => .ok ⟨s, w1 ++ w2, [], none⟩
    | .go st => mainWith w st paths (w1 ++ w2)

end Selint
