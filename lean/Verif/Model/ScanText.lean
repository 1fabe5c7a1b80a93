import Verif.Model.StartText
import Verif.Model.SummaryText
/-!
# What is printed about files, support files and the end (main.c:389-616, startup.c)

What the parser prints about a support file with an error is a parameter: it is the subject of
`SyntaxOutput.lean` and `ActionErrors.lean`.
-/

namespace Selint

/-! ## The scan -/

/-- main.c:437-463: what is printed about an entry that is neither a policy file nor a support file. -/
def passText (color : Bool) (o : Options) (e : FtsEnt) : Str :=
  (if e.info ≠ .d then
    if o.recursiveScan then
      ifVerbose o.verbose (cs!"Skipping " ++ e.path ++ cs!" which is not a policy file\n")
    else colorNote color ++ cs!"Note" ++ colorReset color ++ cs!": Skipping " ++ e.path ++
      cs!" which is not a policy file\n"
   else []) ++
  (if !o.scanHiddenDirs && e.info == .d && hiddenName e.name then
    ifVerbose o.verbose (cs!"Skipping hidden directory " ++ e.path ++ cs!"\n")
   else [])

/-- main.c:407-463: what the body of the scan loop prints. -/
def visitText (color : Bool) (o : Options) (e : FtsEnt) : Str :=
  if suffix3 e.path = some cs!".te" then []
  else if suffix3 e.path = some cs!".if" then []
  else if suffix3 e.path = some cs!".fc" then []
  else if o.sourceFlag && strcmp e.name cs!"modules.conf" = 0 then []
  else if o.sourceFlag && strcmp e.name cs!"obj_perm_sets.spt" = 0 then []
  else if o.sourceFlag && strcmp e.name cs!"access_vectors" = 0 then []
  else passText color o e

/-- main.c:407-463: the body of the scan loop with what it prints. -/
def visitTold (color : Bool) (o : Options) (e : FtsEnt) (s : Scan × Str) : (Scan × Str) × Bool :=
  let r := visitMain o e s.1
  ((r.1, s.2 ++ visitText color o e), r.2)

/-- main.c:389-466: the scan of the paths on the command line with what it prints. -/
def scanTold (color : Bool) (o : Options) (roots : List (Str × Fs)) (s : Scan) : Scan × Str :=
  roots.foldl (fun s r => ftsWalk (visitTold color o) r.1 (baseName r.1) [] r.2 s)
    (s, roots.flatMap fun r => ifVerbose o.verbose (cs!"Path added to scan: '" ++ r.1 ++ cs!"'\n"))

/-! ## Support files -/

/-- selint_error.h:20-31: the numbers of the errors. -/
def SelintError.number : SelintError → Nat
  | .success => 0 | .badArg => 1 | .outOfMem => 2 | .noModName => 3 | .notInBlock => 4 | .ifCallLoop => 5
  | .parseError => 6 | .m4SubFailure => 7 | .configParseError => 8 | .ioError => 9

/-- startup.c:72-94, 173-188: what `load_access_vectors_source` and `load_obj_perm_sets_source` return. -/
def supportResult (w : Machine) (flavor : PlainFlavor) (path : Str) (m : Maps) : Res SelintError :=
  match w.text path with
  | none => .ok .ioError
  | some s =>
    match (lexFile s).bind pFile with
    | none => .ok .parseError
    | some f => do
      match ← f.exec flavor path m with
      | none => .ok .parseError
      | some _ => .ok .success

/-- startup.c:124-171: what `load_modules_source` returns. -/
def modulesResult (w : Machine) (path : Str) (m : Maps) : Res SelintError :=
  match w.confLines path with
  | none => .ok .ioError
  | some lines => do
    let r ← loadModulesSource m lines
    .ok (if r.1 then .success else .parseError)

/-- main.c:511-549: one of the three messages; `missing` is the name of a file that was not found, `failed`
and `loaded` begin the other messages. -/
def supportText (color verbose : Bool) (missing failed loaded : Str) (path : Option Str)
    (result : Str → Res SelintError) (said : SelintError → Str) : Res Str :=
  match path with
  | none => .ok (colorWarning color ++ cs!"Warning" ++ colorReset color ++ cs!": Failed to locate " ++ missing ++
      cs!" file.\n")
  | some p => do
    let r ← result p
    .ok (said r ++
      if r ≠ .success then
        colorWarning color ++ cs!"Warning" ++ colorReset color ++ cs!": Failed to " ++ failed ++ cs!" from " ++ p ++
          cs!": " ++ natToStr r.number ++ cs!"\n"
      else ifVerbose verbose (cs!"Loaded " ++ loaded ++ cs!" from " ++ p ++ cs!"\n"))

/-- startup.c:74-83 `load_access_vectors_source`: what it prints itself; `reason` is what strerror(3) says,
`parser` what the parser prints. -/
def vectorsText (color verbose : Bool) (reason parser : Str → Str) (path : Str) (r : SelintError) : Str :=
  ifVerbose verbose (cs!"Parsing access_vector file " ++ path ++ cs!"\n") ++
    match r with
    | .ioError => colorError color ++ cs!"Error" ++ colorReset color ++ cs!": Failed to open " ++ path ++ cs!": " ++
        reason path ++ cs!"\n"
    | .parseError => parser path
    | _ => []

/-- startup.c:33-69 `load_access_vectors_kernel`: does it find a permission? (The path is an argument of
`ftsWalk` only.) -/
def visitPerm (e : FtsEnt) (found : Bool) : Bool × Bool :=
  (found || (e.info == .other && decide (e.name ≠ cs!"index")), false)

/-- startup.c:31-70: what `load_access_vectors_kernel` returns. -/
def kernelResult (kernel : Option Fs) : SelintError :=
  match kernel with
  | none => .ioError
  | some fs =>
    if ftsWalk visitPerm cs!"/sys/fs/selinux/class" cs!"class" [] fs false then .success else .parseError

/-- main.c:551-563: what is printed about the kernel's classes. `load_devel_headers` always succeeds. -/
def kernelText (color : Bool) (kernel : Option Fs) : Str :=
  match kernelResult kernel with
  | .success => []
  | .ioError => colorNote color ++ cs!"Note" ++ colorReset color ++
      cs!": Failed to load classes and perms probably due to running on a SELinux disabled system.\n"
  | _ => colorWarning color ++ cs!"Warning" ++ colorReset color ++
      cs!": Failed to load classes and perms from current kernel.\n"

/-- main.c:511-570: all that is printed about support files. -/
def supportTexts (w : Machine) (color : Bool) (reason parser : Str → Str) (o : Options) (s : Scan) : Res Str :=
  if o.sourceFlag then do
    let a ← supportText color o.verbose cs!"access_vectors" cs!"parse access_vectors" cs!"classes and permissions"
      s.accessVectors (fun p => supportResult w .avFile p s.maps)
      (fun r => vectorsText color o.verbose reason parser (s.accessVectors.getD []) r)
    let m ← ifFound s.accessVectors (loadSupportFile w .avFile) s.maps
    let b ← supportText color o.verbose cs!"modules.conf" cs!"load modules" cs!"modules" s.modulesConf
      (fun p => modulesResult w p m) (fun _ => [])
    let m ← ifFound s.modulesConf (loadModules w) m
    let c ← supportText color o.verbose cs!"obj_perm_sets.spt" cs!"permission and class set macros"
      cs!"permission and class set macros" s.objPermSets (fun p => supportResult w .sptFile p m)
      (fun r => if r = .parseError then parser (s.objPermSets.getD []) else [])
    .ok (a ++ b ++ c)
  else .ok (kernelText color w.kernel)

/-! ## The end -/

/-- main.c:597-611, 581: what is printed after the analysis, or if no checks could be registered (`none`);
`sorted` are the hooks as permuted by `qsort`. -/
def endText (color summary : Bool) (sorted : List (CheckNode CheckFn)) : Option SelintError → Str
  | none => colorError color ++ cs!"Error" ++ colorReset color ++
      cs!": Failed to register checks (bad configuration)\n"
  | some .success => if summary then summaryText color sorted else []
  | some .parseError => colorError color ++ cs!"Error" ++ colorReset color ++ cs!": Failed to parse files\n"
  | some r => colorError color ++ cs!"Error" ++ colorReset color ++ cs!": Internal error: " ++ natToStr r.number ++
      cs!"\n"

end Selint
