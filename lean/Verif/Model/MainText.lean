import Verif.Model.ScanText
/-!
# All that the program prints (main.c:91-638)

Standard output only. What is printed while support files and policies are parsed is given by parameters:
it is the subject of `SyntaxOutput.lean` and `ActionErrors.lean`.
-/

namespace Selint

/-- te_checks.c:690-703: what `check_unknown_permission_condition` prints. -/
def permissionNote (color : Bool) (m : Maps) : Str :=
  if m.permmacrosCount = 0 then
    colorNote color ++ cs!"Note" ++ colorReset color ++
      cs!": Check E-007 is not performed because no permission macro has been parsed.\n"
  else if m.declCount .perm = 0 then
    colorNote color ++ cs!"Note" ++ colorReset color ++
      cs!": Check E-007 is not performed because no permission has been parsed.\n"
  else []

/-- te_checks.c:742-750: what `check_unknown_class_condition` prints. -/
def classNote (color : Bool) (m : Maps) : Str :=
  if m.declCount .cls = 0 then
    colorNote color ++ cs!"Note" ++ colorReset color ++
      cs!": Check E-008 is not performed because no class has been parsed.\n"
  else []

/-- runner.c:278-286: what is printed in `case 'E'` of `register_checks`. -/
def registerEText (color : Bool) (en : Str → Bool) (m : Maps) : Str :=
  (if en cs!"E-007" then permissionNote color m else []) ++ (if en cs!"E-008" then classNote color m else [])

/-- runner.c:93-304: what `register_checks` prints. -/
def registerText (color : Bool) (level : Char) (c : EnableConf) (m : Maps) : Str :=
  let en := fun id => isCheckEnabled id c
  match level with
  | 'C' => registerEText color en m
  | 'S' => registerEText color en m
  | 'W' => registerEText color en m
  | 'E' => registerEText color en m
  | _ => []

/-- What is printed elsewhere: `reason` is what strerror(3) says about a file, `support` what the parser prints about a
support file, `parsing` what is printed while the policies are parsed, and `sort` what `qsort` makes of the hooks. -/
structure Printing where
  reason : Str → Str
  support : Bool → Str → Str
  parsing : Bool → Scan → Str
  sort : Checks CheckFn → List (CheckNode CheckFn)

/-- main.c:374-616, after the settings are known. All files are parsed before any is checked. -/
def filesText (w : Machine) (x : Printing) (color : Bool) (st : Settings) (paths : List Str) : Res Str := do
  let scan := scanTold color st.opts (paths.map fun p => (p, w.fs p)) { maps := st.maps }
  let support ← supportTexts w color x.reason (x.support color) st.opts (collect w st paths)
  let s ← loadSupport w st.opts (collect w st paths)
  let notes := registerText color st.severity st.enableConf s.maps
  match registerChecks st.severity st.enableConf s.maps with
  | none => .ok (scan.2 ++ support ++ notes ++ endText color st.opts.summaryFlag [] none)
  | some ck => do
    let (e, r) ← analyse w st s ck
    .ok (scan.2 ++ support ++ notes ++ x.parsing color s ++ r.rs.out.flatMap (formatFinding color) ++
      endText color st.opts.summaryFlag (x.sort r.ck) (some e))

/-- main.c:91-638: all that the program prints. -/
def mainText (version : Str) (w : Machine) (x : Printing) (tty : Bool) (args : List Opt) (paths : List Str) : Res Str := do
  let start ← startText version w.config tty args paths.length
  match startUp w.config args paths.length with
  | .exit _ => .ok start
  | .go st => do
    let rest ← filesText w x (colorOn tty st.opts) st paths
    .ok (start ++ rest)

end Selint
