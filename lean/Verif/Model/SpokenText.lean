import Verif.Model.ParsingText
/-!
# All that the program prints, with what is printed while the policy files are parsed (main.c:91-638)
-/

namespace Selint

/-- How it is spoken with these colours and settings (color.c:31-34 `color_enable`, util.c:26-39 `print_if_verbose`). -/
def Speaking.under (y : Speaking) (color : Bool) (st : Settings) : Speaking :=
  { y with color := color, verbose := st.opts.verbose }

/-- startup.c:85: what the parser prints about access_vectors, if it is read. -/
def vectorsSaid (y : Speaking) (w : Machine) (o : Options) (s : Scan) : Res Str :=
  match o.sourceFlag, s.accessVectors with
  | true, some p => supportParserText y w .avFile p s.maps
  | _, _ => .ok []

/-- startup.c:180: what the parser prints about obj_perm_sets.spt, if it is read; the tables are those of that moment
(main.c:515-553). -/
def permSetsSaid (y : Speaking) (w : Machine) (o : Options) (s : Scan) : Res Str :=
  match o.sourceFlag, s.objPermSets with
  | true, some p => do
    let m ← ifFound s.accessVectors (loadSupportFile w .avFile) s.maps
    let m ← ifFound s.modulesConf (loadModules w) m
    supportParserText y w .sptFile p m
  | _, _ => .ok []

/-- A text that is not undefined. -/
def Res.orNil : Res Str → Str
  | .ok t => t
  | .ub => []

/-- main.c:515-600: the parser speaks of the support files and the policy files. The two support files have different names
(main.c:428-435), so that the path tells which one it is. -/
def spokenPrinting (y : Speaking) (sort : Checks CheckFn → List (CheckNode CheckFn)) (w : Machine) (st : Settings) (s₀ : Scan) :
    Printing where
  reason := y.reason
  support := fun color p =>
    if s₀.accessVectors = some p then (vectorsSaid (y.under color st) w st.opts s₀).orNil
    else (permSetsSaid (y.under color st) w st.opts s₀).orNil
  parsing := fun color s => (analysisText (y.under color st) w st s).orNil
  sort := sort

/-- main.c:91-638: all that the program prints. It is undefined if what the parser prints is. `sort` is what `qsort` makes of
the hooks. -/
def spokenText (version : Str) (w : Machine) (y : Speaking) (sort : Checks CheckFn → List (CheckNode CheckFn)) (tty : Bool)
    (args : List Opt) (paths : List Str) : Res Str :=
  match startUp w.config args paths.length with
  | .exit _ => mainText version w ⟨y.reason, fun _ _ => [], fun _ _ => [], sort⟩ tty args paths
  | .go st => do
    let color := colorOn tty st.opts
    let s₀ := collect w st paths
    let _ ← vectorsSaid (y.under color st) w st.opts s₀
    let _ ← permSetsSaid (y.under color st) w st.opts s₀
    let s ← loadSupport w st.opts s₀
    let _ ← analysisText (y.under color st) w st s
    mainText version w (spokenPrinting y sort w st s₀) tty args paths

end Selint
