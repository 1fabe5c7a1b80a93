import Verif.Model.Dispatch
import Verif.Model.Parser
import Verif.Model.Lex
import Verif.Model.ParseFunctions
import Verif.Model.ParseFc
import Verif.Model.Runner
/-!
# The program on texts

The parts put together: a run reads the policy files, scans and parses them and runs the checks
of selint on the trees.
-/

namespace Selint

/-- What a run reads. -/
structure Sources where
  /-- The content of a te or if file; `none`: `fopen` fails (runner.c:43-47). -/
  text : Str → Option Str
  /-- The lines of an fc file; `none`: `fopen` fails (parse_fc.c:234-240). -/
  fcLines : Str → Option (List FcInput)
  /-- The `custom_fc_macros` of the configuration. -/
  fcMacros : List Str

/-- runner.c:37-40: the module name, the basename without its last three characters. A shorter
name is written outside its buffer. -/
def moduleOfFile (filename : Str) : Res Str :=
  if 3 ≤ (basename filename).length then .ok ((basename filename).dropLast.dropLast.dropLast) else .ub

/-- runner.c:34-54 `parse_one_file` with parse.y:1177-1198 `yyparse_wrapper`: the tree and the
tables; `none` is NULL. The derivation is found by `pFile` instead of the table-driven parser that
bison generates; C68 shows that there is no other. (The tables may have changed when the result is NULL; they are not used
any more then. A call before a syntax error may be undefined, which is left out here and is told in C96 and C109.) -/
def parseOneFile (src : Sources) (filename : Str) (flavor : PlainFlavor) (m : Maps) :
    Res (Option (List Tree × Maps)) := do
  let mod ← moduleOfFile filename
  match src.text filename with
  | none => pure none
  | some s =>
    match (lexFile s).bind pFile with
    | none => pure none
    | some f =>
      match ← f.exec flavor mod m with
      | none => pure none
      | some st => pure (some (st.loc.unzip, st.maps))

/-- The nodes of an fc file, which are linked by `next` only (parse_fc.c:274-289). -/
def fcForest (ns : List FcNode) : List Tree := ns.map fun n => .mk ⟨n.data, none, n.lineno⟩ []

/-- A parse for `run_analysis`. Simplification: undefined behaviour of the parser counts as a
failure here, so a run that succeeds had none. -/
def parseResult (m : Maps) : Res (Option (List Tree × Maps)) → List Tree × Maps
  | .ok (some r) => r
  | .ok none => ([], m)
  | .ub => ([], m)

/-- selint, as far as `run_analysis` calls it. -/
def wholeProgram (src : Sources) (suppress : Bool) (config : ConfigCheckData) :
    Program CheckFn (Res Statics) where
  parse := fun name flavor m =>
    match flavor with
    | .teFile => parseResult m (parseOneFile src name .teFile m)
    | .ifFile => parseResult m (parseOneFile src name .ifFile m)
    | _ => ([], m)
  parseFc := fun name m =>
    match parseFcFile src.fcMacros (src.fcLines name) with
    | .ok (some ns) => (fcForest ns, m)
    | _ => ([], m)
  exec := selintExec
  suppress := suppress
  config := config

end Selint
