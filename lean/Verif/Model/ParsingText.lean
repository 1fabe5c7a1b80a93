import Verif.Model.ActionErrors
import Verif.Model.MainText
/-!
# What is printed while the policy files are parsed (runner.c:34-54, 306-340, parse.y)
-/

namespace Selint

/-- parse.y:199-1076: that many rounds of `yyparse`, or fewer if it comes to an end. -/
def Lr.Asking.rounds (before : Location) (fin : Location × LineCache) (q : Asking) : Nat → Asking
  | 0 => q
  | n + 1 =>
    match q.step before fin with
    | some q' => q'.rounds before fin n
    | none => q

/-- parse.y:199-1198 `yyparse_wrapper`: what is printed about a text; `before` is where bison's `yylloc` was left by
the file before. There are never more rounds than stated (C96). Simplification: the parser begins with an empty memory; what
is printed does not depend on addresses. -/
def parserText (color : Bool) (endName : Str) (expected : PlainFlavor) (mod : Str) (m : Maps) (before : Location)
    (filename text : Str) : Res Str :=
  match scanText text before with
  | none => .ok []
  | some (ts, fin) =>
    let q := (Lr.Asking.start ⟨fun _ => none, 0⟩ expected mod m before ts).rounds before fin (54 * ts.length + 40)
    match q.p.d.step with
    | .ub => .ub
    | .ok .reject => q.output before color filename endName
    | .ok _ => .ok []

/-- What the messages depend on besides the files: `reason` is what strerror(3) says about a file, `endName` what bison
calls the end of a text, `before` where `yylloc` is when a file is opened. -/
structure Speaking where
  color : Bool
  verbose : Bool
  reason : Str → Str
  endName : Str
  before : Str → Location

/-- runner.c:312-313, 36-50: what is printed for a te or if file. -/
def policyText (x : Speaking) (src : Sources) (flavor : PlainFlavor) (filename : Str) (m : Maps) : Res Str := do
  let start := ifVerbose x.verbose (cs!"Parsing " ++ filename ++ cs!"\n")
  let mod ← moduleOfFile filename
  match src.text filename with
  | none => .ok (start ++ (colorError x.color ++ cs!"Error" ++ colorReset x.color ++ cs!": Failed to open " ++ filename ++
      cs!": " ++ x.reason filename ++ cs!"\n"))
  | some text => do
    let t ← parserText x.color x.endName flavor mod m (x.before filename) filename text
    .ok (start ++ t)

/-- runner.c:312-313, 331-332: what is printed for a file of some kind; `parse_fc_file` prints nothing. -/
def fileText (x : Speaking) (src : Sources) (flavor : NodeFlavor) (filename : Str) (m : Maps) : Res Str :=
  match flavor with
  | .teFile => policyText x src .teFile filename m
  | .ifFile => policyText x src .ifFile filename m
  | .fcFile => .ok (ifVerbose x.verbose (cs!"Parsing fc file " ++ filename ++ cs!"\n"))
  | _ => .ok []

/-- runner.c:306-340, 405-462: what is printed in the parses of a run, each done with the tables of that moment. -/
def logText (x : Speaking) (src : Sources) (suppress : Bool) (config : ConfigCheckData) : List Event → Maps → Res Str
  | [], _ => .ok []
  | .parse _ n fl _ :: rest, m => do
    let a ← fileText x src fl n m
    let b ← logText x src suppress config rest ((wholeProgram src suppress config).parser fl n m).2
    .ok (a ++ b)
  | .mark asts :: rest, m => logText x src suppress config rest ((markTransformInterfaces (asts.map Loc.ofForest) m).getD m)
  | _ :: rest, m => logText x src suppress config rest m

/-- main.c:597, runner.c:405-462: what is printed while the files of a run are parsed, which comes before the findings. -/
def analysisText (x : Speaking) (w : Machine) (st : Settings) (s : Scan) : Res Str :=
  match registerChecks st.severity st.enableConf s.maps with
  | none => .ok []
  | some ck => do
    let (_, r) ← analyse w st s ck
    logText x (w.sources st.customFcMacros) st.opts.suppressOutput st.checkData r.log s.maps

/-- startup.c:85, 180: what the parser prints about a support file. As in `loadSupportFile` the module is called like the
file. -/
def supportParserText (x : Speaking) (w : Machine) (flavor : PlainFlavor) (path : Str) (m : Maps) : Res Str :=
  match w.text path with
  | none => .ok []
  | some text => parserText x.color x.endName flavor path m (x.before path) path text

end Selint
