import Verif.Model.Hooks
import Verif.Lemmas.Tree
/-! # Running checks over a file (runner.c:342-403) -/

namespace Selint

/-- The nodes visited by `for (cur = l; cur; cur = dfs_next(cur))`. -/
def Loc.walk (l : Loc) : List Loc :=
  match _h : l.dfsNext with
  | none => [l]
  | some n => l :: n.walk
termination_by l.remaining
decreasing_by exact Loc.remaining_dfsNext (by assumption)

/-- runner.c:359-361: the node on the stack with flavor `NODE_CLEANUP`, all else zero. -/
def cleanupLoc : Loc := ⟨.mk ⟨.plain .cleanup none, none, 0⟩ [], [], [], []⟩

/-- runner.c:348-356: the loop over the tree. -/
def runLoop {F σ : Type} (exec : Exec F σ) (suppress : Bool) (data : CheckData)
    (cur : Loc) (ck : Checks F) (s : RunState σ) : Checks F × RunState σ :=
  let r := callChecks exec suppress ck data cur s
  match _h : cur.dfsNext with
  | none => r
  | some n => runLoop exec suppress data n r.1 r.2
termination_by cur.remaining
decreasing_by exact Loc.remaining_dfsNext (by assumption)

/-- runner.c:342-363 `run_checks_on_one_file`. `call_checks` always returns
`SELINT_SUCCESS`, so the early return never happens. -/
def runChecksOnOneFile {F σ : Type} (exec : Exec F σ) (suppress : Bool) (ck : Checks F)
    (data : CheckData) (head : Option Loc) (s : RunState σ) : Checks F × RunState σ :=
  let r := match head with
    | none => (ck, s)
    | some l => runLoop exec suppress data l ck s
  callChecks exec suppress r.1 data cleanupLoc r.2

end Selint
