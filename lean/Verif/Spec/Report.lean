import Verif.Spec.Run
import Verif.Spec.Runner
/-!
# What a run over a policy reads and prints

The same as `run_analysis`, but on plain lists of file names, without list nodes, splices and
counters.
-/

namespace Selint.Spec

/-- A file of the policy with its tree. -/
structure PolicyFile where
  kind : FileFlavor
  path : Str
  trees : List Tree

section
variable {F σ : Type} (prog : Program F σ)

/-- Reading files one after the other: their trees, and the tables after the last; `none` if one
of them has no tree. -/
def readAll (kind : FileFlavor) : List Str → Maps → Option (List PolicyFile × Maps)
  | [], m => some ([], m)
  | n :: ns, m =>
    if (prog.parser (fileNode kind) n m).1 = [] then none
    else (readAll kind ns (prog.parser (fileNode kind) n m).2).map fun r =>
      (⟨kind, n, (prog.parser (fileNode kind) n m).1⟩ :: r.1, r.2)

/-- Reading a policy: first all interfaces, so that the calls in te files can be expanded. Gives
the files to check (the context files are not among them) and the final tables. -/
def readPolicy (te ifs fc cte cif : List Str) (m : Maps) : Option (List PolicyFile × Maps) := do
  let (i, m) ← readAll prog .ifFile ifs m
  let (ci, m) ← readAll prog .ifFile cif m
  let m := (markTransformInterfaces ((i ++ ci).map fun x => Loc.ofForest x.trees) m).getD m
  let (_, m) ← readAll prog .teFile cte m
  let (t, m) ← readAll prog .teFile te m
  let (f, m) ← readAll prog .fcFile fc m
  pure (t ++ i ++ f, m)

/-- The calls of check functions for a file: all nodes in document order, then the end of the file,
and at each of them the hooks of its flavor that are not excepted. -/
def callsFor (ck : Checks F) (ts : List Tree) : List (Invocation F) :=
  (Tree.locsList [] ts [] ++ [cleanupLoc]).flatMap (invocationsAt ck)

/-- What checking files one after the other finds. -/
def report (exec : Exec F σ) (ck : Checks F) : List PolicyFile → σ → σ × List Finding
  | [], st => (st, [])
  | x :: xs, st =>
    let data := checkDataFor prog x.kind x.path
    let q := execute exec data (callsFor ck x.trees) st
    let rest := report exec ck xs q.1
    (rest.1, findings data q.2 ++ rest.2)

end

end Selint.Spec
