import Verif.Model.Run
/-! # Marking of transform interfaces (startup.c:191-220, 250-265) -/

namespace Selint

/-- startup.c:198-203: skip the start of the block and requires. -/
def firstStatement (children : List Tree) : Option Tree :=
  (children.dropWhile fun c =>
    c.info.flavor == .startBlock || c.info.flavor == .require || c.info.flavor == .genReq).head?

/-- startup.c:195-215: the body of the loop, for one node. The flag is "marked something".
(Interface definitions always carry a name: `begin_interface_def`.) -/
def markNode (l : Loc) (m : Maps) : Maps × Bool :=
  match l.data with
  | .plain .interfaceDef (some name) =>
    if l.focus.children.isEmpty then (m, false)
    else if m.isTransform name then (m, false)
    else
      match firstStatement l.focus.children with
      | none => (m, false)
      | some c =>
        match c.info.data with
        | .ifCall d => if m.isTransform d.name then (m.markTransform name, true) else (m, false)
        | _ => (m, false)
  | _ => (m, false)

/-- The loop over the nodes of one file. -/
def markNodes : List Loc → Maps → Maps × Bool
  | [], m => (m, false)
  | l :: ls, m =>
    let r := markNode l m
    let q := markNodes ls r.1
    (q.1, r.2 || q.2)

/-- startup.c:191-220 `mark_transform_interfaces_one_file`. -/
def markOneFile (ast : Option Loc) (m : Maps) : Maps × Bool :=
  match ast with
  | none => (m, false)
  | some l => markNodes l.walk m

/-- startup.c:255-261: one pass over the files; because of the short-circuit `||`, files
after the first one that marks something are skipped. -/
def markPass : List (Option Loc) → Maps → Maps × Bool
  | [], m => (m, false)
  | a :: rest, m =>
    let r := markOneFile a m
    if r.2 then (r.1, true) else markPass rest r.1

/-- startup.c:250-265 `mark_transform_interfaces`: passes until nothing is marked. The first
argument bounds the number of passes; `none` means that it was reached. -/
def markLoop : Nat → List (Option Loc) → Maps → Option Maps
  | 0, _, _ => none
  | fuel + 1, files, m =>
    let r := markPass files m
    if r.2 then markLoop fuel files r.1 else some r.1

/-- Number of nodes in the files: a bound for the number of passes. -/
def nodeCount (files : List (Option Loc)) : Nat :=
  (files.map fun a => match a with | none => 0 | some l => l.walk.length).sum

/-- startup.c:250-265 `mark_transform_interfaces` with a bound that is always large enough
(`C22_terminates`). -/
def markTransformInterfaces (files : List (Option Loc)) (m : Maps) : Option Maps :=
  markLoop (nodeCount files + 1) files m

end Selint
