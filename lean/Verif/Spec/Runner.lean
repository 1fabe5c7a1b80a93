import Verif.Model.Runner
/-! # Specification vocabulary for a whole run -/

namespace Selint.Spec

/-- Following `next` pointers from `p` one meets exactly the nodes `as`, then NULL. -/
def Chain (h : FileHeap) : Option Nat → List Nat → Prop
  | p, [] => p = none
  | p, a :: as => p = some a ∧ ∃ c, h[a]? = some c ∧ Chain h c.next as

/-- A well-formed file list with these nodes. -/
def IsList (h : FileHeap) (l : FileList) (as : List Nat) : Prop :=
  Chain h l.head as ∧ l.tail = as.getLast?

/-- Five well-formed file lists that share no node. -/
structure World (h : FileHeap) (ls : Lists) (te ifs fc cte cif : List Nat) : Prop where
  hte : IsList h ls.te te
  hifs : IsList h ls.ifs ifs
  hfc : IsList h ls.fc fc
  hcte : IsList h ls.cte cte
  hcif : IsList h ls.cif cif
  nodup : (ifs ++ cif ++ cte ++ te ++ fc).Nodup

/-- Names and links of the list nodes, without the ASTs. -/
def links (h : FileHeap) : List (Str × Option Nat) := h.map fun c => (c.filename, c.next)

section
variable {F σ : Type} (prog : Program F σ)

/-- The symbol tables after the parsing and marking steps of a log. -/
def tablesOf : List Event → Maps → Maps
  | [], m => m
  | .parse _ n fl _ :: rest, m => tablesOf rest (prog.parser fl n m).2
  | .mark asts :: rest, m =>
    tablesOf rest ((markTransformInterfaces (asts.map Loc.ofForest) m).getD m)
  | _ :: rest, m => tablesOf rest m

/-- Every parse of the log has the result that the parser gives with the tables of that
moment. -/
def Genuine : List Event → Maps → Prop
  | [], _ => True
  | .parse _ n fl ast :: rest, m =>
    ast = (prog.parser fl n m).1 ∧ Genuine rest (prog.parser fl n m).2
  | .mark asts :: rest, m =>
    Genuine rest ((markTransformInterfaces (asts.map Loc.ofForest) m).getD m)
  | _ :: rest, m => Genuine rest m

/-- What an event of the log does to the hooks and to the output: a check runs the checks over
the file, with the tables of the event. -/
def replay : Checks F × RunState σ → Event → Checks F × RunState σ
  | x, .check _ _ data ast tables =>
    runChecksOnOneFile (prog.exec tables) prog.suppress x.1 data (Loc.ofForest ast) x.2
  | x, _ => x

end

/-- The flavor with which files of a kind are parsed. -/
def fileNode : FileFlavor → NodeFlavor
  | .teFile => .teFile
  | .ifFile => .ifFile
  | .fcFile => .fcFile

/-- A parse is of the file of its node, and with the flavor of the list that the node is in. -/
def Named (h : FileHeap) (te ifs fc cte cif : List Nat) : Event → Prop
  | .parse a n fl _ => (∃ c, h[a]? = some c ∧ c.filename = n) ∧
    (fl = .ifFile ∧ a ∈ ifs ++ cif ∨ fl = .teFile ∧ a ∈ te ++ cte ∨ fl = .fcFile ∧ a ∈ fc)
  | _ => True

/-- The nodes of the files that were parsed, in order. -/
def parsedCells (log : List Event) : List Nat :=
  log.filterMap fun | .parse a _ _ _ => some a | _ => none

/-- The nodes of the files that were checked, in order. -/
def checkedCells (log : List Event) : List Nat :=
  log.filterMap fun | .check a _ _ _ _ => some a | _ => none

/-- The event is a check. -/
def Event.IsCheck : Event → Prop
  | .check .. => True
  | _ => False

/-- The event is the final cleanup. -/
def Event.IsCleanup : Event → Prop
  | .cleanup => True
  | _ => False

/-- The event is a failed parse. -/
def Event.IsFailure : Event → Prop
  | .parse _ _ _ ast => ast = []
  | _ => False

end Selint.Spec
