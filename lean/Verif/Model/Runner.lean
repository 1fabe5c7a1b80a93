import Verif.Model.Transform
/-! # The whole analysis (file_list.c, runner.c:306-485)

File lists are modelled with their pointers, because `run_analysis` temporarily splices two
of them. -/

namespace Selint

/-- file_list.h `struct policy_file_node` together with its `struct policy_file`;
`ast = []` is NULL (a parsed file has at least one node). -/
structure FileCell where
  filename : Str
  ast : List Tree
  next : Option Nat
  deriving Repr

/-- The list nodes in memory; the address of a node is its index. -/
abbrev FileHeap := List FileCell

/-- file_list.h `struct policy_file_list`. -/
structure FileList where
  head : Option Nat
  tail : Option Nat
  deriving DecidableEq, Repr

/-- Set the `next` field of a node. -/
def FileHeap.setNext (h : FileHeap) (a : Nat) (p : Option Nat) : FileHeap :=
  match h[a]? with
  | none => h
  | some c => h.set a { c with next := p }

/-- file_list.c:22-35 `file_list_push_back`, with a file made by `make_policy_file`
(file_list.c:37-44). -/
def fileListPushBack (h : FileHeap) (l : FileList) (filename : Str) : FileHeap × FileList :=
  let new := h.length
  match l.tail with
  | some t => (FileHeap.setNext h t (some new) ++ [⟨filename, [], none⟩], ⟨l.head, some new⟩)
  | none => (h ++ [⟨filename, [], none⟩], ⟨some new, some new⟩)

/-- file_list.c:46-57 `file_name_in_file_list`; the first argument bounds the walk. -/
def fileNameInFileList (h : FileHeap) (filename : Str) : Nat → Option Nat → Bool
  | 0, _ => false
  | _, none => false
  | fuel + 1, some a =>
    match h[a]? with
    | none => false
    | some c => if strcmp filename c.filename = 0 then true else fileNameInFileList h filename fuel c.next

/-- What a run does, in order. -/
inductive Event where
  /-- `yyparse_wrapper`/`parse_fc_file` on a file, with the AST it gave (`[]`: none). -/
  | parse (cell : Nat) (filename : Str) (flavor : NodeFlavor) (ast : List Tree)
  /-- `mark_transform_interfaces` on these ASTs. -/
  | mark (asts : List (List Tree))
  /-- `run_checks_on_one_file` on a file, with the symbol tables it sees. -/
  | check (cell : Nat) (filename : Str) (data : CheckData) (ast : List Tree) (tables : Maps)
  /-- `cleanup_parsing`. -/
  | cleanup

/-- The state of a run. -/
structure RunnerState (F σ : Type) where
  heap : FileHeap
  maps : Maps
  ck : Checks F
  rs : RunState σ
  log : List Event

/-- The parts of the program a run is parameterised by: the parser for te and if files, the
parser for fc files (each reads a file and changes the tables; `[]` is a NULL result), and the
check functions, which can read the tables. -/
structure Program (F σ : Type) where
  parse : Str → NodeFlavor → Maps → List Tree × Maps
  parseFc : Str → Maps → List Tree × Maps
  exec : Maps → Exec F σ
  suppress : Bool
  config : ConfigCheckData

section
variable {F σ : Type} (prog : Program F σ)

/-- The parser for a kind of file. -/
def Program.parser (flavor : NodeFlavor) (filename : Str) (m : Maps) : List Tree × Maps :=
  if flavor = .fcFile then prog.parseFc filename m else prog.parse filename flavor m

/-- One iteration of the loops of `parse_all_files_in_list`: parse the file of node `a` and
store its AST. -/
def parseCell (flavor : NodeFlavor) (a : Nat) (c : FileCell) (s : RunnerState F σ) :
    RunnerState F σ :=
  let r := prog.parser flavor c.filename s.maps
  { s with
    heap := s.heap.set a { c with ast := r.1 }
    maps := r.2
    log := s.log ++ [.parse a c.filename flavor r.1] }

/-- runner.c:306-322 `parse_all_files_in_list` and runner.c:324-340
`parse_all_fc_files_in_list` (flavor `fcFile`). The first argument bounds the number of
iterations; `none` means that the bound was reached or a dangling pointer was followed. -/
def parseAll (flavor : NodeFlavor) : Nat → Option Nat → RunnerState F σ →
    Option (SelintError × RunnerState F σ)
  | _, none, s => some (.success, s)
  | 0, some _, _ => none
  | fuel + 1, some a, s =>
    match s.heap[a]? with
    | none => none
    | some c =>
      if (prog.parser flavor c.filename s.maps).1.isEmpty then
        some (.parseError, parseCell prog flavor a c s)
      else parseAll flavor fuel c.next (parseCell prog flavor a c s)

/-- The ASTs of the files from a node on (what `mark_transform_interfaces` walks over). -/
def astsFrom (h : FileHeap) : Nat → Option Nat → Option (List (List Tree))
  | _, none => some []
  | 0, some _ => none
  | fuel + 1, some a =>
    match h[a]? with
    | none => none
    | some c => (astsFrom h fuel c.next).map (c.ast :: ·)

/-- POSIX `basename` of a path that does not end in a slash. -/
def basename (s : Str) : Str := (s.reverse.takeWhile (· ≠ '/')).reverse

/-- runner.c:386-388: cut the name at its last dot. -/
def cutLastDot (s : Str) : Str :=
  match s.reverse.dropWhile (· ≠ '.') with
  | [] => s
  | _ :: r => r.reverse

/-- runner.c:373-384: the `struct check_data` for a file. -/
def checkDataFor (flavor : FileFlavor) (filename : Str) : CheckData :=
  { modName := cutLastDot (basename filename), filename := basename filename,
    flavor := flavor, config := prog.config }

/-- One iteration of `run_all_checks`. -/
def checkCell (flavor : FileFlavor) (a : Nat) (c : FileCell) (s : RunnerState F σ) : RunnerState F σ :=
  let data := checkDataFor prog flavor c.filename
  let r := runChecksOnOneFile (prog.exec s.maps) prog.suppress s.ck data (Loc.ofForest c.ast) s.rs
  { s with ck := r.1, rs := r.2, log := s.log ++ [.check a c.filename data c.ast s.maps] }

/-- runner.c:365-403 `run_all_checks` (`run_checks_on_one_file` always succeeds). -/
def runAllChecks (flavor : FileFlavor) : Nat → Option Nat → RunnerState F σ →
    Option (SelintError × RunnerState F σ)
  | _, none, s => some (.success, s)
  | 0, some _, _ => none
  | fuel + 1, some a, s =>
    match s.heap[a]? with
    | none => none
    | some c => runAllChecks flavor fuel c.next (checkCell prog flavor a c s)

/-- Continue only after success (`if (res != SELINT_SUCCESS) goto out;`). -/
def andThen (r : Option (SelintError × RunnerState F σ))
    (f : RunnerState F σ → Option (SelintError × RunnerState F σ)) :
    Option (SelintError × RunnerState F σ) :=
  match r with
  | none => none
  | some (.success, s) => f s
  | some r => some r

/-- runner.c:430-447: splice the context interface files onto the interface files, mark, and
restore. -/
def markSpliced (ifs cifs : FileList) (s : RunnerState F σ) :
    Option (SelintError × RunnerState F σ) :=
  let head := match ifs.tail with
    | some _ => ifs.head
    | none => cifs.head
  let h1 := match ifs.tail with
    | some t => s.heap.setNext t cifs.head
    | none => s.heap
  match astsFrom h1 (s.heap.length + 1) head with
  | none => none
  | some asts =>
    match markTransformInterfaces (asts.map Loc.ofForest) s.maps with
    | none => none
    | some m =>
      let h2 := match ifs.tail with
        | some t => h1.setNext t none
        | none => h1
      some (.success, { s with heap := h2, maps := m, log := s.log ++ [.mark asts] })

/-- parse_functions.c:814-824 `cleanup_parsing`: all tables are emptied. -/
def cleanupParsing (s : RunnerState F σ) : RunnerState F σ :=
  { s with maps := {}, log := s.log ++ [.cleanup] }

/-- The five file lists of a run. -/
structure Lists where
  te : FileList
  ifs : FileList
  fc : FileList
  cte : FileList
  cif : FileList

/-- runner.c:405-485 `run_analysis`. -/
def runAnalysis (ls : Lists) (s : RunnerState F σ) : Option (SelintError × RunnerState F σ) :=
  let n := s.heap.length + 1
  (andThen (parseAll prog .ifFile n ls.ifs.head s) fun s =>
   andThen (parseAll prog .ifFile n ls.cif.head s) fun s =>
   andThen (markSpliced ls.ifs ls.cif s) fun s =>
   andThen (parseAll prog .teFile n ls.cte.head s) fun s =>
   andThen (parseAll prog .teFile n ls.te.head s) fun s =>
   andThen (parseAll prog .fcFile n ls.fc.head s) fun s =>
   andThen (runAllChecks prog .teFile n ls.te.head s) fun s =>
   andThen (runAllChecks prog .ifFile n ls.ifs.head s) fun s =>
   runAllChecks prog .fcFile n ls.fc.head s).map fun r => (r.1, cleanupParsing r.2)

end

/-! ## Building the lists -/

/-- Which list a file is pushed on. -/
inductive Which where
  | te | ifs | fc | cte | cif
  deriving DecidableEq

/-- Select a list. -/
def Lists.get (ls : Lists) : Which → FileList
  | .te => ls.te | .ifs => ls.ifs | .fc => ls.fc | .cte => ls.cte | .cif => ls.cif

/-- Replace a list. -/
def Lists.set (ls : Lists) (w : Which) (l : FileList) : Lists :=
  match w with
  | .te => { ls with te := l } | .ifs => { ls with ifs := l } | .fc => { ls with fc := l }
  | .cte => { ls with cte := l } | .cif => { ls with cif := l }

/-- A sequence of `file_list_push_back` calls on initially empty lists (main.c:374-387), the last
call first. -/
def pushAll : List (Which × Str) → FileHeap × Lists
  | [] => ([], ⟨⟨none, none⟩, ⟨none, none⟩, ⟨none, none⟩, ⟨none, none⟩, ⟨none, none⟩⟩)
  | op :: ops =>
    let r := pushAll ops
    let q := fileListPushBack r.1 (r.2.get op.1) op.2
    (q.1, r.2.set op.1 q.2)

end Selint
