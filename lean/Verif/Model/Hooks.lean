import Verif.Model.Maps
/-! # Check hooks (check_hooks.h, check_hooks.c) -/

namespace Selint

/-- selint_config.h:27-31 `enum order_conf`. -/
inductive OrderConf where
  | ref | light | lax
  deriving DecidableEq, Repr

/-- selint_config.h:33-39 `struct config_check_data`. -/
structure ConfigCheckData where
  orderConf : OrderConf
  orderRequires : List DeclFlavor
  orderingRequiresSameFlavor : Bool
  skipCheckingGeneratedFcs : Bool
  customTeSimpleMacros : List Str
  deriving DecidableEq, Repr

/-- check_hooks.h:80-84 `enum file_flavor`. -/
inductive FileFlavor where
  | teFile | ifFile | fcFile
  deriving DecidableEq, Repr

/-- check_hooks.h:86-91 `struct check_data`. -/
structure CheckData where
  modName : Str
  filename : Str
  flavor : FileFlavor
  config : ConfigCheckData
  deriving DecidableEq, Repr

/-- check_hooks.h:95-100 `struct check_result` without `lineno`, which the caller fills in. -/
structure CheckResult where
  severity : Char
  checkId : Nat
  message : Str
  deriving DecidableEq, Repr

/-- check_hooks.c:115-118 `alloc_internal_error` (`F_ID_INTERNAL` is 2). -/
def internalError (s : Str) : CheckResult := ⟨'F', 2, s⟩

/-- check_hooks.h:102-107 `struct check_node` without `next`; `F` names check functions. -/
structure CheckNode (F : Type) where
  fn : F
  id : Str
  issuesFound : Nat
  deriving DecidableEq, Repr

/-- check_hooks.h:109-111 `struct checks`: for every node flavor a linked list of hooks. -/
abbrev Checks (F : Type) := NodeFlavor → List (CheckNode F)

/-- `memset(ck, 0, …)`: no hooks (runner.c:101-103). -/
def Checks.empty {F : Type} : Checks F := fun _ => []

/-- check_hooks.c:41-56 `add_check`: append a hook to the list of one flavor. -/
def addCheck {F : Type} (fl : NodeFlavor) (ck : Checks F) (id : Str) (fn : F) : Checks F :=
  fun g => if g = fl then ck g ++ [⟨fn, id, 0⟩] else ck g

/-- One line printed by `display_check_result` (check_hooks.c:92-113): file name, line
number and result. The exact layout (padding, colour codes) is in
`formatFinding` (`Model/Display.lean`). -/
structure Finding where
  filename : Str
  lineno : Nat
  result : CheckResult
  deriving DecidableEq, Repr

/-- The mutable state while checks run: `found_issue`, the static variables of the check
functions (`σ`), and the findings printed so far. -/
structure RunState (σ : Type) where
  foundIssue : Bool
  st : σ
  out : List Finding

/-- What a check function may do: read its arguments and the global tables (already
supplied), read and write its static state, return a result or NULL. -/
abbrev Exec (F σ : Type) := F → CheckData → Loc → σ → σ × Option CheckResult

/-- check_hooks.c:73: `node->exceptions && strstr(node->exceptions, cur->check_id)`. -/
def skipHook (id : Str) (node : Loc) : Bool :=
  match node.info.exceptions with
  | some e => strstr id e
  | none => false

/-- check_hooks.c:65-90 `call_checks_for_node_type`, parameterised by `suppress_output`. -/
def callChecksForNodeType {F σ : Type} (exec : Exec F σ) (suppress : Bool) (data : CheckData)
    (node : Loc) : List (CheckNode F) → RunState σ → List (CheckNode F) × RunState σ
  | [], s => ([], s)
  | cur :: rest, s =>
    if skipHook cur.id node then
      let (rest', s') := callChecksForNodeType exec suppress data node rest s
      (cur :: rest', s')
    else
      match exec cur.fn data node s.st with
      | (st', none) =>
        let (rest', s') := callChecksForNodeType exec suppress data node rest { s with st := st' }
        (cur :: rest', s')
      | (st', some res) =>
        let s1 : RunState σ :=
          { foundIssue := true, st := st',
            out := if suppress then s.out
                   else s.out ++ [⟨data.filename, node.info.lineno, res⟩] }
        let (rest', s') := callChecksForNodeType exec suppress data node rest s1
        ({ cur with issuesFound := cur.issuesFound + 1 } :: rest', s')

/-- check_hooks.c:58-63 `call_checks`. -/
def callChecks {F σ : Type} (exec : Exec F σ) (suppress : Bool) (ck : Checks F)
    (data : CheckData) (node : Loc) (s : RunState σ) : Checks F × RunState σ :=
  let (l, s') := callChecksForNodeType exec suppress data node (ck node.flavor) s
  (fun g => if g = node.flavor then l else ck g, s')

/-- check_hooks.c:120-132 `is_valid_severity`. -/
def isValidSeverity (c : Char) : Bool :=
  c == 'C' || c == 'S' || c == 'W' || c == 'E' || c == 'F'

/-- Value of a decimal digit, if it is one. -/
def digitVal (c : Char) : Option Nat :=
  if '0'.toNat ≤ c.toNat ∧ c.toNat ≤ '9'.toNat then some (c.toNat - '0'.toNat) else none

/-- The digits loop of `atoi`. -/
def atoiDigits (acc : Nat) : Str → Nat
  | [] => acc
  | c :: cs =>
    match digitVal c with
    | some d => atoiDigits (acc * 10 + d) cs
    | none => acc

/-- libc `atoi`: leading white space, optional sign, digits. Simplification: no overflow
(undefined in C). -/
def atoi (s : Str) : Int :=
  match s.dropWhile isSpaceC with
  | '-' :: t => - (atoiDigits 0 t : Int)
  | '+' :: t => atoiDigits 0 t
  | t => atoiDigits 0 t

/-- check_hooks.h:24-78, check_hooks.c:144-167: the largest id of a severity. -/
def maxCheckId (sev : Char) : Option Int :=
  if sev = 'C' then some 7
  else if sev = 'S' then some 10
  else if sev = 'W' then some 11
  else if sev = 'E' then some 10
  else if sev = 'F' then some 2
  else none

/-- check_hooks.c:134-174 `is_valid_check`. For the empty string `check_str[1]` is an
access past the terminator. -/
def isValidCheck (s : Option Str) : Res Bool :=
  match s with
  | none => .ok false
  | some [] => .ub
  | some [_] => .ok false
  | some (sev :: d :: rest) =>
    if d ≠ '-' then .ok false
    else match maxCheckId sev with
      | none => .ok false
      | some m => .ok (decide (0 < atoi rest) && decide (atoi rest ≤ m))

/-- check_hooks.c:192-197 `COMPARE_IDS`. -/
def compareIds (a b : Int) : Int := if a = b then 0 else if a > b then 1 else -1

/-- `node->check_id[0]` (NUL for the empty string). -/
def idSeverity (id : Str) : Char := match id with | [] => '\x00' | c :: _ => c

/-- check_hooks.c:200-240 `comp_check_nodes`, as a function of the two ids. -/
def compCheckIds (id1 id2 : Str) : Int :=
  let n1 := atoi (id1.drop 2)
  let n2 := atoi (id2.drop 2)
  let s2 := idSeverity id2
  match idSeverity id1 with
  | 'C' => if s2 = 'C' then compareIds n1 n2 else -1
  | 'S' => if s2 = 'C' then 1 else if s2 = 'S' then compareIds n1 n2 else -1
  | 'W' =>
    if s2 = 'C' ∨ s2 = 'S' then 1 else if s2 = 'W' then compareIds n1 n2 else -1
  | 'E' => if s2 = 'E' then compareIds n1 n2 else 1
  | _ => 0

/-- check_hooks.c:242-258: the flat array of hooks, by node flavor. -/
def flatNodes {F : Type} (ck : Checks F) : List (CheckNode F) :=
  NodeFlavor.all.flatMap ck

/-- check_hooks.c:262-282: the printing loop over the sorted array. State: name and count
of the run of equal ids being accumulated; result: the `(id, count)` lines printed. -/
def summaryLoop : Option Str → Nat → List (Str × Nat) → List (Str × Nat)
  | old, count, [] =>
    match old with
    | some o => if count ≠ 0 then [(o, count)] else []
    | none => []
  | old, count, (id, n) :: rest =>
    match old with
    | some o =>
      if o ≠ id then
        (if count ≠ 0 then [(o, count)] else []) ++ summaryLoop (some id) n rest
      else summaryLoop (some id) (count + n) rest
    | none => summaryLoop (some id) (count + n) rest

/-- check_hooks.c:242-293 `display_check_issue_counts`, given the array as permuted by
`qsort`. The result is the printed lines; an empty result means `(none)` is printed. -/
def displayIssueCounts {F : Type} (sorted : List (CheckNode F)) : List (Str × Nat) :=
  summaryLoop none 0 (sorted.map fun n => (n.id, n.issuesFound))

end Selint
