import Verif.Model.Hooks
import Verif.Model.Memory
import Verif.Model.Ordering
import Verif.Model.PermMacro
/-!
# The lists of checks, of permission macros and of sections in memory

check_hooks.c, perm_macro.c and ordering.c once more, with every element of their linked lists
and every string as an allocated object. The tree and the tables that are only read are the
values of the other models. A loop that takes more steps than addresses were handed out is
`ub`.
-/

namespace Selint

/-! ## Checks (check_hooks.c) -/

/-- check_hooks.h:109-111 `struct checks`: the array of the heads of the lists. -/
abbrev CheckHeads := NodeFlavor → Option Addr

namespace Mem

/-- check_hooks.c:31: `while (loc->next) loc = loc->next`. -/
def lastCheck : Nat → Mem → Addr → Res Addr
  | 0, _, _ => .ub
  | fuel + 1, m, p => do
    let c ← m.get Obj.check? p
    match c.next with
    | none => .ok p
    | some n => lastCheck fuel m n

/-- check_hooks.c:29-39 `ALLOC_NODE`: the new element and the head of the list. -/
def allocCheck (m : Mem) (head : Option Addr) : Res (Addr × Option Addr × Mem) :=
  match head with
  | some h => do
    let loc ← lastCheck m.top m h
    let c ← m.get Obj.check? loc
    let (p, m) := m.malloc .raw
    let m ← m.write loc (.check { c with next := some p })
    .ok (p, some h, m)
  | none =>
    let (p, m) := m.malloc .raw
    .ok (p, some p, m)

/-- check_hooks.c:41-56 `add_check`; `fn` stands for the pointer to the check function. -/
def addCheck (m : Mem) (ck : CheckHeads) (fl : NodeFlavor) (id : Str) (fn : Nat) :
    Res (CheckHeads × Mem) := do
  let (loc, head, m) ← m.allocCheck (ck fl)
  let (a, m) := m.malloc (.bytes id)
  let m ← m.write loc (.check ⟨fn, some a, 0, none⟩)
  .ok (fun g => if g = fl then head else ck g, m)

/-- runner.c:101-304, the calls of `register_checks`: `add_check` any number of times for a
`struct checks` of zeros. -/
def addChecks : List (NodeFlavor × Str × Nat) → CheckHeads → Mem → Res (CheckHeads × Mem)
  | [], ck, m => .ok (ck, m)
  | (fl, id, fn) :: rest, ck, m => do
    let (ck, m) ← m.addCheck ck fl id fn
    addChecks rest ck m

/-- check_hooks.c:303-325 `make_check_result`, with the formatted message. -/
def makeCheckResult (m : Mem) (r : CheckResult) : Addr × Mem :=
  let (a, m) := m.malloc (.bytes r.message)
  m.malloc (.result ⟨r.severity, r.checkId, 0, some a⟩)

/-- check_hooks.c:295-301 `free_check_result`. -/
def freeCheckResult (m : Mem) : Option Addr → Res Mem
  | none => m.free none
  | some p => do
    let r ← m.get Obj.result? p
    let m ← m.free r.message
    m.free (some p)

/-- check_hooks.c:92-113 `display_check_result`: what is read from the result. -/
def readResult (m : Mem) (data : CheckData) (p : Addr) : Res Finding := do
  let r ← m.get Obj.result? p
  let s ← m.getAt Obj.str? r.message
  .ok ⟨data.filename, r.lineno, ⟨r.severity, r.checkId, s⟩⟩

/-- check_hooks.c:65-90 `call_checks_for_node_type`. -/
def callCheckList {σ : Type} (exec : Exec Nat σ) (suppress : Bool) (data : CheckData)
    (node : Loc) : Nat → Mem → Option Addr → RunState σ → Res (Mem × RunState σ)
  | _, m, none, s => .ok (m, s)
  | 0, _, some _, _ => .ub
  | fuel + 1, m, some cur, s => do
    let c ← m.get Obj.check? cur
    let id ← m.getAt Obj.str? c.checkId
    if skipHook id node then callCheckList exec suppress data node fuel m c.next s
    else
      match exec c.fn data node s.st with
      | (st', none) =>
        callCheckList exec suppress data node fuel m c.next { s with st := st' }
      | (st', some res) => do
        let (r, m) := m.makeCheckResult res
        let m ← m.write cur (.check { c with issuesFound := c.issuesFound + 1 })
        let o ← m.get Obj.result? r
        let m ← m.write r (.result { o with lineno := node.info.lineno })
        let f ← m.readResult data r
        let m ← m.freeCheckResult (some r)
        callCheckList exec suppress data node fuel m c.next
          { foundIssue := true, st := st', out := if suppress then s.out else s.out ++ [f] }

/-- check_hooks.c:58-63 `call_checks`. -/
def callChecks {σ : Type} (exec : Exec Nat σ) (suppress : Bool) (ck : CheckHeads)
    (data : CheckData) (node : Loc) (m : Mem) (s : RunState σ) : Res (Mem × RunState σ) :=
  callCheckList exec suppress data node m.top m (ck node.flavor) s

/-- runner.c:341-363, the calls of `call_checks` for one node after the other. -/
def callAll {σ : Type} (exec : Exec Nat σ) (suppress : Bool) (ck : CheckHeads) :
    List (CheckData × Loc) → Mem → RunState σ → Res (Mem × RunState σ)
  | [], m, s => .ok (m, s)
  | (data, node) :: rest, m, s => do
    let (m, s) ← callChecks exec suppress ck data node m s
    callAll exec suppress ck rest m s

/-- check_hooks.c:338-346 `free_check_node`. -/
def freeCheckNode : Nat → Mem → Option Addr → Res Mem
  | _, m, none => .ok m
  | 0, _, some _ => .ub
  | fuel + 1, m, some p => do
    let c ← m.get Obj.check? p
    let m ← m.free c.checkId
    let m ← m.free (some p)
    freeCheckNode fuel m c.next

/-- check_hooks.c:332-334: the loop of `free_checks` over the flavors. -/
def freeCheckLists (ck : CheckHeads) : List NodeFlavor → Mem → Res Mem
  | [], m => .ok m
  | fl :: fls, m => do
    let m ← freeCheckNode m.top m (ck fl)
    freeCheckLists ck fls m

/-- check_hooks.c:326-336 `free_checks`; `p` is the address of the array `ck`. -/
def freeChecks (m : Mem) (p : Addr) (ck : CheckHeads) : Res Mem := do
  let m ← freeCheckLists ck NodeFlavor.all m
  m.free (some p)

/-! ## Permission macros (perm_macro.c) -/

/-- perm_macro.c:367-389: the loop that finds the place. The result is the new value of
`*category`, when it is assigned. -/
def placeMacro (tmp : Addr) (name : Option Addr) (mask : Mask) :
    Nat → Mem → Option Addr → Addr → Res (Option Addr × Mem)
  | 0, _, _, _ => .ub
  | fuel + 1, m, prev, cur => do
    let c ← m.get Obj.permMacro? cur
    if popcount mask < popcount c.maskRaw then
      let m ← m.write tmp (.permMacro ⟨some cur, name, mask⟩)
      match prev with
      | none => .ok (some tmp, m)
      | some pr => do
        let b ← m.get Obj.permMacro? pr
        let m ← m.write pr (.permMacro { b with next := some tmp })
        .ok (none, m)
    else
      match c.next with
      | none => do
        let m ← m.write tmp (.permMacro ⟨none, name, mask⟩)
        let m ← m.write cur (.permMacro { c with next := some tmp })
        .ok (none, m)
      | some n => placeMacro tmp name mask fuel m (some cur) n

/-- perm_macro.c:355-390: the new element put into one list. -/
def insertMacro (m : Mem) (category : Option Addr) (name : Str) (mask : Mask) :
    Res (Option Addr × Mem) :=
  let (tmp, m) := m.malloc .raw
  let (a, m) := m.malloc (.bytes name)
  match category with
  | none => do
    let m ← m.write tmp (.permMacro ⟨none, some a, mask⟩)
    .ok (some tmp, m)
  | some cur => do
    let (h, m) ← placeMacro tmp (some a) mask m.top m none cur
    .ok (h.or (some cur), m)

/-- perm_macro.c:322-390 `load_permission_macro`. -/
def loadPermissionMacro (maps : Maps) (m : Mem) (heads : Category → Option Addr) (name : Str)
    (permissions : List Str) : Res ((Category → Option Addr) × Mem) := do
  let r ← computePermMask maps permissions ⟨0, 0⟩
  if r.raw &&& Pm.uncovered ≠ 0 then .ok (heads, m)
  else
    match macroCategory name with
    | none => .ok (heads, m)
    | some c => do
      let (h, m) ← m.insertMacro (heads c) name r.raw
      .ok (fun c' => if c' = c then h else heads c', m)

/-- maps.c:519-526 `visit_all_in_permmacros_map(load_permission_macro)`. -/
def loadAllMacros (maps : Maps) : List (Str × List Str) → Mem → (Category → Option Addr) →
    Res ((Category → Option Addr) × Mem)
  | [], m, heads => .ok (heads, m)
  | (name, perms) :: rest, m, heads => do
    let (heads, m) ← loadPermissionMacro maps m heads name perms
    loadAllMacros maps rest m heads

/-- perm_macro.c:507-517 `free_perm_macro`. -/
def freePermMacro : Nat → Mem → Option Addr → Res Mem
  | _, m, none => .ok m
  | 0, _, some _ => .ub
  | fuel + 1, m, some p => do
    let c ← m.get Obj.permMacro? p
    let m ← m.free c.name
    let m ← m.free (some p)
    freePermMacro fuel m c.next

/-- perm_macro.c:519-538 `free_permmacros`: memory and the new heads. -/
def freePermmacros (m : Mem) (heads : Category → Option Addr) :
    Res (Mem × (Category → Option Addr)) := do
  let m ← freePermMacro m.top m (heads .dir)
  let m ← freePermMacro m.top m (heads .file)
  let m ← freePermMacro m.top m (heads .lnkFile)
  let m ← freePermMacro m.top m (heads .chrFile)
  let m ← freePermMacro m.top m (heads .blkFile)
  let m ← freePermMacro m.top m (heads .sockFile)
  let m ← freePermMacro m.top m (heads .fifoFile)
  .ok (m, fun _ => none)

/-! ## Sections (ordering.c) -/

/-- ordering.c:147-154: the loop of `add_section_info`. -/
def findSection (name : Str) : Nat → Mem → Addr → Res (Addr × Mem)
  | 0, _, _ => .ub
  | fuel + 1, m, cur => do
    let c ← m.get Obj.sect? cur
    let s ← m.getAt Obj.str? c.name
    if strcmp s name ≠ 0 then
      match c.next with
      | none => do
        let (n, m) := m.malloc (.sect ⟨none, 0, 0, none⟩)
        let m ← m.write cur (.sect { c with next := some n })
        .ok (n, m)
      | some n => findSection name fuel m n
    else .ok (cur, m)

/-- ordering.c:158-164: the end of `add_section_info`. -/
def countLine (m : Mem) (cur : Addr) (name : Str) (lineno : Nat) : Res Mem := do
  let c ← m.get Obj.sect? cur
  match c.name with
  | some _ =>
    m.write cur (.sect { c with count := c.count + 1, sum := (c.sum + lineno) % 2 ^ 32 })
  | none =>
    let (a, m) := m.malloc (.bytes name)
    m.write cur (.sect ⟨some a, c.count + 1, (c.sum + lineno) % 2 ^ 32, c.next⟩)

/-- ordering.c:138-165 `add_section_info` for a list and a name that are not NULL. -/
def addSectionInfo (m : Mem) (sections : Addr) (name : Str) (lineno : Nat) : Res Mem := do
  let c ← m.get Obj.sect? sections
  let (cur, m) ← (match c.name with
    | some _ => findSection name m.top m sections
    | none => .ok (sections, m))
  m.countLine cur name lineno

/-- ordering.c:51-58: the loop of `prepare_ordering_metadata` over the lines in the order of
`ordering_next`; the result tells whether it ran to the end. -/
def collectSections (maps : Maps) : List Loc → Mem → Addr → Res (Bool × Mem)
  | [], m, _ => .ok (true, m)
  | l :: ls, m, sections => do
    match ← getSection maps l with
    | none => .ok (false, m)
    | some s => do
      let m ← m.addSectionInfo sections s l.info.lineno
      collectSections maps ls m sections

/-- ordering.c:45-69 `prepare_ordering_metadata`. -/
def prepareOrdering (maps : Maps) (m : Mem) (head : Loc) : Res (Option Addr × Mem) := do
  let (sections, m) := m.malloc (.sect ⟨none, 0, 0, none⟩)
  match ← collectSections maps (orderingNodes head) m sections with
  | (false, m) => do
    let m ← m.free (some sections)
    .ok (none, m)
  | (true, m) =>
    let (r, m) := m.malloc (.ordering (some sections))
    .ok (some r, m)

/-- ordering.c:961-970 `free_section_data`. -/
def freeSectionData : Nat → Mem → Option Addr → Res Mem
  | _, m, none => .ok m
  | 0, _, some _ => .ub
  | fuel + 1, m, some p => do
    let c ← m.get Obj.sect? p
    let m ← m.free c.name
    let m ← freeSectionData fuel m c.next
    m.free (some p)

/-- ordering.c:951-959 `free_ordering_metadata`. -/
def freeOrderingMetadata (m : Mem) : Option Addr → Res Mem
  | none => .ok m
  | some p => do
    let s ← m.get Obj.ordering? p
    let m ← freeSectionData m.top m s
    m.free (some p)

end Mem

end Selint
