import Verif.Model.Run
/-!
# Line ordering (ordering.c) and C-001 (te_checks.c:28-93)

Undefined behaviour of the C code (out of range array access, NULL dereference) is the
outcome `Res.ub`. Recursion and loops take fuel; the entry points supply enough and
`Props/Ordering.lean` shows that it never runs out. Simplification: `int` and `unsigned
int` indices do not wrap around.
-/

namespace Selint

/-! ordering.h:24-37 `enum order_difference_reason`: values are negated, so it is an `Int`. -/

/-- ORDER_EQUAL -/
def orderEqual : Int := 0
/-- ORDER_SECTION -/
def orderSection : Int := 1
/-- ORDER_DECLARATION_SUBSECTION -/
def orderDeclSubsection : Int := 2
/-- ORDER_LOCAL_SUBSECTION -/
def orderLocalSubsection : Int := 3
/-- ORDER_ALPHABETICAL -/
def orderAlphabetical : Int := 4
/-- ORDERING_ERROR -/
def orderingError : Int := -1024

/-- ordering.h:39-52 `enum local_subsection`. -/
inductive Lss where
  | self | own | related | kernelMod | kernel | system | other
  | buildOption | boolean | tunable | optional | unknown
  deriving DecidableEq, Repr

/-- ordering.c:27 `SECTION_NON_ORDERED`. -/
def secNonOrdered : Str := cs!"_non_ordered"
/-- ordering.c:28 `SECTION_DECLARATION`. -/
def secDeclaration : Str := cs!"_declaration"

/-! ## Where a node stands (ordering.c:447-518) -/

/-- The node and its ancestors, innermost first. -/
def Loc.chain (l : Loc) : List NodeFlavor := l.flavor :: l.ups.map (·.info.flavor)

/-- ordering.c:447-463 `is_optional`: the loop `while (node)` with variable `ret`. -/
def isOptionalLoop (ret : Bool) : List NodeFlavor → Bool
  | [] => ret
  | f :: fs =>
    isOptionalLoop
      (if f = .optionalPolicy ∨ f = .optionalElse then true
       else if f = .booleanPolicy ∨ f = .tunablePolicy ∨ f = .ifdef ∨ f = .ifelse then false
       else ret) fs

/-- ordering.c:447-463 `is_optional`. -/
def isOptional (l : Loc) : Bool := isOptionalLoop false l.chain

/-- ordering.c:465-481 `is_boolean`, the loop. -/
def isBooleanLoop (ret : Bool) : List NodeFlavor → Bool
  | [] => ret
  | f :: fs =>
    isBooleanLoop
      (if f = .booleanPolicy then true
       else if f = .tunablePolicy ∨ f = .optionalPolicy ∨ f = .optionalElse ∨ f = .ifdef ∨
         f = .ifelse then false
       else ret) fs

/-- ordering.c:465-481 `is_boolean`. -/
def isBoolean (l : Loc) : Bool := isBooleanLoop false l.chain

/-- ordering.c:483-499 `is_tunable`, the loop. -/
def isTunableLoop (ret : Bool) : List NodeFlavor → Bool
  | [] => ret
  | f :: fs =>
    isTunableLoop
      (if f = .tunablePolicy then true
       else if f = .booleanPolicy ∨ f = .optionalPolicy ∨ f = .optionalElse ∨ f = .ifdef ∨
         f = .ifelse then false
       else ret) fs

/-- ordering.c:483-499 `is_tunable`. -/
def isTunable (l : Loc) : Bool := isTunableLoop false l.chain

/-- ordering.c:501-518 `is_in_ifdef`, the loop. -/
def isInIfdefLoop (ret : Bool) : List NodeFlavor → Bool
  | [] => ret
  | f :: fs =>
    isInIfdefLoop
      (if f = .ifdef ∨ f = .ifelse then true
       else if f = .optionalPolicy ∨ f = .optionalElse ∨ f = .booleanPolicy ∨
         f = .tunablePolicy then false
       else ret) fs

/-- ordering.c:501-518 `is_in_ifdef`. -/
def isInIfdef (l : Loc) : Bool := isInIfdefLoop false l.chain

/-! ## Sections (ordering.c:138-306) -/

/-- `list->string` of a `struct string_list *`; NULL is dereferenced for the empty list. -/
def headStr : List Str → Res (Option Str)
  | [] => .ub
  | s :: _ => .ok (some s)

mutual
/-- Number of nodes of a tree. -/
def Tree.size : Tree → Nat
  | .mk _ cs => Tree.sizeList cs + 1
/-- Number of nodes of a list of trees. -/
def Tree.sizeList : List Tree → Nat
  | [] => 0
  | t :: ts => t.size + Tree.sizeList ts
end

/-- Fuel for `get_section`: the nodes at and below this node and its later siblings. -/
def Loc.fuel (l : Loc) : Nat := l.focus.size + Tree.sizeList l.rights

/-- ordering.c:167-287 `get_section`. `none` is the NULL result. For `NODE_TT_RULE` the
code reads `node->data.av_data->sources` although the union holds a `struct
type_transition_data`; in both common ABIs the member at that offset is `targets`. -/
def getSectionF (m : Maps) : Nat → Loc → Res (Option Str)
  | 0, _ => .ub
  | fuel + 1, l =>
    match l.data with
    | .header _ => .ok (some secNonOrdered)
    | .av d | .xav d _ =>
      if d.flavor = .neverallow then .ok (some secNonOrdered)
      else if d.flavor = .auditallow then .ok (some secNonOrdered)
      else if strInSl cs!"associate" d.perms || strInSl cs!"mounton" d.perms then
        .ok (some secNonOrdered)
      else headStr d.sources
    | .tt d => headStr d.targets
    | .rt _ => .ok (some secNonOrdered)
    | .roleAllow _ => .ok (some secNonOrdered)
    | .roleTypes _ => .ok (some secNonOrdered)
    | .decl _ | .plain .alias _ | .plain .typeAlias _ | .attr _ =>
      .ok (some (if l.isInRequire then secNonOrdered else secDeclaration))
    | .plain .m4Call _ | .plain .m4SimpleMacro _ | .plain .define _ => .ok (some secNonOrdered)
    | .plain .optionalPolicy _ | .plain .optionalElse _ | .plain .booleanPolicy _
    | .plain .tunablePolicy _ | .plain .ifdef _ | .plain .ifelse _ =>
      match l.firstChild? with
      | some c => getSectionF m fuel c
      | none => .ok none
    | .plain .m4Arg _ => .ok (some secNonOrdered)
    | .plain .startBlock _ =>
      match l.next? with
      | some n => getSectionF m fuel n
      | none => .ok (some secNonOrdered)
    | .ifCall d =>
      if m.isFiletrans d.name then .ok (some secNonOrdered)
      else if !isOptional l && !isInIfdef l && !isBoolean l && !isTunable l &&
          ((m.lookUpTemplate d.name).isSome || m.isTransform d.name || m.isRole d.name) then
        .ok (some secDeclaration)
      else match d.argStrs with
        | a :: _ => .ok (some a)
        | [] => .ok (some secNonOrdered)
    | .plain .require _ | .genReq _ => .ok (some secNonOrdered)
    | .plain .permissive _ => .ok (some secNonOrdered)
    | .plain .comment _ | .plain .empty _ | .plain .semicolon _ | .plain .error _ =>
      .ok (some secNonOrdered)
    | _ => .ok none

/-- ordering.c:167-287 `get_section`. -/
def getSection (m : Maps) (l : Loc) : Res (Option Str) := getSectionF m l.fuel l

/-- ordering.h:54-66 `struct section_data`, without `avg_line` and `next`. The list starts
with the element allocated by `prepare_ordering_metadata`; `[]` is that element while its
name is still NULL. -/
structure SectionData where
  name : Str
  count : Nat
  sum : Nat
  deriving DecidableEq, Repr

/-- ordering.c:138-165 `add_section_info` for a non-NULL name. `lines_sum` is unsigned. -/
def addSectionInfo (name : Str) (lineno : Nat) : List SectionData → List SectionData
  | [] => [⟨name, 1, lineno⟩]
  | s :: ss =>
    if strcmp s.name name = 0 then
      { s with count := s.count + 1, sum := (s.sum + lineno) % 2 ^ 32 } :: ss
    else s :: addSectionInfo name lineno ss

/-- Round the positive rational `p / q` to a 24 bit significand, ties to even: the value of
an IEEE single precision operation with exact result `p / q` (no overflow or subnormals
occur: the operands are below 2^32). -/
def f32 (p q : Nat) : Rat :=
  if p = 0 then 0
  else
    let l : Int := (p.log2 : Int) - (q.log2 : Int)
    -- the exponent e with 2^e ≤ p/q < 2^(e+1)
    let below : Bool := if 0 ≤ l then decide (p < q * 2 ^ l.toNat)
      else decide (p * 2 ^ (-l).toNat < q)
    let e : Int := if below then l - 1 else l
    let sh : Int := e - 23
    -- p/q = (n/d) * 2^sh with 2^23 ≤ n/d < 2^24
    let n := if 0 ≤ sh then p else p * 2 ^ (-sh).toNat
    let d := if 0 ≤ sh then q * 2 ^ sh.toNat else q
    let lo := n / d
    let r := n % d
    let s := if 2 * r < d then lo else if d < 2 * r then lo + 1 else if lo % 2 = 0 then lo
      else lo + 1
    if 0 ≤ sh then ((s * 2 ^ sh.toNat : Nat) : Rat) else (s : Rat) / ((2 ^ (-sh).toNat : Nat) : Rat)

/-- ordering.c:289-295 `calculate_average_lines`:
`(float)lines_sum / (float)lineno_count`. -/
def SectionData.avg (s : SectionData) : Rat :=
  let a := f32 s.sum 1
  let b := f32 s.count 1
  f32 (a.num.toNat * b.den) (a.den * b.num.toNat)

/-- ordering.c:297-306 `get_avg_line_by_name`; NULL name (no section at all) is UB. -/
def getAvgLineByName (name : Str) : List SectionData → Res Rat
  | [] => .ub
  | s :: ss =>
    if strcmp s.name name = 0 then .ok s.avg
    else match ss with
      | [] => .ok (-1)
      | _ => getAvgLineByName name ss

/-! ## Subsections (ordering.c:308-445, 520-555) -/

/-- ordering.c:308-314 `is_self_rule`. -/
def isSelfRule (l : Loc) : Bool :=
  match l.data with
  | .av d | .xav d _ =>
    match d.targets with
    | t :: _ => decide (strcmp t cs!"self" = 0)
    | [] => false
  | _ => false

/-- ordering.c:334-343: the loop over the names in the node. -/
def ownNames (m : Maps) (mod : Str) : List Str → Bool
  | [] => true
  | n :: ns =>
    let owner := match m.lookUpDecl n .type with
      | some o => some o
      | none => m.lookUpDecl n .attribute
    match owner with
    | some o => if strcmp o mod ≠ 0 then false else ownNames m mod ns
    | none => ownNames m mod ns

/-- ordering.c:316-351 `is_own_module_rule`. -/
def isOwnModuleRule (m : Maps) (mod : Str) (l : Loc) : Bool :=
  match l.data with
  | .av _ | .xav _ _ => ownNames m mod (getNamesInNode l.info)
  | .ifCall d =>
    if (m.lookUpIf d.name).isSome then false else ownNames m mod (getNamesInNode l.info)
  | _ => false

/-- The module of the called interface, for a call of a known interface
(ordering.c:355-361 and the like). -/
def calledModule (m : Maps) (l : Loc) : Option Str :=
  match l.data with
  | .ifCall d => m.lookUpIf d.name
  | _ => none

/-- ordering.c:353-366 `is_kernel_mod_if_call`. -/
def isKernelModIfCall (m : Maps) (l : Loc) : Bool :=
  match calledModule m l with
  | some mod => decide (strcmp cs!"kernel" mod = 0)
  | none => false

/-- ordering.c:368-383 `is_own_mod_if_call` (the current module name is never NULL). -/
def isOwnModIfCall (m : Maps) (cur : Str) (l : Loc) : Bool :=
  match calledModule m l with
  | some mod => if strcmp cur mod ≠ 0 then false else true
  | none => false

/-- ordering.c:391-397: the length of the part of a module name before the first `_`. -/
def modPrefixLen (mod : Str) : Nat :=
  match strchr '_' mod with
  | some rest => mod.length - rest.length
  | none => mod.length

/-- libc `strncmp(a, b, n) == 0`: equal up to `n` characters or a common end. -/
def strncmpEq (a b : Str) (n : Nat) : Bool := a.take n == b.take n

/-- ordering.c:385-418 `is_related_mod_if_call`. -/
def isRelatedModIfCall (m : Maps) (cur : Str) (l : Loc) : Bool :=
  match calledModule m l with
  | some mod => modPrefixLen cur == modPrefixLen mod && strncmpEq cur mod (modPrefixLen cur)
  | none => false

/-- ordering.c:420-435 `check_call_layer`. -/
def checkCallLayer (m : Maps) (layer : Str) (l : Loc) : Bool :=
  match calledModule m l with
  | some mod =>
    match m.lookUpModLayer mod with
    | some name => decide (strcmp name layer = 0)
    | none => false
  | none => false

/-- ordering.c:520-555 `get_local_subsection` for a non-NULL node. -/
def getLocalSubsection (m : Maps) (mod : Str) (v : OrderConf) (l : Loc) : Lss :=
  if isInIfdef l then .buildOption
  else if isOptional l then .optional
  else if isBoolean l then .boolean
  else if isTunable l then .tunable
  else if isSelfRule l then .self
  else if isOwnModuleRule m mod l then .own
  else if isOwnModIfCall m mod l then .own
  else if v ≠ .ref ∧ isRelatedModIfCall m mod l then .related
  else if isKernelModIfCall m l then .kernelMod
  else if v ≠ .light ∧ checkCallLayer m cs!"kernel" l then .kernel
  else if v ≠ .light ∧ checkCallLayer m cs!"system" l then .system
  else if l.flavor = .ifCall then .other
  else .unknown

/-! ## Comparing two lines (ordering.c:563-730) -/

/-- ordering.c:569-578: the length of a section name without a final `_t` or `_r`. -/
def sectionStemLen (s : Str) : Nat :=
  match s.reverse with
  | c :: '_' :: _ :: _ => if c = 't' ∨ c = 'r' then s.length - 2 else s.length
  | _ => s.length

/-- ordering.c:563-581 `is_same_section`. -/
def isSameSection (a b : Str) : Bool :=
  strncmpEq a b (if sectionStemLen a > sectionStemLen b then sectionStemLen a else sectionStemLen b)

/-- `s[0]`, NUL for the empty string. -/
def char0 (s : Str) : Char := s.headD '\x00'

/-- ordering.c:583-589 `CHECK_ORDERING`, applied for each value of a list in turn: `some`
is a `return`. -/
def checkOrdering {α : Type} [DecidableEq α] (a b : α) (ret : Int) :
    List α → Option Int
  | [] => none
  | c :: cs => if a = c then some ret else if b = c then some (-ret) else checkOrdering a b ret cs

/-- ordering.c:645-665: the subsections of each variant in their order. -/
def lssOrder : OrderConf → List Lss
  | .ref => [.self, .own, .kernelMod, .kernel, .system, .other, .buildOption, .boolean,
      .tunable, .optional]
  | .light => [.self, .own, .related, .kernelMod, .other, .buildOption, .boolean,
      .tunable, .optional]
  | .lax => [.self, .own]

/-- `node->prev->flavor == NODE_START_BLOCK`, dereferencing `prev`. -/
def prevIsStartBlock (l : Loc) : Res Bool :=
  match l.prev? with
  | some p => .ok (decide (p.flavor = .startBlock))
  | none => .ub

/-- ordering.c:670-676: whether the two lines are compared by the module of the called
interface, evaluated left to right as `&&`/`||` do. -/
def alphabeticalGuard (l1 l2 : Lss) (a b : Loc) : Res Bool :=
  if l1 = .buildOption ∨ l1 = .boolean ∨ l1 = .tunable then .ok false
  else do
    let g ← if l1 ≠ .optional then pure true
      else if l1 = l2 then do
        if ← prevIsStartBlock a then prevIsStartBlock b else pure false
      else pure false
    pure (g && decide (a.flavor = .ifCall) && decide (b.flavor = .ifCall))

/-- ordering.c:677-688: comparison of the modules of two called interfaces. -/
def alphabeticalReason (m : Maps) (a b : Loc) : Option Int :=
  match calledModule m a, calledModule m b with
  | some x, some y =>
    if strcmp x y < 0 then some orderAlphabetical
    else if strcmp x y > 0 then some (-orderAlphabetical)
    else none
  | _, _ => none

/-- `node->first_child->next`, if both exist. -/
def secondChild (l : Loc) : Option Loc := l.firstChild?.bind (·.next?)

/-- ordering.c:610-622: two lines of different sections. -/
def compareSections (secs : List SectionData) (s1 s2 : Str) : Res Int :=
  if strcmp s1 secDeclaration ≠ 0 then do
    let later ←
      if strcmp s2 secDeclaration = 0 then pure true
      else do
        let a1 ← getAvgLineByName s1 secs
        let a2 ← getAvgLineByName s2 secs
        pure (decide (a1 > a2))
    if later && !(decide (char0 s1 ≠ '_') && decide (char0 s2 ≠ '_') &&
        decide (strcmp s1 s2 < 0)) then
      pure (-orderSection)
    else pure orderSection
  else pure orderSection

/-- ordering.c:626-637: two lines of the declaration section. -/
def compareDeclarations (a b : Loc) : Int :=
  match a.data, b.data with
  | .decl d1, .decl d2 =>
    if d1.flavor ≠ d2.flavor then
      (checkOrdering d1.flavor d2.flavor orderDeclSubsection [.bool, .attribute]).getD orderEqual
    else orderEqual
  | _, _ => orderEqual

/-- ordering.c:640-708: two lines of the same section, not the declaration section. `rec`
is the recursive call. -/
def compareLocal (m : Maps) (mod : Str) (v : OrderConf) (rec : Loc → Loc → Res Int)
    (a b : Loc) : Res Int :=
  let l1 := getLocalSubsection m mod v a
  let l2 := getLocalSubsection m mod v b
  if l1 = .unknown ∨ l2 = .unknown then pure orderEqual
  else
    match (if l1 ≠ l2 then checkOrdering l1 l2 orderLocalSubsection (lssOrder v) else none) with
    | some r => pure r
    | none =>
      if v = .ref ∨ v = .light then do
        let g ← alphabeticalGuard l1 l2 a b
        match (if g then alphabeticalReason m a b else none) with
        | some r => pure r
        | none =>
          if l1 = .optional ∧ l2 = .optional then
            match secondChild a, secondChild b with
            | some a', some b' => rec a' b'
            | _, _ => pure orderEqual
          else pure orderEqual
      else pure orderEqual

/-- ordering.c:595-709 `compare_nodes_refpolicy_generic`; `rec` is the recursive call. -/
def compareStep (m : Maps) (secs : List SectionData) (mod : Str) (v : OrderConf)
    (rec : Loc → Loc → Res Int) (a b : Loc) : Res Int := do
  let s1 ← getSection m a
  let s2 ← getSection m b
  match s1, s2 with
  | some s1, some s2 =>
    if strcmp s1 secNonOrdered = 0 ∨ strcmp s2 secNonOrdered = 0 then pure orderEqual
    else if !isSameSection s1 s2 then compareSections secs s1 s2
    else if strcmp s1 secDeclaration = 0 then pure (compareDeclarations a b)
    else compareLocal m mod v rec a b
  | _, _ => pure orderingError

/-- ordering.c:595-709 `compare_nodes_refpolicy_generic`. -/
def compareNodesF (m : Maps) (secs : List SectionData) (mod : Str) (v : OrderConf) :
    Nat → Loc → Loc → Res Int
  | 0, _, _ => .ub
  | fuel + 1, a, b => compareStep m secs mod v (compareNodesF m secs mod v fuel) a b

/-- ordering.c:595-709 `compare_nodes_refpolicy_generic`. -/
def compareNodes (m : Maps) (secs : List SectionData) (mod : Str) (v : OrderConf) (a b : Loc) :
    Res Int := compareNodesF m secs mod v a.focus.size a b

/-! ## The longest increasing subsequence (ordering.c:35-136) -/

/-- ordering.c:40: `next->exceptions && strstr(next->exceptions, "C-001")`. -/
def c001Exempt (l : Loc) : Bool :=
  match l.info.exceptions with
  | some e => strstr cs!"C-001" e
  | none => false

/-- ordering.c:35-43 `ordering_next`. -/
def orderingNext (l : Loc) : Option Loc :=
  match _h : l.dfsNext with
  | none => none
  | some n => if c001Exempt n then orderingNext n else some n
termination_by l.remaining
decreasing_by exact Loc.remaining_dfsNext (by assumption)

theorem orderingNext_remaining {l n : Loc} (h : orderingNext l = some n) :
    n.remaining < l.remaining := by
  fun_induction orderingNext l with
  | case1 => cases h
  | case2 l n' hd _ ih => have := Loc.remaining_dfsNext hd; have := ih h; omega
  | case3 l n' hd => cases h; exact Loc.remaining_dfsNext hd

/-- The nodes visited by `for (cur = l; cur; cur = ordering_next(cur))`. -/
def orderingWalk (l : Loc) : List Loc :=
  match _h : orderingNext l with
  | none => [l]
  | some n => l :: orderingWalk n
termination_by l.remaining
decreasing_by exact orderingNext_remaining (by assumption)

/-- The nodes visited when the loop starts at `head->next` (ordering.c:47, 79). -/
def orderingNodes (head : Loc) : List Loc :=
  match head.next? with
  | none => []
  | some c => orderingWalk c

/-- ordering.h:68-77 `struct order_node`. -/
structure OrderNode (α : Type) where
  node : Option α
  seqPrev : Int
  endOfSeq : Int
  inOrder : Bool

/-- An element as `calloc` leaves it. -/
def OrderNode.zero {α : Type} : OrderNode α := ⟨none, 0, 0, false⟩

/-- `nodes[i]`. -/
def arrGet {α : Type} (a : List (OrderNode α)) (i : Int) : Res (OrderNode α) :=
  if i < 0 then .ub
  else match a[i.toNat]? with
    | some x => .ok x
    | none => .ub

/-- An assignment to members of `nodes[i]`. -/
def arrUpd {α : Type} (a : List (OrderNode α)) (i : Int) (f : OrderNode α → OrderNode α) :
    Res (List (OrderNode α)) :=
  if i < 0 then .ub
  else match a[i.toNat]? with
    | some x => .ok (a.set i.toNat (f x))
    | none => .ub

/-- `nodes[i].node`, dereferenced by the comparison. -/
def arrNode {α : Type} (a : List (OrderNode α)) (i : Int) : Res α := do
  match (← arrGet a i).node with
  | some x => pure x
  | none => .ub

/-- ordering.c:90-98: the binary search. The result is the final `low`. -/
def lisSearch {α : Type} (cmp : α → α → Res Int) (nodes : List (OrderNode α))
    (index : Int) : Nat → Int → Int → Res Int
  | 0, _, _ => .ub
  | fuel + 1, low, high =>
    if low ≤ high then do
      let mid := (low + high + 1) / 2
      let e := (← arrGet nodes (mid - 1)).endOfSeq
      let first ← arrNode nodes e
      let second ← arrNode nodes index
      if (← cmp first second) ≥ 0 then lisSearch cmp nodes index fuel (mid + 1) high
      else lisSearch cmp nodes index fuel low (mid - 1)
    else pure low

/-- ordering.c:102-106: the value for `seq_prev`. -/
def lisPrev {α : Type} (nodes : List (OrderNode α)) (low : Int) : Res Int :=
  if low ≤ 1 then pure (-1) else do pure (← arrGet nodes (low - 2)).endOfSeq

/-- ordering.c:81-115: the main loop. State: the array, `longest_seq`, `index`. -/
def lisLoop {α : Type} (cmp : α → α → Res Int) :
    List α → List (OrderNode α) → Int → Int → Res (List (OrderNode α) × Int)
  | [], nodes, longest, _ => pure (nodes, longest)
  | x :: xs, nodes, longest, index => do
    let nodes ← arrUpd nodes index fun n => { n with node := some x }
    let low ← lisSearch cmp nodes index (longest.toNat + 1) 1 longest
    let prev ← lisPrev nodes low
    let nodes ← arrUpd nodes index fun n => { n with seqPrev := prev }
    let nodes ← arrUpd nodes (low - 1) fun n => { n with endOfSeq := index }
    lisLoop cmp xs nodes (if low > longest then low else longest) (index + 1)

/-- ordering.c:119-122: the marking loop. -/
def lisMark {α : Type} : Nat → List (OrderNode α) → Int → Res (List (OrderNode α))
  | 0, _, _ => .ub
  | fuel + 1, nodes, index =>
    if index = -1 then pure nodes
    else do
      let nodes ← arrUpd nodes index fun n => { n with inOrder := true }
      let i := (← arrGet nodes index).seqPrev
      lisMark fuel nodes i

/-- ordering.c:71-136 `calculate_longest_increasing_subsequence` on the sequence `xs` of
visited nodes other than `NODE_START_BLOCK` ones, with an array of `cap` elements. -/
def calcLis {α : Type} (cmp : α → α → Res Int) (cap : Nat) (xs : List α) :
    Res (List (OrderNode α)) := do
  let (nodes, longest) ← lisLoop cmp xs (List.replicate cap .zero) 0 0
  let last ← arrGet nodes (longest - 1)
  lisMark (cap + 1) nodes last.endOfSeq

/-- ordering.h:79-84 `struct ordering_metadata`. -/
structure OrderingMetadata where
  modName : Str
  sections : List SectionData
  nodes : List (OrderNode Loc)

/-- ordering.c:51-58: the loop of `prepare_ordering_metadata`; `none` is a NULL section. -/
def prepareSections (m : Maps) : List Loc → List SectionData → Res (Option (List SectionData))
  | [], secs => pure (some secs)
  | l :: ls, secs => do
    match ← getSection m l with
    | some s => prepareSections m ls (addSectionInfo s l.info.lineno secs)
    | none => pure none

/-- ordering.c:45-69 `prepare_ordering_metadata`; `none` is NULL. -/
def prepareOrderingMetadata (m : Maps) (data : CheckData) (head : Loc) :
    Res (Option OrderingMetadata) := do
  match ← prepareSections m (orderingNodes head) [] with
  | none => pure none
  | some secs =>
    pure (some ⟨data.modName, secs, List.replicate (orderingNodes head).length .zero⟩)

/-- ordering.c:81-88: the nodes stored in the array. -/
def orderedNodes (head : Loc) : List Loc :=
  (orderingNodes head).filter fun l => decide (l.flavor ≠ .startBlock)

/-- ordering.c:732-761 `lss_to_string`. -/
def lssToString : Lss → Str
  | .self => cs!"self rule"
  | .own => cs!"own module rule"
  | .related => cs!"related module interface"
  | .kernelMod => cs!"kernel module interface"
  | .kernel => cs!"kernel layer interface"
  | .system => cs!"system layer interface"
  | .other => cs!"general interface"
  | .buildOption => cs!"build option"
  | .boolean => cs!"boolean policy block"
  | .tunable => cs!"tunable policy block"
  | .optional => cs!"optional policy block"
  | .unknown => cs!"unknown subsection"

/-- ordering.c:769-779 and 780-790: the comparison with one neighbour at index `i`, if it is
in order; `some` is a conflict. `first` and `second` are the indices compared. -/
def conflictAt (m : Maps) (v : OrderConf) (o : OrderingMetadata) (i first second : Nat) :
    Res (Option Int) := do
  let n ← arrGet o.nodes (i : Int)
  if n.inOrder then do
    let a ← arrNode o.nodes (first : Int)
    let b ← arrNode o.nodes (second : Int)
    let r ← compareNodes m o.sections o.modName v a b
    pure (if r < 0 then some r else none)
  else pure none

/-- ordering.c:769-779: the line `distance` before. -/
def conflictBefore (m : Maps) (v : OrderConf) (o : OrderingMetadata) (index distance : Nat) :
    Res (Option Int) :=
  if distance < index then conflictAt m v o (index - distance) (index - distance) index
  else .ok none

/-- ordering.c:780-790: the line `distance` after. -/
def conflictAfter (m : Maps) (v : OrderConf) (o : OrderingMetadata) (index distance : Nat) :
    Res (Option Int) :=
  if index + distance < o.nodes.length then
    conflictAt m v o (index + distance) index (index + distance)
  else .ok none

/-- ordering.c:763-795: the search for the nearest conflicting line. The result is its
index and the reason; `none` is the error return. -/
def nearestConflict (m : Maps) (v : OrderConf) (o : OrderingMetadata) (index : Nat) :
    Nat → Nat → Res (Option (Nat × Int))
  | 0, _ => .ub
  | fuel + 1, distance => do
    match ← conflictBefore m v o index distance with
    | some r => pure (some (index - distance, r))
    | none => do
      match ← conflictAfter m v o index distance with
      | some r => pure (some (index + distance, r))
      | none =>
        if distance + 1 > index ∧ index + (distance + 1) > o.nodes.length then pure none
        else nearestConflict m v o index fuel (distance + 1)

/-- ordering.c:836-885: the text for a conflict between subsections. -/
def lssReason (v : OrderConf) : Lss → Option Str
  | .self => some cs!"that is a self rule"
  | .own => some cs!"that refers to types owned by this module"
  | .related => some cs!"that calls an interface located in a related module"
  | .kernelMod => some cs!"that calls an interface located in the kernel module"
  | .kernel => some cs!"that calls an interface located in the kernel layer"
  | .system => some cs!"that calls an interface located in the system layer"
  | .other => some (if v = .ref then
      cs!"that calls an interface not located in the kernel or system layer"
      else cs!"that calls a non-optional interface")
  | .buildOption => some cs!"that is controlled by a build option"
  | .boolean => some cs!"that is in a boolean block"
  | .tunable => some cs!"that is in a tunable block"
  | .optional => some cs!"that is in an optional block"
  | .unknown => none

/-- ordering.c:887-899: the note on the layer of the line itself. -/
def lssFollowup (other this : Lss) : Option Str :=
  if other = .kernel ∨ other = .system ∨ other = .other then
    match this with
    | .kernel => some cs!"  (This interface is in the kernel layer.)"
    | .system => some cs!"  (This interface is in the system layer.)"
    | .other => some cs!"  (This interface is in a layer other than kernel or system.)"
    | .kernelMod => some cs!"  (This interface is in the kernel module.)"
    | _ => none
  else none

/-- ordering.c:797-914: reason text and optional note; `none` is the error return. -/
def reasonText (m : Maps) (v : OrderConf) (o : OrderingMetadata) (index nearest : Nat)
    (reason : Int) (this other : Loc) : Res (Option (Str × Option Str)) :=
  if -reason = orderSection then do
    match ← getSection m this, ← getSection m other with
    | some s1, some s2 =>
      let txt :=
        if strcmp secDeclaration s1 = 0 then cs!"that is not a declaration"
        else if strcmp secDeclaration s2 = 0 then
          match other.data with
          | .ifCall d => if m.isTransform d.name then cs!"that is a transform interface"
              else cs!"that is a declaration"
          | _ => cs!"that is a declaration"
        else cs!"that is in a different section"
      pure (some (txt, some (cs!"  (This node is in the section for " ++ s1 ++
        cs!" rules and the other is in the section for " ++ s2 ++ cs!" rules.)")))
    | _, _ => pure none
  else if -reason = orderDeclSubsection then
    pure (some (cs!"that is associated with a different sort of declaration", none))
  else if -reason = orderLocalSubsection then
    let ol := getLocalSubsection m o.modName v other
    match lssReason v ol with
    | some t => pure (some (t, lssFollowup ol (getLocalSubsection m o.modName v this)))
    | none => pure none
  else if -reason = orderAlphabetical then
    pure (some (if nearest > index then cs!"that is alphabetically earlier"
      else cs!"that is alphabetically later", none))
  else pure none

/-- libc `snprintf(buf, size, …)` for a formatted text: what is stored. -/
def snprintfStored (size : Nat) (txt : Str) : Str := txt.take (size - 1)

/-- libc `strncat(dst, src, n)` in a buffer of `size` bytes holding `dst`: at most `n`
characters and a NUL are written. -/
def strncatBuf (size : Nat) (dst src : Str) (n : Nat) : Res Str :=
  if dst.length + (src.take n).length + 1 ≤ size then .ok (dst ++ src.take n) else .ub

/-- ordering.c:916-948: allocation and formatting of the message. -/
def formatReason (lss beforeAfter : Str) (lineno : Nat) (reason : Str) (followup : Option Str) :
    Res Str :=
  let size := reason.length + beforeAfter.length +
    cs!"Line out of order.  It is of type ".length + lss.length + 1 + cs!" line ".length + 13 +
    (match followup with | some f => f.length | none => 0)
  let txt := cs!"Line out of order.  It is of type " ++ lss ++ cs!" " ++ beforeAfter ++
    cs!" line " ++ natToStr lineno ++ cs!" " ++ reason ++ cs!"."
  -- snprintf returns the length of the whole text
  let written := txt.length
  let ret := snprintfStored size txt
  match followup with
  | some f => strncatBuf size ret f (size - written)
  | none => .ok ret

/-- ordering.c:763-949 `get_ordering_reason`; `none` is NULL. -/
def getOrderingReason (m : Maps) (v : OrderConf) (o : OrderingMetadata) (index : Nat) :
    Res (Option Str) := do
  match ← nearestConflict m v o index (o.nodes.length + index + 1) 1 with
  | none => pure none
  | some (nearest, reason) =>
    let this ← arrNode o.nodes (index : Int)
    let other ← arrNode o.nodes (nearest : Int)
    match ← reasonText m v o index nearest reason this other with
    | none => pure none
    | some (txt, followup) => do
      let s ← formatReason (lssToString (getLocalSubsection m o.modName v this))
        (if nearest > index then cs!"before" else cs!"after") other.info.lineno txt followup
      pure (some s)

/-! ## C-001 (te_checks.c:28-93) -/

/-- te_checks.c:38-39: the static variables. -/
structure OrderState where
  orderData : Option OrderingMetadata
  index : Nat

/-- te_checks.c:69-88: the loop over the array from the remembered index on. Pointers into
one AST are equal iff their positions are. -/
def findOrderNode (nodes : List (OrderNode Loc)) (node : Loc) (i : Nat) : Option Nat :=
  if h : i < nodes.length then
    match nodes[i].node with
    | some n => if n.path = node.path then some i else findOrderNode nodes node (i + 1)
    | none => findOrderNode nodes node (i + 1)
  else none
termination_by nodes.length - i

/-- te_checks.c:28-93 `check_te_order`. -/
def checkTeOrder (m : Maps) (data : CheckData) (node : Loc) (st : OrderState) :
    Res (OrderState × Option CheckResult) :=
  if data.flavor ≠ .teFile then pure (st, none)
  else if node.flavor = .teFile then do
    match ← prepareOrderingMetadata m data node with
    | none => pure (⟨none, 0⟩, some (internalError cs!"Failed to initialize ordering for C-001"))
    | some o => do
      let v := data.config.orderConf
      let nodes ← calcLis (compareNodes m o.sections o.modName v) o.nodes.length
        (orderedNodes node)
      pure (⟨some { o with nodes := nodes }, 0⟩, none)
  else if node.flavor = .cleanup then pure ({ st with orderData := none }, none)
  else
    match st.orderData with
    | none => pure (st, some (internalError cs!"Ordering data was not generated for C-001"))
    | some o =>
      match findOrderNode o.nodes node st.index with
      | none => pure (st, some (internalError cs!"Could not find ordering info for line"))
      | some i => do
        let st' : OrderState := { st with index := i }
        if (← arrGet o.nodes (i : Int)).inOrder then pure (st', none)
        else
          match ← getOrderingReason m data.config.orderConf o i with
          | none => pure (st', some (internalError cs!"Failed to compute reason C-001"))
          | some r => pure (st', some ⟨'C', 1, r⟩)

end Selint
