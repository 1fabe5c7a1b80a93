import Verif.Model.Tree
/-!
# The policy tree as linked nodes on the heap (tree.c)

Nodes are allocated objects with mutable links. `malloc` is modelled by an address chosen
by the caller that is not allocated at the moment; the failure of `malloc`
(`SELINT_OUT_OF_MEM`) is not modelled. Reading or writing an address that is not allocated
is undefined behaviour.
-/

namespace Selint

/-- The address of a `struct policy_node`. -/
abbrev Ptr := Nat

/-- tree.h:214-223 `struct policy_node`; `none` is NULL. -/
structure HNode where
  info : NodeInfo
  parent : Option Ptr
  prev : Option Ptr
  next : Option Ptr
  firstChild : Option Ptr
  deriving DecidableEq, Repr

/-- The allocated nodes. -/
def Heap := Ptr → Option HNode

namespace Heap

/-- Store a whole node (a sequence of member assignments). -/
def set (h : Heap) (p : Ptr) (n : HNode) : Heap := fun q => if q = p then some n else h q

/-- libc `free` of a node. -/
def release (h : Heap) (p : Ptr) : Heap := fun q => if q = p then none else h q

/-- Read through a pointer. -/
def read (h : Heap) (p : Ptr) : Res HNode :=
  match h p with
  | some n => .ok n
  | none => .ub

/-- tree.c:49-53: `while (cur->next != NULL) cur = cur->next;`. The first argument bounds
the number of iterations; a loop that does not end within it (a cyclic list) is `ub`. -/
def lastSibling : Nat → Heap → Ptr → Res Ptr
  | 0, _, _ => .ub
  | fuel + 1, h, cur => do
    let n ← h.read cur
    match n.next with
    | none => .ok cur
    | some q => lastSibling fuel h q

/-- tree.c:24-63 `insert_policy_node_child`. `fresh` is the address `malloc` returned. -/
def insertChild (fuel : Nat) (h : Heap) (parent : Option Ptr) (info : NodeInfo) (fresh : Ptr) :
    Res (SelintError × Heap) :=
  match parent with
  | none => .ok (.badArg, h)
  | some p => do
    let pn ← h.read p
    match pn.firstChild with
    | none =>
      .ok (.success, (h.set p { pn with firstChild := some fresh }).set fresh
        { info, parent := some p, prev := none, next := none, firstChild := none })
    | some c => do
      let cur ← lastSibling fuel h c
      let cn ← h.read cur
      .ok (.success, (h.set cur { cn with next := some fresh }).set fresh
        { info, parent := some p, prev := some cur, next := none, firstChild := none })

/-- tree.c:65-91 `insert_policy_node_next`. -/
def insertNext (h : Heap) (prev : Option Ptr) (info : NodeInfo) (fresh : Ptr) :
    Res (SelintError × Heap) :=
  match prev with
  | none => .ok (.badArg, h)
  | some p => do
    let pn ← h.read p
    .ok (.success, (h.set p { pn with next := some fresh }).set fresh
      { info, parent := pn.parent, prev := some p, next := none, firstChild := none })

/-- tree.c:358-423 `free_policy_node`; the second component lists the addresses passed to
`free`, in order. What hangs off a node (its data and exception string) is freed with it
and is part of `info` here. Each node is read again after its children and again after its
successors have been freed (tree.c:411-418 assign to and read from `to_free`). The first
argument bounds the depth of the recursion. -/
def freeNode : Nat → Heap → Option Ptr → Res (Heap × List Ptr)
  | _, h, none => .ok (h, [])
  | 0, _, some _ => .ub
  | fuel + 1, h, some p => do
    let n ← h.read p
    let (h₁, l₁) ← freeNode fuel h n.firstChild
    let n₁ ← h₁.read p
    let h₁ := h₁.set p { n₁ with firstChild := none }
    let (h₂, l₂) ← freeNode fuel h₁ n₁.next
    let n₂ ← h₂.read p
    let h₂ := h₂.set p { n₂ with next := none, prev := none }
    .ok (h₂.release p, l₁ ++ l₂ ++ [p])

/-- tree.c:348-350: climb while there is a parent and it has no successor. -/
def climbLoop : Nat → Heap → HNode → Res HNode
  | 0, _, _ => .ub
  | fuel + 1, h, n =>
    match n.parent with
    | none => .ok n
    | some q => do
      let pn ← h.read q
      match pn.next with
      | some _ => .ok n
      | none => climbLoop fuel h pn

/-- tree.c:347-355, the last branch of `dfs_next`. -/
def climbNext (fuel : Nat) (h : Heap) (n : HNode) : Res (Option Ptr) := do
  let m ← climbLoop fuel h n
  match m.parent with
  | none => .ok none
  | some q => do
    let pn ← h.read q
    .ok pn.next

/-- tree.c:340-356 `dfs_next`. -/
def dfsNext (fuel : Nat) (h : Heap) (p : Ptr) : Res (Option Ptr) := do
  let n ← h.read p
  match n.firstChild with
  | some c => .ok (some c)
  | none =>
    match n.next with
    | some q => .ok (some q)
    | none => climbNext fuel h n

/-- The loop `while (cur) { …; cur = dfs_next(cur); }` of runner.c:332-355 (and of the
hooks that look at a whole file): the nodes it visits. The first argument bounds the number
of iterations, the second the climbing loop inside `dfs_next`. -/
def walk : Nat → Nat → Heap → Option Ptr → Res (List Ptr)
  | _, _, _, none => .ok []
  | 0, _, _, some _ => .ub
  | steps + 1, fuel, h, some p => do
    let q ← dfsNext fuel h p
    let rest ← walk steps fuel h q
    .ok (p :: rest)

end Heap

end Selint
