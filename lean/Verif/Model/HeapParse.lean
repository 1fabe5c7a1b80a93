import Verif.Model.Heap
/-!
# How the parser grows the tree (parse_functions.c), on the heap and functionally

Everything parse_functions.c and parse.y do to the tree is one of six operations on the
cursor `cur`. `HeapCursor.step` performs them through pointers; `Loc.grow` performs them on
the functional tree that the rest of the model works with.
-/

namespace Selint

/-- The operations the parser performs on the tree. -/
inductive TreeOp where
  /-- `insert_policy_node_next(*cur, …); *cur = (*cur)->next;` (e.g. parse_functions.c:72-83) -/
  | statement (info : NodeInfo)
  /-- `insert_policy_node_child(*cur, …);` (parse_functions.c:144-180, aliases) -/
  | child (info : NodeInfo)
  /-- parse_functions.c:529-555 `begin_block`: a successor, a start marker as its child, and
  the cursor on the marker. -/
  | openBlock (info marker : NodeInfo)
  /-- parse_functions.c:557-567 `end_block`. -/
  | closeBlock (flavor : NodeFlavor)
  /-- Assignments to members other than the links (parse_functions.c:738-757
  `save_command`; parse.y `cur->flavor = NODE_EMPTY`). -/
  | update (f : NodeInfo → NodeInfo)
  /-- The same for the parent of the cursor, if there is one (`save_command(cur->parent, …)`,
  e.g. parse.y:546; parse_functions.c:682-684 in `end_gen_require`). -/
  | updateParent (f : NodeInfo → NodeInfo)

/-- Where the parser is: the heap and its cursor. -/
structure HeapCursor where
  heap : Heap
  cur : Ptr

/-- `insert_policy_node_next(*cur, …); *cur = (*cur)->next;`. -/
def HeapCursor.addNext (s : HeapCursor) (info : NodeInfo) (fresh : Ptr) : Res HeapCursor := do
  let (_, h) ← s.heap.insertNext (some s.cur) info fresh
  let n ← h.read s.cur
  match n.next with
  | some q => .ok ⟨h, q⟩
  | none => .ub

/-- One operation through pointers. `p` and `q` are the addresses `malloc` returns, if it
is called. parse_functions.c:529-555, 557-567 and the insertion functions. -/
def HeapCursor.step (fuel : Nat) (s : HeapCursor) (op : TreeOp) (p q : Ptr) : Res HeapCursor :=
  match op with
  | .statement info => s.addNext info p
  | .child info => do
    let (_, h) ← s.heap.insertChild fuel (some s.cur) info p
    .ok ⟨h, s.cur⟩
  | .openBlock info marker => do
    let s₁ ← s.addNext info p
    let (_, h) ← s₁.heap.insertChild fuel (some s₁.cur) marker q
    let n ← h.read s₁.cur
    match n.firstChild with
    | some c => .ok ⟨h, c⟩
    | none => .ub
  | .closeBlock flavor => do
    let n ← s.heap.read s.cur
    match n.parent with
    | none => .ok s
    | some up => do
      let pn ← s.heap.read up
      if pn.info.flavor = flavor then .ok ⟨s.heap, up⟩ else .ok s
  | .update f => do
    let n ← s.heap.read s.cur
    .ok ⟨s.heap.set s.cur { n with info := f n.info }, s.cur⟩
  | .updateParent f => do
    let n ← s.heap.read s.cur
    match n.parent with
    | none => .ok s
    | some up => do
      let pn ← s.heap.read up
      .ok ⟨s.heap.set up { pn with info := f pn.info }, s.cur⟩

/-- A sequence of operations, each with the addresses `malloc` returns during it. -/
def HeapCursor.run (fuel : Nat) (s : HeapCursor) : List (TreeOp × Ptr × Ptr) → Res HeapCursor
  | [] => .ok s
  | (op, p, q) :: ops => do
    let s' ← s.step fuel op p q
    s'.run fuel ops

namespace Loc

/-- tree.c:65-91 on the functional tree: the new node follows the cursor, and whatever
followed the cursor is dropped. The cursor moves to the new node. -/
def addNext (l : Loc) (info : NodeInfo) : Loc := ⟨.mk info [], l.focus :: l.lefts, [], l.ups⟩

/-- tree.c:24-63 on the functional tree. -/
def addChild (l : Loc) (info : NodeInfo) : Loc :=
  { l with focus := .mk l.focus.info (l.focus.children ++ [.mk info []]) }

/-- parse_functions.c:529-555 `begin_block`. -/
def openBlock (l : Loc) (info marker : NodeInfo) : Loc :=
  ⟨.mk marker [], [], [], ⟨l.focus :: l.lefts, info, []⟩ :: l.ups⟩

/-- parse_functions.c:557-567 `end_block`. -/
def closeBlock (l : Loc) (flavor : NodeFlavor) : Loc :=
  match l.parent? with
  | none => l
  | some p => if p.info.flavor = flavor then p else l

/-- Change members of the node under the cursor. -/
def update (l : Loc) (f : NodeInfo → NodeInfo) : Loc :=
  { l with focus := .mk (f l.focus.info) l.focus.children }

/-- Change members of the parent, if there is one. -/
def updateParent (l : Loc) (f : NodeInfo → NodeInfo) : Loc :=
  match l.ups with
  | [] => l
  | u :: us => { l with ups := { u with info := f u.info } :: us }

/-- One operation on the functional tree. -/
def grow (l : Loc) : TreeOp → Loc
  | .statement info => l.addNext info
  | .child info => l.addChild info
  | .openBlock info marker => l.openBlock info marker
  | .closeBlock flavor => l.closeBlock flavor
  | .update f => l.update f
  | .updateParent f => l.updateParent f

end Loc

end Selint
