import Verif.Model.Free
/-!
# The names in a node, as a list in memory (tree.c)

`Model/Tree.lean` has the same functions on lists (`getNamesInNode`, `getNamesRequired`).
-/

namespace Selint

/-- A pointer to a `struct xav_rule_data` used as one to a `struct av_rule_data`: the common
members come first in both (tree.h:110-125, tree.c:162-165). -/
def Obj.avPart? : Obj → Option AvObj
  | .av d => some d
  | .xav d => some d.av
  | _ => none

namespace Mem

/-- `strdup(p)` made the string of a new list, as `sl_from_str(p)` does. -/
def slFromPtr (m : Mem) (p : Option Addr) : Res (Option Addr × Mem) := do
  let s ← m.getAt Obj.str? p
  let (q, m) := m.slFromStr s
  .ok (some q, m)

/-- tree.c:166-174 and likewise elsewhere: a copy of `src` is made the end of `ret`, or `ret`
itself when there is nothing yet. Simplification: `cur` starts at the beginning of the list
each time, not where it was left. -/
def appendCopy (fuel : Nat) (m : Mem) (ret src : Option Addr) : Res (Option Addr × Mem) :=
  match ret with
  | none => copyStringList fuel m src
  | some r => do
    let cur ← lastCell fuel m r
    let (c, m) ← copyStringList fuel m src
    let m ← m.setNext cur c
    .ok (some r, m)

/-- tree.c:188-195 and 209-216: the same with one string. -/
def appendStr (fuel : Nat) (m : Mem) (ret str : Option Addr) : Res (Option Addr × Mem) :=
  match ret with
  | none => slFromPtr m str
  | some r => do
    let cur ← lastCell fuel m r
    let (c, m) ← slFromPtr m str
    let m ← m.setNext cur c
    .ok (some r, m)

/-- tree.c:146-285, the switch of `get_names_in_node`. -/
def rawNames (fuel : Nat) (m : Mem) (n : NodeObj) : Res (Option Addr × Mem) :=
  match n.flavor with
  | .avRule | .xavRule => do
    let d ← m.getAt Obj.avPart? n.data
    let (ret, m) ← copyStringList fuel m d.sources
    appendCopy fuel m ret d.targets
  | .ttRule => do
    let d ← m.getAt Obj.tt? n.data
    let (ret, m) ← copyStringList fuel m d.sources
    let (ret, m) ← appendCopy fuel m ret d.targets
    appendStr fuel m ret d.defaultType
  | .rtRule => do
    let d ← m.getAt Obj.rt? n.data
    let (ret, m) ← copyStringList fuel m d.sources
    let (ret, m) ← appendCopy fuel m ret d.targets
    appendStr fuel m ret d.defaultRole
  | .decl => do
    let d ← m.getAt Obj.decl? n.data
    let (ret, m) ← slFromPtr m d.name
    appendCopy fuel m ret d.attrs
  | .ifCall => do
    let d ← m.getAt Obj.call? n.data
    copyStringList fuel m d.args
  | .roleAllow => do
    let d ← m.getAt Obj.ra? n.data
    let (ret, m) ← copyStringList fuel m d.frm
    match ret with
    | none => .ub
    | some r => appendCopy fuel m (some r) d.to
  | .roleTypes => do
    let d ← m.getAt Obj.rtyp? n.data
    let (ret, m) ← slFromPtr m d.role
    appendCopy fuel m ret d.types
  | .typeAttribute | .roleAttribute => do
    let d ← m.getAt Obj.attr? n.data
    let (ret, m) ← slFromPtr m d.type
    appendCopy fuel m ret d.attrs
  | .alias | .typeAlias | .permissive => slFromPtr m n.data
  | _ => .ok (none, m)

/-- tree.c:291-301: the dash of an exclusion is removed in place. -/
def stripLoop : Nat → Mem → Option Addr → Res Mem
  | _, m, none => .ok m
  | 0, _, some _ => .ub
  | fuel + 1, m, some cur => do
    let c ← m.get Obj.sl? cur
    let s ← m.getAt Obj.str? c.string
    match s, c.string with
    | '-' :: rest, some a => do
      let m ← m.write a (.bytes rest)
      stripLoop fuel m c.next
    | _, _ => stripLoop fuel m c.next

/-- tree.c:146-304 `get_names_in_node`. -/
def getNamesInNode (fuel : Nat) (m : Mem) (node : Addr) : Res (Option Addr × Mem) := do
  let n ← m.get Obj.node? node
  let (ret, m) ← rawNames fuel m n
  let m ← stripLoop fuel m ret
  .ok (ret, m)

/-- tree.c:313-324, the loop of `get_names_required`; `bound` is the bound for the loops
inside. Simplification: `ret_cursor` is the last cell of the list `ret`; the model walks
there from the beginning. -/
def namesRequiredLoop (bound : Nat) :
    Nat → Mem → (ret cur : Option Addr) → Res (Option Addr × Mem)
  | _, m, ret, none => .ok (ret, m)
  | 0, _, _, some _ => .ub
  | fuel + 1, m, ret, some cur => do
    let (names, m') ← getNamesInNode bound m cur
    let n ← m'.get Obj.node? cur
    match ret with
    | none => namesRequiredLoop bound fuel m' names n.next
    | some r => do
      let last ← lastCell bound m' r
      let m' ← m'.setNext last names
      namesRequiredLoop bound fuel m' (some r) n.next

/-- tree.c:306-327 `get_names_required`. -/
def getNamesRequired (fuel : Nat) (m : Mem) (node : Addr) : Res (Option Addr × Mem) := do
  let n ← m.get Obj.node? node
  namesRequiredLoop fuel fuel m none n.firstChild

end Mem

end Selint
