import Verif.Model.Flavors
/-!
# The policy tree (tree.h, tree.c), functional level

A `struct policy_node` reached by the code is modelled as a `Loc`: the subtree below the
node together with its left siblings, right siblings and enclosing nodes. The pointer
fields `parent`, `prev`, `next`, `first_child` are the functions `Loc.parent?`, … .
The heap level, where nodes are addresses and links are mutable pointers, is
`Model/Heap.lean`.
-/

namespace Selint

/-- tree.h:105-108 `struct header_data`. -/
structure HeaderData where
  flavor : HeaderFlavor
  moduleName : Str
  deriving DecidableEq, Repr

/-- tree.h:110-119 `struct av_rule_data` (and the common members of `xav_rule_data`). -/
structure AvData where
  flavor : AvFlavor
  sources : List Str
  targets : List Str
  objectClasses : List Str
  perms : List Str
  deriving DecidableEq, Repr

/-- tree.h:127-130 `struct role_allow_data`. -/
structure RoleAllowData where
  frm : List Str
  to : List Str
  deriving DecidableEq, Repr

/-- tree.h:132-135 `struct role_types_data`. -/
structure RoleTypesData where
  role : Str
  types : List Str
  deriving DecidableEq, Repr

/-- tree.h:137-144 `struct type_transition_data`. -/
structure TtData where
  sources : List Str
  targets : List Str
  objectClasses : List Str
  defaultType : Str
  name : Option Str
  flavor : TtFlavor
  deriving DecidableEq, Repr

/-- tree.h:146-151 `struct role_transition_data`. -/
structure RtData where
  sources : List Str
  targets : List Str
  objectClasses : List Str
  defaultRole : Str
  deriving DecidableEq, Repr

/-- tree.h:153-156 `struct if_call_data`; string_list.h:23-27: each argument carries the
`has_incorrect_space` flag. -/
structure IfCallData where
  name : Str
  args : List (Str × Bool)
  deriving DecidableEq, Repr

/-- The argument strings of a call. -/
def IfCallData.argStrs (c : IfCallData) : List Str := c.args.map (·.1)

/-- tree.h:163-167 `struct declaration_data`. -/
structure DeclData where
  flavor : DeclFlavor
  name : Str
  attrs : List Str
  deriving DecidableEq, Repr

/-- tree.h:174-180 `struct sel_context`. -/
structure SelContext where
  hasGenContext : Bool
  user : Str
  role : Str
  type : Str
  range : Option Str
  deriving DecidableEq, Repr

/-- tree.h:182-186 `struct fc_entry`; `obj = none` is the NUL character, `context = none`
is `<<none>>`. -/
structure FcEntry where
  path : Str
  obj : Option Char
  context : Option SelContext
  deriving DecidableEq, Repr

/-- tree.h:188-192 `struct attribute_data`. -/
structure AttrData where
  type : Str
  attrs : List Str
  flavor : AttrFlavor
  deriving DecidableEq, Repr

/-- The node flavors whose data is a plain string or NULL. -/
inductive PlainFlavor where
  | teFile | ifFile | fcFile | sptFile | avFile
  | alias | typeAlias | m4Call | m4SimpleMacro | define
  | optionalPolicy | optionalElse | booleanPolicy | tunablePolicy | ifdef | ifelse
  | m4Arg | startBlock | interfaceDef | tempDef
  | require | permissive | comment | empty | semicolon | cleanup | error
  deriving DecidableEq, Repr

/-- The `enum node_flavor` value of a plain flavor. -/
def PlainFlavor.toFlavor : PlainFlavor → NodeFlavor
  | .teFile => .teFile | .ifFile => .ifFile | .fcFile => .fcFile | .sptFile => .sptFile
  | .avFile => .avFile | .alias => .alias | .typeAlias => .typeAlias | .m4Call => .m4Call
  | .m4SimpleMacro => .m4SimpleMacro | .define => .define
  | .optionalPolicy => .optionalPolicy | .optionalElse => .optionalElse
  | .booleanPolicy => .booleanPolicy | .tunablePolicy => .tunablePolicy
  | .ifdef => .ifdef | .ifelse => .ifelse | .m4Arg => .m4Arg | .startBlock => .startBlock
  | .interfaceDef => .interfaceDef | .tempDef => .tempDef | .require => .require
  | .permissive => .permissive | .comment => .comment | .empty => .empty
  | .semicolon => .semicolon | .cleanup => .cleanup | .error => .error

/-- tree.h:198-212 `union node_data` together with the flavor tag that selects the member
in use. Simplification: the model has no node whose flavor and data disagree; every
insertion in parse_functions.c and parse_fc.c passes matching ones. -/
inductive NodeData where
  | header (d : HeaderData)
  | av (d : AvData)
  | xav (d : AvData) (operation : Str)
  | roleAllow (d : RoleAllowData)
  | roleTypes (d : RoleTypesData)
  | tt (d : TtData)
  | rt (d : RtData)
  | ifCall (d : IfCallData)
  | decl (d : DeclData)
  | fc (d : FcEntry)
  | attr (d : AttrData)
  | genReq (unquoted : Bool)
  | plain (f : PlainFlavor) (str : Option Str)
  deriving DecidableEq, Repr

/-- The `flavor` field of a node. -/
def NodeData.flavor : NodeData → NodeFlavor
  | .header _ => .header
  | .av _ => .avRule
  | .xav _ _ => .xavRule
  | .roleAllow _ => .roleAllow
  | .roleTypes _ => .roleTypes
  | .tt _ => .ttRule
  | .rt _ => .rtRule
  | .ifCall _ => .ifCall
  | .decl _ => .decl
  | .fc _ => .fcEntry
  | .attr d => match d.flavor with
    | .type => .typeAttribute
    | .role => .roleAttribute
  | .genReq _ => .genReq
  | .plain f _ => f.toFlavor

/-- tree.h:214-223 `struct policy_node` without its links. -/
structure NodeInfo where
  data : NodeData
  exceptions : Option Str
  lineno : Nat
  deriving DecidableEq, Repr

/-- The `flavor` field of a node. -/
def NodeInfo.flavor (n : NodeInfo) : NodeFlavor := n.data.flavor

/-- A node with its children in order. A file's AST is the *list* of top-level siblings
that starts at the node the file's `ast` pointer designates. -/
inductive Tree where
  | mk (info : NodeInfo) (children : List Tree)
  deriving Repr

namespace Tree

/-- The node at the root. -/
def info : Tree → NodeInfo
  | mk i _ => i

/-- The children of the root, in order. -/
def children : Tree → List Tree
  | mk _ cs => cs

@[simp] theorem info_mk (i : NodeInfo) (cs : List Tree) : (mk i cs).info = i := rfl
@[simp] theorem children_mk (i : NodeInfo) (cs : List Tree) : (mk i cs).children = cs := rfl
@[simp] theorem mk_eta (t : Tree) : mk t.info t.children = t := by cases t; rfl

end Tree

/-- One enclosing node: its own data and its siblings (left ones nearest first). -/
structure Frame where
  lefts : List Tree
  info : NodeInfo
  rights : List Tree
  deriving Repr

/-- A pointer to a node inside an AST. -/
structure Loc where
  focus : Tree
  lefts : List Tree
  rights : List Tree
  ups : List Frame
  deriving Repr

namespace Loc

/-- The node pointed at. -/
def info (l : Loc) : NodeInfo := l.focus.info

/-- `node->flavor`. -/
def flavor (l : Loc) : NodeFlavor := l.focus.info.flavor

/-- `node->data`. -/
def data (l : Loc) : NodeData := l.focus.info.data

/-- `node->first_child`. -/
def firstChild? (l : Loc) : Option Loc :=
  match l.focus.children with
  | [] => none
  | c :: cs => some ⟨c, [], cs, ⟨l.lefts, l.focus.info, l.rights⟩ :: l.ups⟩

/-- `node->next`. -/
def next? (l : Loc) : Option Loc :=
  match l.rights with
  | [] => none
  | r :: rs => some ⟨r, l.focus :: l.lefts, rs, l.ups⟩

/-- `node->prev`. -/
def prev? (l : Loc) : Option Loc :=
  match l.lefts with
  | [] => none
  | p :: ps => some ⟨p, ps, l.focus :: l.rights, l.ups⟩

/-- `node->parent`. -/
def parent? (l : Loc) : Option Loc :=
  match l.ups with
  | [] => none
  | f :: fs => some ⟨.mk f.info (l.lefts.reverse ++ l.focus :: l.rights), f.lefts, f.rights, fs⟩

/-- The position of a node: sibling index, then the indices of the enclosing nodes,
innermost first. Two pointers into the same AST are equal (`==` in C) iff their positions
are equal. -/
def path (l : Loc) : List Nat := l.lefts.length :: l.ups.map (·.lefts.length)

/-- Pointer to the head of a (non-empty) list of top-level siblings. -/
def ofForest : List Tree → Option Loc
  | [] => none
  | t :: ts => some ⟨t, [], ts, []⟩

/-- tree.c:348-355, the upward part of `dfs_next`, for the node with subtree `t` and
siblings `ls`/`rs` below the frames: climb while there is a parent without `next`; the
parent's `next`, if a parent is left. -/
def climb (t : Tree) (ls rs : List Tree) : List Frame → Option Loc
  | [] => none
  | f :: fs =>
    match f.rights with
    | r :: rs' => some ⟨r, .mk f.info (ls.reverse ++ t :: rs) :: f.lefts, rs', fs⟩
    | [] => climb (.mk f.info (ls.reverse ++ t :: rs)) f.lefts [] fs

/-- tree.c:340-356 `dfs_next`. -/
def dfsNext (l : Loc) : Option Loc :=
  match l.firstChild? with
  | some c => some c
  | none =>
    match l.next? with
    | some n => some n
    | none => climb l.focus l.lefts l.rights l.ups

/-- tree.c:111-120 `get_name_if_in_template`: the name of the innermost enclosing
template definition. (Template definitions always carry a name: `begin_interface_def`.) -/
def getNameIfInTemplate (l : Loc) : Option Str :=
  l.ups.findSome? fun f =>
    match f.info.data with
    | .plain .tempDef s => s
    | _ => none

/-- tree.c:329-338 `is_in_require`. -/
def isInRequire (l : Loc) : Bool :=
  l.ups.any fun f => f.info.flavor == .genReq || f.info.flavor == .require

end Loc

/-- tree.c:289-301: drop the exclusion dash. -/
def stripDash : Str → Str
  | '-' :: s => s
  | s => s

/-- tree.c:146-304 `get_names_in_node`. -/
def getNamesInNode (n : NodeInfo) : List Str :=
  let raw : List Str :=
    match n.data with
    | .av d => d.sources ++ d.targets
    | .xav d _ => d.sources ++ d.targets
    | .tt d => (d.sources ++ d.targets) ++ [d.defaultType]
    | .rt d => (d.sources ++ d.targets) ++ [d.defaultRole]
    | .decl d => d.name :: d.attrs
    | .ifCall d => d.argStrs
    | .roleAllow d => d.frm ++ d.to
    | .roleTypes d => d.role :: d.types
    | .attr d => d.type :: d.attrs
    | .plain .alias (some s) => [s]
    | .plain .typeAlias (some s) => [s]
    | .plain .permissive (some s) => [s]
    | _ => []
  raw.map stripDash

/-- tree.c:306-327 `get_names_required`: the names in the direct children. -/
def getNamesRequired (t : Tree) : List Str :=
  t.children.flatMap fun c => getNamesInNode c.info

end Selint
