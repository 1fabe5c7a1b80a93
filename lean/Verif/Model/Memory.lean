import Verif.Model.Tree
/-!
# Allocated memory

The structures of tree.h, string_list.h, file_list.h, maps.h and others as separately allocated objects
that point to each other. `malloc` hands out addresses in increasing order and never the
same one twice; the program cannot tell the difference, since it never looks at the value
of an address. The failure of `malloc` is not modelled. Reading or writing through a
pointer to an object that is not allocated, or that is of another type, and freeing an
address that is not allocated, are undefined behaviour.
-/

namespace Selint

/-- The address of an allocated object. -/
macro "Addr" : term => `(Nat)

/-- string_list.h:23-27 `struct string_list`. -/
structure SlCell where
  string : Option Addr
  next : Option Addr
  space : Bool
  deriving DecidableEq, Repr

/-- tree.h:105-108 `struct header_data`. -/
structure HeaderObj where
  flavor : HeaderFlavor
  moduleName : Option Addr
  deriving DecidableEq, Repr

/-- tree.h:110-119 `struct av_rule_data`. -/
structure AvObj where
  flavor : AvFlavor
  sources : Option Addr
  targets : Option Addr
  objectClasses : Option Addr
  perms : Option Addr
  deriving DecidableEq, Repr

/-- tree.h:121-125 `struct xav_rule_data`: the members of `av_rule_data` and one more. -/
structure XavObj where
  av : AvObj
  operation : Option Addr
  deriving DecidableEq, Repr

/-- tree.h:127-130 `struct role_allow_data`. -/
structure RaObj where
  frm : Option Addr
  to : Option Addr
  deriving DecidableEq, Repr

/-- tree.h:132-135 `struct role_types_data`. -/
structure RtypObj where
  role : Option Addr
  types : Option Addr
  deriving DecidableEq, Repr

/-- tree.h:137-144 `struct type_transition_data`. -/
structure TtObj where
  sources : Option Addr
  targets : Option Addr
  objectClasses : Option Addr
  defaultType : Option Addr
  name : Option Addr
  flavor : TtFlavor
  deriving DecidableEq, Repr

/-- tree.h:146-151 `struct role_transition_data`. -/
structure RtObj where
  sources : Option Addr
  targets : Option Addr
  objectClasses : Option Addr
  defaultRole : Option Addr
  deriving DecidableEq, Repr

/-- tree.h:153-156 `struct if_call_data`. -/
structure CallObj where
  name : Option Addr
  args : Option Addr
  deriving DecidableEq, Repr

/-- tree.h:163-167 `struct declaration_data`. -/
structure DeclObj where
  flavor : DeclFlavor
  name : Option Addr
  attrs : Option Addr
  deriving DecidableEq, Repr

/-- tree.h:174-180 `struct sel_context`. -/
structure CtxObj where
  hasGenContext : Bool
  user : Option Addr
  role : Option Addr
  type : Option Addr
  range : Option Addr
  deriving DecidableEq, Repr

/-- tree.h:182-186 `struct fc_entry`. -/
structure FcObj where
  path : Option Addr
  obj : Option Char
  context : Option Addr
  deriving DecidableEq, Repr

/-- tree.h:188-192 `struct attribute_data`. -/
structure AttrObj where
  type : Option Addr
  attrs : Option Addr
  flavor : AttrFlavor
  deriving DecidableEq, Repr

/-- tree.h:214-223 `struct policy_node`: `data` is the pointer in `union node_data`, the
member in use being chosen by `flavor`. -/
structure NodeObj where
  parent : Option Addr
  next : Option Addr
  prev : Option Addr
  firstChild : Option Addr
  flavor : NodeFlavor
  data : Option Addr
  exceptions : Option Addr
  lineno : Nat
  deriving DecidableEq, Repr

/-- A cell of one of the lists whose cells hold a pointer to an element and a pointer to the
next cell: tree.h:158-161 `struct if_call_list`, tree.h:169-172 `struct decl_list`,
file_list.h:27-30 `struct policy_file_node`. -/
structure ListCell where
  elem : Option Addr
  next : Option Addr
  deriving DecidableEq, Repr

/-- file_list.h:22-25 `struct policy_file`. -/
structure FileObj where
  filename : Option Addr
  ast : Option Addr
  deriving DecidableEq, Repr

/-- file_list.h:32-35 `struct policy_file_list`. -/
structure FileListObj where
  head : Option Addr
  tail : Option Addr
  deriving DecidableEq, Repr

/-- maps.h:25-30 `struct hash_elem`, an element of a table from strings to strings. The
handles of uthash are not part of the model. -/
structure HashObj where
  key : Option Addr
  val : Option Addr
  deriving DecidableEq, Repr

/-- maps.h:32-36 `struct bool_hash_elem`. -/
structure FlagObj where
  key : Option Addr
  val : Int
  deriving DecidableEq, Repr

/-- maps.h:38-42 `struct sl_hash_elem`: the value is a list of strings. -/
structure SlHashObj where
  key : Option Addr
  val : Option Addr
  deriving DecidableEq, Repr

/-- maps.h:44-49 `struct template_hash_elem`. -/
structure TemplateObj where
  name : Option Addr
  declarations : Option Addr
  calls : Option Addr
  deriving DecidableEq, Repr

/-- check_hooks.h:102-108 `struct check_node`. The pointer to a function is a number. -/
structure CheckObj where
  fn : Nat
  checkId : Option Addr
  issuesFound : Nat
  next : Option Addr
  deriving DecidableEq, Repr

/-- perm_macro.c:30-34 `struct perm_macro`. -/
structure MacroObj where
  next : Option Addr
  name : Option Addr
  maskRaw : BitVec 32
  deriving DecidableEq, Repr

/-- ordering.h:53-65 `struct section_data`; the average is computed from the other members
when the list is complete and is not part of the model. -/
structure SectionObj where
  name : Option Addr
  count : Nat
  sum : Nat
  next : Option Addr
  deriving DecidableEq, Repr

/-- check_hooks.h:95-100 `struct check_result`. -/
structure ResultObj where
  severity : Char
  checkId : Nat
  lineno : Nat
  message : Option Addr
  deriving DecidableEq, Repr

/-- What an allocated object holds. `raw` is memory that was allocated and not written
yet, `bytes` a string with its terminating NUL, `genReq` tree.h:194-196
`struct gen_require_data`, `ordering` ordering.h:67-73 `struct ordering_metadata`, of which
only the pointer to the sections matters here. -/
inductive Obj where
  | raw
  | bytes (s : Str)
  | sl (c : SlCell)
  | header (d : HeaderObj)
  | av (d : AvObj)
  | xav (d : XavObj)
  | ra (d : RaObj)
  | rtyp (d : RtypObj)
  | tt (d : TtObj)
  | rt (d : RtObj)
  | call (d : CallObj)
  | decl (d : DeclObj)
  | ctx (d : CtxObj)
  | fc (d : FcObj)
  | attr (d : AttrObj)
  | genReq (unquoted : Bool)
  | node (n : NodeObj)
  | cell (c : ListCell)
  | file (f : FileObj)
  | files (l : FileListObj)
  | hash (e : HashObj)
  | flag (e : FlagObj)
  | slHash (e : SlHashObj)
  | tmpl (e : TemplateObj)
  | check (c : CheckObj)
  | permMacro (c : MacroObj)
  | sect (c : SectionObj)
  | result (c : ResultObj)
  | ordering (sections : Option Addr)
  deriving DecidableEq, Repr

/-- The memory: what is allocated, and the address that `malloc` returns next. -/
structure Mem where
  obj : Addr → Option Obj
  top : Addr

namespace Mem

/-- Nothing is allocated. -/
def empty : Mem := ⟨fun _ => none, 0⟩

/-- libc `malloc`, followed by the assignments that fill the object (`raw`: none yet). -/
def malloc (m : Mem) (o : Obj) : Addr × Mem :=
  (m.top, ⟨fun q => if q = m.top then some o else m.obj q, m.top + 1⟩)

/-- libc `free`: nothing happens for NULL; an address that is not allocated is undefined
behaviour. -/
def free (m : Mem) : Option Addr → Res Mem
  | none => .ok m
  | some p =>
    match m.obj p with
    | none => .ub
    | some _ => .ok ⟨fun q => if q = p then none else m.obj q, m.top⟩

/-- Assignments through a pointer. -/
def write (m : Mem) (p : Addr) (o : Obj) : Res Mem :=
  match m.obj p with
  | none => .ub
  | some _ => .ok ⟨fun q => if q = p then some o else m.obj q, m.top⟩

/-- Reading the object at an address (the accessors below choose the type). -/
def get {α : Type} (m : Mem) (f : Obj → Option α) (p : Addr) : Res α :=
  match m.obj p with
  | none => .ub
  | some o =>
    match f o with
    | none => .ub
    | some a => .ok a

/-- Reading through a pointer that may be NULL. -/
def getAt {α : Type} (m : Mem) (f : Obj → Option α) : Option Addr → Res α
  | none => .ub
  | some p => m.get f p

end Mem

namespace Obj

/-- The object as a string. -/
def str? : Obj → Option Str | .bytes s => some s | _ => none
/-- The object as a `struct string_list`. -/
def sl? : Obj → Option SlCell | .sl c => some c | _ => none
/-- The object as a `struct header_data`. -/
def header? : Obj → Option HeaderObj | .header d => some d | _ => none
/-- The object as a `struct av_rule_data`. -/
def av? : Obj → Option AvObj | .av d => some d | _ => none
/-- The object as a `struct xav_rule_data`. -/
def xav? : Obj → Option XavObj | .xav d => some d | _ => none
/-- The object as a `struct role_allow_data`. -/
def ra? : Obj → Option RaObj | .ra d => some d | _ => none
/-- The object as a `struct role_types_data`. -/
def rtyp? : Obj → Option RtypObj | .rtyp d => some d | _ => none
/-- The object as a `struct type_transition_data`. -/
def tt? : Obj → Option TtObj | .tt d => some d | _ => none
/-- The object as a `struct role_transition_data`. -/
def rt? : Obj → Option RtObj | .rt d => some d | _ => none
/-- The object as a `struct if_call_data`. -/
def call? : Obj → Option CallObj | .call d => some d | _ => none
/-- The object as a `struct declaration_data`. -/
def decl? : Obj → Option DeclObj | .decl d => some d | _ => none
/-- The object as a `struct sel_context`. -/
def ctx? : Obj → Option CtxObj | .ctx d => some d | _ => none
/-- The object as a `struct fc_entry`. -/
def fc? : Obj → Option FcObj | .fc d => some d | _ => none
/-- The object as a `struct attribute_data`. -/
def attr? : Obj → Option AttrObj | .attr d => some d | _ => none
/-- The object as a `struct policy_node`. -/
def node? : Obj → Option NodeObj | .node n => some n | _ => none
/-- The object as a cell of a list. -/
def cell? : Obj → Option ListCell | .cell c => some c | _ => none
/-- The object as a `struct policy_file`. -/
def file? : Obj → Option FileObj | .file f => some f | _ => none
/-- The object as a `struct policy_file_list`. -/
def files? : Obj → Option FileListObj | .files l => some l | _ => none
/-- The object as a `struct hash_elem`. -/
def hash? : Obj → Option HashObj | .hash e => some e | _ => none
/-- The object as a `struct bool_hash_elem`. -/
def flag? : Obj → Option FlagObj | .flag e => some e | _ => none
/-- The object as a `struct sl_hash_elem`. -/
def slHash? : Obj → Option SlHashObj | .slHash e => some e | _ => none
/-- The object as a `struct template_hash_elem`. -/
def tmpl? : Obj → Option TemplateObj | .tmpl e => some e | _ => none
/-- The object as a `struct check_node`. -/
def check? : Obj → Option CheckObj | .check c => some c | _ => none
/-- The object as a `struct perm_macro`. -/
def permMacro? : Obj → Option MacroObj | .permMacro c => some c | _ => none
/-- The object as a `struct section_data`. -/
def sect? : Obj → Option SectionObj | .sect c => some c | _ => none
/-- The object as a `struct check_result`. -/
def result? : Obj → Option ResultObj | .result c => some c | _ => none
/-- The object as a `struct ordering_metadata`: its `sections`. -/
def ordering? : Obj → Option (Option Addr) | .ordering s => some s | _ => none

end Obj

end Selint
