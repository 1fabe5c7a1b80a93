import Verif.Model.Free
import Verif.Model.Maps
/-!
# The symbol tables in memory (maps.c)

The tables of `Maps.lean` once more, with every element, key, value and list as an allocated
object. A uthash table is the list of the addresses of its elements in the order of insertion;
uthash itself is trusted: `HASH_FIND` compares the name with the keys of the elements,
`HASH_ADD_KEYPTR` appends an element, `HASH_ITER` with `HASH_DELETE` goes through all elements
in that order and leaves an empty table. Names that are only read are the strings themselves
and are never NULL. The strings of an element are allocated before the element; the program
does it the other way round. A loop that takes more steps than addresses were handed out is
`ub`.
-/

namespace Selint

/-- maps.c:29-39: the tables from strings to strings. -/
inductive StrTable where
  | type | role | user | attrType | attrRole | bool | cls | perm | mods | modLayers | ifs
  deriving DecidableEq, Repr

/-- maps.c:40-42: the tables of marked interfaces. -/
inductive FlagTable where
  | transform | filetrans | roleIf
  deriving DecidableEq, Repr

/-- maps.c:29-44: the static variables. -/
structure Tables where
  str : StrTable → List Addr
  flag : FlagTable → List Addr
  permmacros : List Addr
  template : List Addr

namespace Tables

/-- maps.c:29-44: all tables are empty. -/
def empty : Tables := ⟨fun _ => [], fun _ => [], [], []⟩

/-- `HASH_ADD_KEYPTR` to a table of strings. -/
def addStr (t : Tables) (i : StrTable) (p : Addr) : Tables :=
  { t with str := fun j => if j = i then t.str i ++ [p] else t.str j }

/-- `HASH_ADD_KEYPTR` to a table of marks. -/
def addFlag (t : Tables) (i : FlagTable) (p : Addr) : Tables :=
  { t with flag := fun j => if j = i then t.flag i ++ [p] else t.flag j }

end Tables

/-- The table a declaration flavor selects: maps.c:57-84, 103-137. -/
def declStrTable : DeclFlavor → StrTable
  | .type => .type
  | .role => .role
  | .user => .user
  | .attribute => .attrType
  | .attributeRole => .attrRole
  | .bool => .bool
  | .cls => .cls
  | .perm => .perm

namespace Obj

/-- The key of a `struct hash_elem`. -/
def hashKey? (o : Obj) : Option (Option Addr) := o.hash?.map HashObj.key
/-- The key of a `struct bool_hash_elem`. -/
def flagKey? (o : Obj) : Option (Option Addr) := o.flag?.map FlagObj.key
/-- The key of a `struct sl_hash_elem`. -/
def slHashKey? (o : Obj) : Option (Option Addr) := o.slHash?.map SlHashObj.key
/-- The key of a `struct template_hash_elem`. -/
def tmplKey? (o : Obj) : Option (Option Addr) := o.tmpl?.map TemplateObj.name

end Obj

namespace Mem

/-- `HASH_FIND`: the element with the given key. -/
def hashFind (key : Obj → Option (Option Addr)) (m : Mem) (name : Str) :
    List Addr → Res (Option Addr)
  | [] => .ok none
  | p :: ps => do
    let k ← m.get key p
    let s ← m.getAt Obj.str? k
    if s = name then .ok (some p) else hashFind key m name ps

/-! ## Tables of strings -/

/-- maps.c:89-141 `insert_into_decl_map`, 156-170 `insert_into_mods_map`, 188-202
`insert_into_mod_layers_map`, 219-234 `insert_into_ifs_map`: a new element with copies of both
strings, unless the name is there. -/
def insertStr (m : Mem) (t : Tables) (i : StrTable) (name val : Str) : Res (Mem × Tables) := do
  match ← m.hashFind Obj.hashKey? name (t.str i) with
  | some _ => .ok (m, t)
  | none =>
    let (k, m) := m.malloc (.bytes name)
    let (v, m) := m.malloc (.bytes val)
    let (p, m) := m.malloc (.hash ⟨some k, some v⟩)
    .ok (m, t.addStr i p)

/-- maps.c:143-153 `look_up_in_decl_map`, 173-185 `look_up_in_mods_map`, 205-216
`look_up_in_mod_layers_map`, 236-248 `look_up_in_ifs_map`. The caller gets the string, which
stays the table's. -/
def lookUpStr (m : Mem) (t : Tables) (i : StrTable) (name : Str) : Res (Option Str) := do
  match ← m.hashFind Obj.hashKey? name (t.str i) with
  | none => .ok none
  | some p =>
    let e ← m.get Obj.hash? p
    let v ← m.getAt Obj.str? e.val
    .ok (some v)

/-- maps.c:250-272 `decl_map_count`. -/
def declMapCount (t : Tables) (fl : DeclFlavor) : Nat := (t.str (declStrTable fl)).length

/-! ## Tables of marks -/

/-- maps.c:275-290 `mark_transform_if`, 305-320 `mark_filetrans_if`, 335-350 `mark_role_if`. -/
def markFlag (m : Mem) (t : Tables) (i : FlagTable) (name : Str) : Res (Mem × Tables) := do
  match ← m.hashFind Obj.flagKey? name (t.flag i) with
  | some p =>
    let e ← m.get Obj.flag? p
    let m ← m.write p (.flag { e with val := 1 })
    .ok (m, t)
  | none =>
    let (k, m) := m.malloc (.bytes name)
    let (p, m) := m.malloc (.flag ⟨some k, 1⟩)
    .ok (m, t.addFlag i p)

/-- maps.c:293-302 `is_transform_if`, 323-332 `is_filetrans_if`, 353-362 `is_role_if`. -/
def isFlagged (m : Mem) (t : Tables) (i : FlagTable) (name : Str) : Res Bool := do
  match ← m.hashFind Obj.flagKey? name (t.flag i) with
  | none => .ok false
  | some p =>
    let e ← m.get Obj.flag? p
    .ok (decide (e.val = 1))

/-! ## Permission macros -/

/-- maps.c:488-502 `insert_into_permmacros_map`: the list becomes the table's, unless the name
is there. -/
def insertPermmacro (m : Mem) (t : Tables) (name : Str) (permissions : Option Addr) :
    Res (Mem × Tables) := do
  match ← m.hashFind Obj.slHashKey? name t.permmacros with
  | some _ => .ok (m, t)
  | none =>
    let (k, m) := m.malloc (.bytes name)
    let (p, m) := m.malloc (.slHash ⟨some k, permissions⟩)
    .ok (m, { t with permmacros := t.permmacros ++ [p] })

/-- maps.c:505-517 `look_up_in_permmacros_map`. -/
def lookUpPermmacro (m : Mem) (t : Tables) (name : Str) : Res (Option Addr) := do
  match ← m.hashFind Obj.slHashKey? name t.permmacros with
  | none => .ok none
  | some p =>
    let e ← m.get Obj.slHash? p
    .ok e.val

/-! ## Templates -/

/-- `while (cur->next) cur = cur->next;` (maps.c:368-370, 381-383). -/
def lastListCell : Nat → Mem → Addr → Res Addr
  | 0, _, _ => .ub
  | fuel + 1, m, cur => do
    let c ← m.get Obj.cell? cur
    match c.next with
    | none => .ok cur
    | some n => lastListCell fuel m n

/-- `cur->next = new_node` at the end of a list. -/
def appendListCell (m : Mem) (head new : Addr) : Res Mem := do
  let last ← lastListCell m.top m head
  let c ← m.get Obj.cell? last
  m.write last (.cell { c with next := some new })

/-- maps.c:364-375 `insert_decl`. -/
def insertDeclCell (m : Mem) (template new : Addr) : Res Mem := do
  let e ← m.get Obj.tmpl? template
  match e.declarations with
  | some head => m.appendListCell head new
  | none => m.write template (.tmpl { e with declarations := some new })

/-- maps.c:377-388 `insert_call`. -/
def insertCallCell (m : Mem) (template new : Addr) : Res Mem := do
  let e ← m.get Obj.tmpl? template
  match e.calls with
  | some head => m.appendListCell head new
  | none => m.write template (.tmpl { e with calls := some new })

/-- maps.c:397-418 `insert_into_template_map` before the insertion function is called. -/
def templateElem (m : Mem) (t : Tables) (name : Str) : Res (Addr × Mem × Tables) := do
  match ← m.hashFind Obj.tmplKey? name t.template with
  | some p => .ok (p, m, t)
  | none =>
    let (k, m) := m.malloc (.bytes name)
    let (p, m) := m.malloc (.tmpl ⟨some k, none, none⟩)
    .ok (p, m, { t with template := t.template ++ [p] })

/-- maps.c:420-423 `insert_template_into_template_map`. -/
def insertTemplate (m : Mem) (t : Tables) (name : Str) : Res (Mem × Tables) := do
  let (_, m, t) ← m.templateElem t name
  .ok (m, t)

/-- maps.c:425-441 `insert_decl_into_template_map`. -/
def insertTemplateDecl (m : Mem) (t : Tables) (name : Str) (fl : DeclFlavor) (declaration : Str) :
    Res (Mem × Tables) := do
  let (d, m) := m.malloc (.bytes declaration)
  let (data, m) := m.malloc (.decl ⟨fl, some d, none⟩)
  let (new, m) := m.malloc (.cell ⟨some data, none⟩)
  let (p, m, t) ← m.templateElem t name
  let m ← m.insertDeclCell p new
  .ok (m, t)

/-- maps.c:443-452 `insert_call_into_template_map`: the call stays the tree's. -/
def insertTemplateCall (m : Mem) (t : Tables) (name : Str) (call : Addr) : Res (Mem × Tables) := do
  let (new, m) := m.malloc (.cell ⟨some call, none⟩)
  let (p, m, t) ← m.templateElem t name
  let m ← m.insertCallCell p new
  .ok (m, t)

/-- maps.c:455-463 `look_up_in_template_map`. -/
def lookUpTemplate (m : Mem) (t : Tables) (name : Str) : Res (Option Addr) :=
  m.hashFind Obj.tmplKey? name t.template

/-- maps.c:465-474 `look_up_decl_in_template_map`. -/
def lookUpTemplateDecls (m : Mem) (t : Tables) (name : Str) : Res (Option Addr) := do
  match ← m.lookUpTemplate t name with
  | none => .ok none
  | some p => do .ok (← m.get Obj.tmpl? p).declarations

/-- maps.c:476-485 `look_up_call_in_template_map`. -/
def lookUpTemplateCalls (m : Mem) (t : Tables) (name : Str) : Res (Option Addr) := do
  match ← m.lookUpTemplate t name with
  | none => .ok none
  | some p => do .ok (← m.get Obj.tmpl? p).calls

/-! ## Freeing -/

/-- `HASH_ITER` with `HASH_DELETE`: something is done with each element. -/
def forEach (body : Addr → Mem → Res Mem) : List Addr → Mem → Res Mem
  | [], m => .ok m
  | p :: ps, m => do
    let m ← body p m
    forEach body ps m

/-- maps.c:533-538, the body of `FREE_MAP`. -/
def freeHash (p : Addr) (m : Mem) : Res Mem := do
  let e ← m.get Obj.hash? p
  let m ← m.free e.key
  let m ← m.free e.val
  m.free (some p)

/-- maps.c:540-544, the body of `FREE_BOOL_MAP`. -/
def freeFlag (p : Addr) (m : Mem) : Res Mem := do
  let e ← m.get Obj.flag? p
  let m ← m.free e.key
  m.free (some p)

/-- maps.c:582-587. -/
def freeSlHash (p : Addr) (m : Mem) : Res Mem := do
  let e ← m.get Obj.slHash? p
  let m ← m.free e.key
  let m ← freeStringList m.top m e.val
  m.free (some p)

/-- maps.c:591-598. -/
def freeTemplate (p : Addr) (m : Mem) : Res Mem := do
  let e ← m.get Obj.tmpl? p
  let m ← m.free e.name
  let m ← freeDeclList m.top m e.declarations
  let m ← freeIfCallList m.top m e.calls
  m.free (some p)

/-- maps.c:546-599 `free_all_maps`. -/
def freeAllMaps (m : Mem) (t : Tables) : Res (Mem × Tables) := do
  let m ← forEach freeHash (t.str .type) m
  let m ← forEach freeHash (t.str .role) m
  let m ← forEach freeHash (t.str .user) m
  let m ← forEach freeHash (t.str .attrType) m
  let m ← forEach freeHash (t.str .attrRole) m
  let m ← forEach freeHash (t.str .bool) m
  let m ← forEach freeHash (t.str .cls) m
  let m ← forEach freeHash (t.str .perm) m
  let m ← forEach freeHash (t.str .mods) m
  let m ← forEach freeHash (t.str .modLayers) m
  let m ← forEach freeHash (t.str .ifs) m
  let m ← forEach freeFlag (t.flag .transform) m
  let m ← forEach freeFlag (t.flag .filetrans) m
  let m ← forEach freeFlag (t.flag .roleIf) m
  let m ← forEach freeSlHash t.permmacros m
  let m ← forEach freeTemplate t.template m
  .ok (m, .empty)

end Mem

/-- The calls of functions of maps.c that change the tables. A list of permissions is made by the
caller and handed over. -/
inductive TableOp where
  | decl (name mod : Str) (fl : DeclFlavor)
  | modStatus (name status : Str)
  | modLayer (name layer : Str)
  | iface (name mod : Str)
  | transform (name : Str)
  | filetrans (name : Str)
  | roleIf (name : Str)
  | template (name : Str)
  | templateDecl (name : Str) (fl : DeclFlavor) (d : Str)
  | templateCall (name : Str) (call : Addr)
  | permmacro (name : Str) (perms : List Str)

/-- One call. -/
def TableOp.run (m : Mem) (t : Tables) : TableOp → Res (Mem × Tables)
  | .decl name mod fl => m.insertStr t (declStrTable fl) name mod
  | .modStatus name status => m.insertStr t .mods name status
  | .modLayer name layer => m.insertStr t .modLayers name layer
  | .iface name mod => m.insertStr t .ifs name mod
  | .transform name => m.markFlag t .transform name
  | .filetrans name => m.markFlag t .filetrans name
  | .roleIf name => m.markFlag t .roleIf name
  | .template name => m.insertTemplate t name
  | .templateDecl name fl d => m.insertTemplateDecl t name fl d
  | .templateCall name call => m.insertTemplateCall t name call
  | .permmacro name perms => do
    let (p, m) ← Mem.slFromStrs (m.top + 2 * perms.length) m none perms
    m.insertPermmacro t name p

/-- One call after the other. -/
def runTableOps : List TableOp → Mem → Tables → Res (Mem × Tables)
  | [], m, t => .ok (m, t)
  | op :: ops, m, t => do
    let (m, t) ← op.run m t
    runTableOps ops m t

end Selint
