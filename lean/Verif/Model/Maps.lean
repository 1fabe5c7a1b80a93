import Verif.Model.Tree
/-!
# Symbol tables (maps.c)

Each uthash table is an association list in insertion order. uthash itself is trusted:
`HASH_FIND` finds the element with the given key, `HASH_ADD_KEYPTR` appends one,
`HASH_CNT` is the number of elements, `HASH_ITER` goes in insertion order.
-/

namespace Selint

/-- A uthash table with string keys. -/
abbrev Assoc (β : Type) := List (Str × β)

namespace Assoc

/-- `HASH_FIND`. -/
def find {β : Type} (m : Assoc β) (k : Str) : Option β :=
  match m with
  | [] => none
  | (k', v) :: m' => if k' = k then some v else find m' k

/-- `HASH_FIND` followed by `HASH_ADD_KEYPTR` if absent. -/
def insertNew {β : Type} (m : Assoc β) (k : Str) (v : β) : Assoc β :=
  match find m k with
  | some _ => m
  | none => m ++ [(k, v)]

/-- Update the element with key `k` in place. -/
def modify {β : Type} (m : Assoc β) (k : Str) (f : β → β) : Assoc β :=
  match m with
  | [] => []
  | (k', v) :: m' => if k' = k then (k', f v) :: m' else (k', v) :: modify m' k f

end Assoc

/-- maps.h:45-50 `struct template_hash_elem`. Simplification: of the `declaration_data`
only flavor and name are kept (maps.c:434 stores NULL attributes). -/
structure TemplateElem where
  declarations : List (DeclFlavor × Str)
  calls : List IfCallData
  deriving DecidableEq, Repr

/-- maps.c:26-45: the static tables. The boolean tables only ever hold the value 1, so
they are modelled as the list of their keys. -/
structure Maps where
  type : Assoc Str := []
  role : Assoc Str := []
  user : Assoc Str := []
  attrType : Assoc Str := []
  attrRole : Assoc Str := []
  bool : Assoc Str := []
  cls : Assoc Str := []
  perm : Assoc Str := []
  mods : Assoc Str := []
  modLayers : Assoc Str := []
  ifs : Assoc Str := []
  transform : List Str := []
  filetrans : List Str := []
  roleIf : List Str := []
  permmacros : Assoc (List Str) := []
  template : Assoc TemplateElem := []
  deriving DecidableEq, Repr

namespace Maps

/-- The table a declaration flavor selects (the `switch` of maps.c:47-86). -/
def declTable (m : Maps) : DeclFlavor → Assoc Str
  | .type => m.type
  | .role => m.role
  | .user => m.user
  | .attribute => m.attrType
  | .attributeRole => m.attrRole
  | .bool => m.bool
  | .cls => m.cls
  | .perm => m.perm

/-- maps.c:89-141 `insert_into_decl_map`. -/
def insertDecl (m : Maps) (name mod : Str) (fl : DeclFlavor) : Maps :=
  match (m.declTable fl).find name with
  | some _ => m
  | none =>
    match fl with
    | .type => { m with type := m.type ++ [(name, mod)] }
    | .role => { m with role := m.role ++ [(name, mod)] }
    | .user => { m with user := m.user ++ [(name, mod)] }
    | .attribute => { m with attrType := m.attrType ++ [(name, mod)] }
    | .attributeRole => { m with attrRole := m.attrRole ++ [(name, mod)] }
    | .bool => { m with bool := m.bool ++ [(name, mod)] }
    | .cls => { m with cls := m.cls ++ [(name, mod)] }
    | .perm => { m with perm := m.perm ++ [(name, mod)] }

/-- maps.c:143-153 `look_up_in_decl_map`. -/
def lookUpDecl (m : Maps) (name : Str) (fl : DeclFlavor) : Option Str :=
  (m.declTable fl).find name

/-- maps.c:250-272 `decl_map_count`. -/
def declCount (m : Maps) (fl : DeclFlavor) : Nat := (m.declTable fl).length

/-- maps.c:156-170 `insert_into_mods_map`. -/
def insertMod (m : Maps) (name status : Str) : Maps := { m with mods := m.mods.insertNew name status }

/-- maps.c:172-185 `look_up_in_mods_map`. -/
def lookUpMod (m : Maps) (name : Str) : Option Str := m.mods.find name

/-- maps.c:188-202 `insert_into_mod_layers_map`. -/
def insertModLayer (m : Maps) (name layer : Str) : Maps :=
  { m with modLayers := m.modLayers.insertNew name layer }

/-- maps.c:204-216 `look_up_in_mod_layers_map`. -/
def lookUpModLayer (m : Maps) (name : Str) : Option Str := m.modLayers.find name

/-- maps.c:219-234 `insert_into_ifs_map`. -/
def insertIf (m : Maps) (name mod : Str) : Maps := { m with ifs := m.ifs.insertNew name mod }

/-- maps.c:236-248 `look_up_in_ifs_map`. -/
def lookUpIf (m : Maps) (name : Str) : Option Str := m.ifs.find name

/-- maps.c:275-290 `mark_transform_if`. -/
def markTransform (m : Maps) (name : Str) : Maps :=
  if name ∈ m.transform then m else { m with transform := m.transform ++ [name] }

/-- maps.c:292-302 `is_transform_if`. -/
def isTransform (m : Maps) (name : Str) : Bool := decide (name ∈ m.transform)

/-- maps.c:305-320 `mark_filetrans_if`. -/
def markFiletrans (m : Maps) (name : Str) : Maps :=
  if name ∈ m.filetrans then m else { m with filetrans := m.filetrans ++ [name] }

/-- maps.c:322-332 `is_filetrans_if`. -/
def isFiletrans (m : Maps) (name : Str) : Bool := decide (name ∈ m.filetrans)

/-- maps.c:335-350 `mark_role_if`. -/
def markRole (m : Maps) (name : Str) : Maps :=
  if name ∈ m.roleIf then m else { m with roleIf := m.roleIf ++ [name] }

/-- maps.c:352-362 `is_role_if`. -/
def isRole (m : Maps) (name : Str) : Bool := decide (name ∈ m.roleIf)

/-- maps.c:397-418 `insert_into_template_map`: create the element if absent, then apply
the insertion function to it. -/
def updTemplate (m : Maps) (name : Str) (f : TemplateElem → TemplateElem) : Maps :=
  { m with template := (m.template.insertNew name ⟨[], []⟩).modify name f }

/-- maps.c:420-423 `insert_template_into_template_map`. -/
def insertTemplate (m : Maps) (name : Str) : Maps := m.updTemplate name id

/-- maps.c:425-441 `insert_decl_into_template_map` (with `insert_decl`, 364-375). -/
def insertTemplateDecl (m : Maps) (name : Str) (fl : DeclFlavor) (d : Str) : Maps :=
  m.updTemplate name fun t => { t with declarations := t.declarations ++ [(fl, d)] }

/-- maps.c:443-452 `insert_call_into_template_map` (with `insert_call`, 377-388). -/
def insertTemplateCall (m : Maps) (name : Str) (c : IfCallData) : Maps :=
  m.updTemplate name fun t => { t with calls := t.calls ++ [c] }

/-- maps.c:454-463 `look_up_in_template_map`. -/
def lookUpTemplate (m : Maps) (name : Str) : Option TemplateElem := m.template.find name

/-- maps.c:465-474 `look_up_decl_in_template_map` (NULL is the empty list). -/
def templateDecls (m : Maps) (name : Str) : List (DeclFlavor × Str) :=
  match m.lookUpTemplate name with
  | some t => t.declarations
  | none => []

/-- maps.c:476-485 `look_up_call_in_template_map`. -/
def templateCalls (m : Maps) (name : Str) : List IfCallData :=
  match m.lookUpTemplate name with
  | some t => t.calls
  | none => []

/-- maps.c:488-502 `insert_into_permmacros_map`. -/
def insertPermmacro (m : Maps) (name : Str) (perms : List Str) : Maps :=
  { m with permmacros := m.permmacros.insertNew name perms }

/-- maps.c:504-517 `look_up_in_permmacros_map`; a macro stored with an empty (NULL) list is
reported as absent. -/
def lookUpPermmacro (m : Maps) (name : Str) : Option (List Str) :=
  match m.permmacros.find name with
  | some (p :: ps) => some (p :: ps)
  | _ => none

/-- maps.c:528-531 `permmacros_map_count`. -/
def permmacrosCount (m : Maps) : Nat := m.permmacros.length

end Maps

/-- tree.c:93-109 `is_template_call`. -/
def isTemplateCall (m : Maps) (n : NodeInfo) : Bool :=
  match n.data with
  | .ifCall d => (m.lookUpTemplate d.name).isSome
  | _ => false

end Selint
