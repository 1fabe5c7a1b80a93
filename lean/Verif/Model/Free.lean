import Verif.Model.StringList
/-!
# Giving memory back (tree.c, file_list.c)

The first argument bounds every loop and recursion; one that does not end within the bound
is `ub`. The functions that return `SELINT_BAD_ARG` for NULL have no other effect then, and
every caller ignores the result, so the result is left out.
-/

namespace Selint

namespace Mem

/-- tree.c:425-437 `free_header_data`. -/
def freeHeaderData (m : Mem) : Option Addr → Res Mem
  | none => .ok m
  | some p => do
    let d ← m.get Obj.header? p
    let m ← m.free d.moduleName
    m.free (some p)

/-- tree.c:439-454 `free_av_rule_data`. -/
def freeAvRuleData (fuel : Nat) (m : Mem) : Option Addr → Res Mem
  | none => .ok m
  | some p => do
    let d ← m.get Obj.av? p
    let m ← freeStringList fuel m d.sources
    let m ← freeStringList fuel m d.targets
    let m ← freeStringList fuel m d.objectClasses
    let m ← freeStringList fuel m d.perms
    m.free (some p)

/-- tree.c:456-472 `free_xav_rule_data`. -/
def freeXavRuleData (fuel : Nat) (m : Mem) : Option Addr → Res Mem
  | none => .ok m
  | some p => do
    let d ← m.get Obj.xav? p
    let m ← freeStringList fuel m d.av.sources
    let m ← freeStringList fuel m d.av.targets
    let m ← freeStringList fuel m d.av.objectClasses
    let m ← m.free d.operation
    let m ← freeStringList fuel m d.av.perms
    m.free (some p)

/-- tree.c:474-486 `free_ra_data`. -/
def freeRaData (fuel : Nat) (m : Mem) : Option Addr → Res Mem
  | none => .ok m
  | some p => do
    let d ← m.get Obj.ra? p
    let m ← freeStringList fuel m d.frm
    let m ← freeStringList fuel m d.to
    m.free (some p)

/-- tree.c:488-500 `free_rtyp_data`. -/
def freeRtypData (fuel : Nat) (m : Mem) : Option Addr → Res Mem
  | none => .ok m
  | some p => do
    let d ← m.get Obj.rtyp? p
    let m ← m.free d.role
    let m ← freeStringList fuel m d.types
    m.free (some p)

/-- tree.c:502-519 `free_type_transition_data`. -/
def freeTypeTransitionData (fuel : Nat) (m : Mem) : Option Addr → Res Mem
  | none => .ok m
  | some p => do
    let d ← m.get Obj.tt? p
    let m ← freeStringList fuel m d.sources
    let m ← freeStringList fuel m d.targets
    let m ← freeStringList fuel m d.objectClasses
    let m ← m.free d.defaultType
    let m ← m.free d.name
    m.free (some p)

/-- tree.c:521-536 `free_role_transition_data`. -/
def freeRoleTransitionData (fuel : Nat) (m : Mem) : Option Addr → Res Mem
  | none => .ok m
  | some p => do
    let d ← m.get Obj.rt? p
    let m ← freeStringList fuel m d.sources
    let m ← freeStringList fuel m d.targets
    let m ← freeStringList fuel m d.objectClasses
    let m ← m.free d.defaultRole
    m.free (some p)

/-- tree.c:538-551 `free_if_call_data`. -/
def freeIfCallData (fuel : Nat) (m : Mem) : Option Addr → Res Mem
  | none => .ok m
  | some p => do
    let d ← m.get Obj.call? p
    let m ← m.free d.name
    let m ← freeStringList fuel m d.args
    m.free (some p)

/-- tree.c:553-565 `free_declaration_data`. -/
def freeDeclarationData (fuel : Nat) (m : Mem) : Option Addr → Res Mem
  | none => .ok m
  | some p => do
    let d ← m.get Obj.decl? p
    let m ← freeStringList fuel m d.attrs
    let m ← m.free d.name
    m.free (some p)

/-- tree.c:567-577 `free_decl_list`. -/
def freeDeclList : Nat → Mem → Option Addr → Res Mem
  | _, m, none => .ok m
  | 0, _, some _ => .ub
  | fuel + 1, m, some p => do
    let c ← m.get Obj.cell? p
    let m ← freeDeclarationData fuel m c.elem
    let c ← m.get Obj.cell? p
    let m ← m.free (some p)
    freeDeclList fuel m c.next

/-- tree.c:580-589 `free_if_call_list`: the calls belong to someone else. -/
def freeIfCallList : Nat → Mem → Option Addr → Res Mem
  | _, m, none => .ok m
  | 0, _, some _ => .ub
  | fuel + 1, m, some p => do
    let c ← m.get Obj.cell? p
    let m ← m.free (some p)
    freeIfCallList fuel m c.next

/-- tree.c:602-617 `free_sel_context`: no check for NULL. -/
def freeSelContext (m : Mem) (p : Addr) : Res Mem := do
  let d ← m.get Obj.ctx? p
  let m ← m.free d.user
  let m ← m.free d.role
  let m ← m.free d.type
  let m ← m.free d.range
  m.free (some p)

/-- tree.c:596-598: `if (to_free->context) free_sel_context(to_free->context)`. -/
def freeContextIf (m : Mem) : Option Addr → Res Mem
  | none => .ok m
  | some c => freeSelContext m c

/-- tree.c:591-600 `free_fc_entry`: no check for NULL. -/
def freeFcEntry (m : Mem) : Option Addr → Res Mem
  | none => .ub
  | some p => do
    let d ← m.get Obj.fc? p
    let m ← m.free d.path
    let m ← freeContextIf m d.context
    m.free (some p)

/-- tree.c:619-628 `free_attribute_data`: no check for NULL. -/
def freeAttributeData (fuel : Nat) (m : Mem) : Option Addr → Res Mem
  | none => .ub
  | some p => do
    let d ← m.get Obj.attr? p
    let m ← m.free d.type
    let m ← freeStringList fuel m d.attrs
    m.free (some p)

/-- tree.c:364-402, the switch of `free_policy_node`; tree.c:630-633
`free_gen_require_data` is `free`. -/
def freeNodeData (fuel : Nat) (m : Mem) (flavor : NodeFlavor) (data : Option Addr) : Res Mem :=
  match flavor with
  | .header => freeHeaderData m data
  | .avRule => freeAvRuleData fuel m data
  | .xavRule => freeXavRuleData fuel m data
  | .roleAllow => freeRaData fuel m data
  | .roleTypes => freeRtypData fuel m data
  | .ttRule => freeTypeTransitionData fuel m data
  | .rtRule => freeRoleTransitionData fuel m data
  | .ifCall => freeIfCallData fuel m data
  | .decl => freeDeclarationData fuel m data
  | .fcEntry => freeFcEntry m data
  | .typeAttribute | .roleAttribute => freeAttributeData fuel m data
  | .genReq => m.free data
  | _ => m.free data

/-- tree.c:358-423 `free_policy_node`: the node, everything below it and everything after
it. The members that are set to NULL just before the node is freed are not written here. -/
def freePolicyNode : Nat → Mem → Option Addr → Res Mem
  | _, m, none => .ok m
  | 0, _, some _ => .ub
  | fuel + 1, m, some p => do
    let n ← m.get Obj.node? p
    let m ← freeNodeData fuel m n.flavor n.data
    let m ← m.free n.exceptions
    let m ← freePolicyNode fuel m n.firstChild
    let m ← freePolicyNode fuel m n.next
    m.free (some p)

/-- file_list.c:63-70, the loop of `free_file_list`. -/
def freeFileLoop : Nat → Mem → Option Addr → Res Mem
  | _, m, none => .ok m
  | 0, _, some _ => .ub
  | fuel + 1, m, some p => do
    let c ← m.get Obj.cell? p
    let f ← m.getAt Obj.file? c.elem
    let m ← m.free f.filename
    let m ← freePolicyNode fuel m f.ast
    let m ← m.free c.elem
    let m ← m.free (some p)
    freeFileLoop fuel m c.next

/-- file_list.c:59-72 `free_file_list`. -/
def freeFileList (fuel : Nat) (m : Mem) (toFree : Addr) : Res Mem := do
  let l ← m.get Obj.files? toFree
  let m ← freeFileLoop fuel m l.head
  m.free (some toFree)

/-- file_list.c:37-44 `make_policy_file`. -/
def makePolicyFile (m : Mem) (filename : Str) (ast : Option Addr) : Addr × Mem :=
  let (d, m) := m.malloc (.bytes filename)
  m.malloc (.file ⟨some d, ast⟩)

/-- file_list.c:22-35 `file_list_push_back`. -/
def fileListPushBack (m : Mem) (list file : Addr) : Res Mem := do
  let l ← m.get Obj.files? list
  match l.tail with
  | some t => do
    let c ← m.get Obj.cell? t
    let (q, m) := m.malloc (.cell ⟨some file, none⟩)
    let m ← m.write t (.cell { c with next := some q })
    m.write list (.files { l with tail := some q })
  | none => do
    let (q, m) := m.malloc (.cell ⟨some file, none⟩)
    m.write list (.files ⟨some q, some q⟩)

/-- file_list.c:46-57 `file_name_in_file_list`, the loop. -/
def fileNameLoop : Nat → Mem → Str → Option Addr → Res Bool
  | _, _, _, none => .ok false
  | 0, _, _, some _ => .ub
  | fuel + 1, m, filename, some p => do
    let c ← m.get Obj.cell? p
    match c.elem with
    | none => fileNameLoop fuel m filename c.next
    | some f => do
      let f ← m.get Obj.file? f
      let s ← m.getAt Obj.str? f.filename
      if strcmp filename s = 0 then .ok true else fileNameLoop fuel m filename c.next

/-- file_list.c:46-57 `file_name_in_file_list`. -/
def fileNameInFileList (fuel : Nat) (m : Mem) (filename : Str) (list : Addr) : Res Bool := do
  let l ← m.get Obj.files? list
  fileNameLoop fuel m filename l.head

end Mem

end Selint
