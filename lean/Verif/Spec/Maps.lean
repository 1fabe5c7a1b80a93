import Verif.Model.Maps
/-! # Specification of the symbol tables

The tables are described by the history of insertions, oldest first. -/

namespace Selint.Spec

/-- An insertion into a symbol table (the inserting functions of maps.h). -/
inductive MapOp where
  | decl (name mod : Str) (fl : DeclFlavor)
  | mod (name status : Str)
  | layer (name layer : Str)
  | iface (name mod : Str)
  | transform (name : Str)
  | filetrans (name : Str)
  | role (name : Str)
  | template (name : Str)
  | templateDecl (name : Str) (fl : DeclFlavor) (d : Str)
  | templateCall (name : Str) (c : IfCallData)
  | permmacro (name : Str) (perms : List Str)

/-- Performing an insertion. -/
def MapOp.apply (m : Maps) : MapOp → Maps
  | .decl n md fl => m.insertDecl n md fl
  | .mod n s => m.insertMod n s
  | .layer n l => m.insertModLayer n l
  | .iface n md => m.insertIf n md
  | .transform n => m.markTransform n
  | .filetrans n => m.markFiletrans n
  | .role n => m.markRole n
  | .template n => m.insertTemplate n
  | .templateDecl n fl d => m.insertTemplateDecl n fl d
  | .templateCall n c => m.insertTemplateCall n c
  | .permmacro n p => m.insertPermmacro n p

/-- The tables after a history. -/
def tablesAfter (ops : List MapOp) : Maps := ops.foldl MapOp.apply {}

/-- Module given by an insertion for symbol `k` of class `fl`. -/
def MapOp.declares (k : Str) (fl : DeclFlavor) : MapOp → Option Str
  | .decl n md g => if n = k ∧ g = fl then some md else none
  | _ => none
/-- Status given by an insertion for module `k`. -/
def MapOp.setsMod (k : Str) : MapOp → Option Str
  | .mod n s => if n = k then some s else none
  | _ => none
/-- Layer given by an insertion for module `k`. -/
def MapOp.setsLayer (k : Str) : MapOp → Option Str
  | .layer n s => if n = k then some s else none
  | _ => none
/-- Module given by an insertion for interface `k`. -/
def MapOp.definesIf (k : Str) : MapOp → Option Str
  | .iface n s => if n = k then some s else none
  | _ => none
/-- Permissions given by an insertion for permission macro `k`. -/
def MapOp.definesPermmacro (k : Str) : MapOp → Option (List Str)
  | .permmacro n s => if n = k then some s else none
  | _ => none
/-- Does the insertion mention template `k`? -/
def MapOp.mentionsTemplate (k : Str) : MapOp → Bool
  | .template n => decide (n = k)
  | .templateDecl n _ _ => decide (n = k)
  | .templateCall n _ => decide (n = k)
  | _ => false
/-- Declaration added to template `k`. -/
def MapOp.addsDecl (k : Str) : MapOp → Option (DeclFlavor × Str)
  | .templateDecl n fl d => if n = k then some (fl, d) else none
  | _ => none
/-- Call added to template `k`. -/
def MapOp.addsCall (k : Str) : MapOp → Option IfCallData
  | .templateCall n c => if n = k then some c else none
  | _ => none

end Selint.Spec
