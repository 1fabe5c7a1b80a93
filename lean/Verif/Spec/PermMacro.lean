import Verif.Model.Maps
/-! # Specification: permission sets, macros and suggestions

Everything here is about permission names; bits appear only in `permBit`. -/

namespace Selint.Spec
open Selint

/-- The file permissions SELint knows: name, number of the bit used for it, and the
permissions that may reasonably be granted along with it. -/
def coveredPerms : List (Str × Nat × List Str) :=
  [ (cs!"ioctl", 1, []),
    (cs!"read", 2, [cs!"ioctl", cs!"getattr", cs!"search", cs!"lock"]),
    (cs!"write", 3, [cs!"ioctl", cs!"getattr", cs!"append", cs!"lock"]),
    (cs!"create", 4, [cs!"getattr", cs!"link"]),
    (cs!"getattr", 5, []),
    (cs!"setattr", 6, [cs!"getattr"]),
    (cs!"lock", 7, [cs!"getattr"]),
    (cs!"relabelfrom", 8, [cs!"getattr"]),
    (cs!"relabelto", 9, [cs!"getattr"]),
    (cs!"append", 10, [cs!"getattr"]),
    (cs!"map", 11, [cs!"ioctl", cs!"getattr"]),
    (cs!"unlink", 12, [cs!"getattr", cs!"rmdir"]),
    (cs!"link", 13, [cs!"getattr"]),
    (cs!"rename", 14, [cs!"getattr"]),
    (cs!"execute", 15, [cs!"read", cs!"getattr", cs!"map"]),
    (cs!"mounton", 16, [cs!"getattr"]),
    (cs!"open", 17, [cs!"getattr"]),
    (cs!"watch", 18, [cs!"read"]),
    (cs!"add_name", 19, [cs!"write", cs!"ioctl", cs!"getattr", cs!"append", cs!"lock"]),
    (cs!"remove_name", 20, [cs!"write", cs!"ioctl", cs!"getattr", cs!"append", cs!"lock"]),
    (cs!"reparent", 21, [cs!"getattr"]),
    (cs!"search", 23, [cs!"getattr"]),
    (cs!"rmdir", 24, [cs!"unlink", cs!"getattr"]),
    (cs!"execute_no_trans", 25, [cs!"execute", cs!"read", cs!"getattr", cs!"map"]),
    (cs!"entrypoint", 26, []) ]

/-- The names of these permissions. -/
def coveredNames : List Str := coveredPerms.map (·.1)

/-- Permissions that no macro covers. -/
def uncoveredNames : List Str :=
  [cs!"quotaon", cs!"audit_access", cs!"execmod", cs!"watch_mount", cs!"watch_sb",
   cs!"watch_with_perm", cs!"watch_reads"]

/-- The bit of a permission; every uncovered or unknown one has bit 31. -/
def permBit (p : Str) : Nat :=
  match coveredPerms.find? (·.1 == p) with
  | some e => e.2.1
  | none => 31

/-- The permission itself and those that may be granted along with it. -/
def extensions (p : Str) : List Str :=
  match coveredPerms.find? (·.1 == p) with
  | some e => p :: e.2.2
  | none => [p]

/-- `p` is the name of a permission (and so never read as the name of a macro). -/
def IsPermName (p : Str) : Prop := p ∈ coveredNames ∨ p ∈ uncoveredNames

/-- The entry `p` is read as a macro and `q` is an entry of its definition. -/
def MacroStep (m : Maps) (p q : Str) : Prop :=
  ¬IsPermName p ∧ ∃ ps, m.lookUpPermmacro p = some ps ∧ q ∈ ps

/-- `q` is reached from `p` by expanding macros any number of times. -/
inductive Reaches (m : Maps) : Str → Str → Prop where
  | refl (p : Str) : Reaches m p p
  | step {p q r : Str} : MacroStep m p q → Reaches m q r → Reaches m p r

/-- `c` is on a circular macro definition. -/
def OnCycle (m : Maps) (c : Str) : Prop := ∃ d, MacroStep m c d ∧ Reaches m d c

/-- Expanding the entry `p` completely yields (among others) the permission `q`. -/
inductive Grants (m : Maps) : Str → Str → Prop where
  | self {p : Str} : (IsPermName p ∨ m.lookUpPermmacro p = none) → Grants m p p
  | expand {p p' q : Str} : MacroStep m p p' → Grants m p' q → Grants m p q

/-- A permission list grants the permission `q`. -/
def Granted (m : Maps) (ps : List Str) (q : Str) : Prop := ∃ p ∈ ps, Grants m p q

/-- The object class for which a macro is meant, by its name. -/
def ForClass (name cls : Str) : Prop :=
  (cls = cs!"dir" ∧ cs!"_dir_perms" <:+ name) ∨
  (cls = cs!"lnk_file" ∧ cs!"_lnk_file_perms" <:+ name) ∨
  (cls = cs!"chr_file" ∧ (cs!"_chr_file_perms" <:+ name ∨ cs!"_term_perms" <:+ name)) ∨
  (cls = cs!"blk_file" ∧ cs!"_blk_file_perms" <:+ name) ∨
  (cls = cs!"sock_file" ∧ cs!"_sock_file_perms" <:+ name) ∨
  (cls = cs!"fifo_file" ∧ cs!"_fifo_file_perms" <:+ name) ∨
  (cls = cs!"file" ∧ cs!"_file_perms" <:+ name ∧ ¬cs!"_lnk_file_perms" <:+ name ∧
    ¬cs!"_chr_file_perms" <:+ name ∧ ¬cs!"_blk_file_perms" <:+ name ∧
    ¬cs!"_sock_file_perms" <:+ name ∧ ¬cs!"_fifo_file_perms" <:+ name)

/-- A permission that a rule granting `ps` has or may reasonably have as well. -/
def Reasonable (m : Maps) (ps : List Str) (q : Str) : Prop :=
  (∃ g, Granted m ps g ∧ q ∈ extensions g) ∨
  (q ∈ [cs!"setattr", cs!"getattr"] ∧
    ∃ g ∈ [cs!"create", cs!"write", cs!"add_name", cs!"remove_name"], Granted m ps g) ∨
  (q ∈ [cs!"rename", cs!"getattr", cs!"reparent"] ∧
    ∃ g ∈ [cs!"create", cs!"unlink", cs!"rmdir"], Granted m ps g)

open Classical in
/-- The known permissions with some property, in the order of the table. -/
noncomputable def namesWith (P : Str → Prop) : List Str := coveredNames.filter fun q => decide (P q)

/-- The permissions of the rule that the macro definition `d` covers. -/
noncomputable def covered (m : Maps) (ps d : List Str) : List Str :=
  namesWith fun q => Granted m d q ∧ Granted m ps q

/-- The permissions the macro definition `d` would add to the rule. -/
noncomputable def added (m : Maps) (ps d : List Str) : List Str :=
  namesWith fun q => Granted m d q ∧ ¬Granted m ps q

open Classical in
/-- The entries of the rule that the macro definition `d` makes superfluous. -/
noncomputable def replaced (m : Maps) (ps d : List Str) : List Str :=
  ps.filter fun p => decide (∀ q, Grants m p q → Granted m d q)

/-- A macro (name and definition) that may be suggested for a rule. -/
structure Eligible (m : Maps) (cls : Str) (ps : List Str) (e : Str × List Str) : Prop where
  known : e ∈ m.permmacros
  forClass : ForClass e.1 cls
  onlyCovered : ∀ q, Granted m e.2 q → q ∈ coveredNames
  reasonable : ∀ q, Granted m e.2 q → Reasonable m ps q
  covers : 2 ≤ (covered m ps e.2).length
  replaces : 2 ≤ (replaced m ps e.2).length

/-- An eligible macro such that no other one covers more, and none that covers as much adds
less. -/
def IsBest (m : Maps) (cls : Str) (ps : List Str) (e : Str × List Str) : Prop :=
  Eligible m cls ps e ∧ ∀ e', Eligible m cls ps e' →
    (covered m ps e'.2).length < (covered m ps e.2).length ∨
    ((covered m ps e'.2).length = (covered m ps e.2).length ∧
      (added m ps e.2).length ≤ (added m ps e'.2).length)

/-- The macro that is considered for a suggestion: of the best ones, the one defined last. -/
def Chosen (m : Maps) (cls : Str) (ps : List Str) (e : Str × List Str) : Prop :=
  ∃ pre post, m.permmacros = pre ++ e :: post ∧ IsBest m cls ps e ∧
    ∀ e' ∈ post, ¬IsBest m cls ps e'

/-- `{ a b c }` -/
def braced (l : List Str) : Str := cs!"{ " ++ (l.map (· ++ cs!" ")).flatten ++ cs!"}"

/-- `{ a b c }`, or `(none)`. -/
def bracedOrNone (l : List Str) : Str := if l = [] then cs!"(none)" else braced l

/-- The text of a suggestion. -/
noncomputable def suggestion (m : Maps) (ps : List Str) (e : Str × List Str) : Str :=
  cs!"Suggesting permission macro: " ++ e.1 ++ cs!" (replacing " ++ braced (replaced m ps e.2) ++
    cs!", would add " ++ bracedOrNone (added m ps e.2) ++ cs!")"

/-- The number of set bits. -/
def bitCount (mask : BitVec 32) : Nat := ((List.range 32).filter (mask.getLsbD ·)).length

end Selint.Spec
