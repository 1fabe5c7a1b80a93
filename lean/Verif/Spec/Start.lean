import Verif.Model.Selint
import Verif.Spec.Tables
import Verif.Spec.Main
import Verif.Spec.ModulesConf
/-!
# Specification: what is known before the policy is read
-/

namespace Selint.Spec

/-- The users and roles that are assumed to exist: those in the lists of the configuration file in
effect or, without one, `system_u` and `object_r`. -/
def assumed (w : ConfigWorld) (o : Options) : List (DeclFlavor × Str) :=
  match effectiveConfig w o with
  | some f =>
    match w.contents f with
    | some cfg => cfg.assumeUsers.map (.user, ·) ++ cfg.assumeRoles.map (.role, ·)
    | none => []
  | none => [(.user, cs!"system_u"), (.role, cs!"object_r")]

/-- Somewhere below the directory with these entries is an entry with this name and content. -/
inductive Below : FsList → Str → Fs → Prop
  | here (n : Str) (fs : Fs) (rest : FsList) : Below (.cons n fs rest) n fs
  | there {n : Str} {fs : Fs} {rest : FsList} (m : Str) (fs' : Fs) (h : Below rest n fs) : Below (.cons m fs' rest) n fs
  | deeper {n : Str} {fs : Fs} {es : FsList} (m : Str) (rest : FsList) (h : Below es n fs) :
    Below (.cons m (.dir es) rest) n fs

/-- What the running kernel knows: a class is a directory below /sys/fs/selinux/class that is not
named `perms`, a permission is a file there that is not named `index`. (Should the path itself be
a file, it is a permission named `class`.) -/
def KernelHas : Option Fs → DeclFlavor → Str → Prop
  | some (.dir es), .cls, n => n ≠ cs!"perms" ∧ ∃ d, Below es n (.dir d)
  | some (.dir es), .perm, n => n ≠ cs!"index" ∧ Below es n .file
  | some .file, .perm, n => n = cs!"class"
  | _, _, _ => False

mutual
/-- What `fts` finds, in its order; a directory is found twice. -/
def ftsEntries (path name parent : Str) : Fs → List FtsEnt
  | .file => [⟨path, name, parent, .other⟩]
  | .dir es => ⟨path, name, parent, .d⟩ :: (ftsEntriesIn path name es ++ [⟨path, name, parent, .dp⟩])
/-- What `fts` finds below a directory. -/
def ftsEntriesIn (dirPath dirName : Str) : FsList → List FtsEnt
  | .nil => []
  | .cons n fs rest => ftsEntries (joinPath dirPath n) n dirName fs ++ ftsEntriesIn dirPath dirName rest
end

/-- An interface file is a module; its directory is the layer of the module. -/
def layerOp (e : FtsEnt) : MapOp := .layer (e.name.take (e.name.length - 3)) e.parentName

/-- The interface files among the entries. -/
def interfaceFiles (es : List FtsEnt) : List FtsEnt := es.filter fun e => decide (cs!".if" <:+ e.path ∧ 3 < e.path.length)

/-- The development headers that are installed. -/
def headers (w : Machine) : List FtsEnt :=
  match w.devel with
  | none => []
  | some fs => interfaceFiles (ftsEntries cs!"/usr/share/selinux/devel" cs!"devel" [] fs)

/-- The definitions of an access vector file, if it is one. -/
def avDefs : SourceFile → Option (List AvDef)
  | .av _ d ds => some ((some d :: ds).filterMap id)
  | .empty => some []
  | .comments _ _ => some []
  | _ => none

/-- The definitions of a file of permission sets, if it is one. -/
def sptDefs : SourceFile → Option (List SptDef)
  | .spt _ d ds => some ((some d :: ds).filterMap id)
  | .empty => some []
  | .comments _ _ => some []
  | _ => none

/-- The entries of a module configuration file in which every line is an entry or ignored. -/
def ConfSays (lines : List (Str × LineBytes)) (mods : List (Str × Str)) : Prop :=
  ∃ (said : List (Option (Str × Str))) (h : lines.length = said.length),
    (∀ i (hi : i < lines.length), ModLine (lines[i]).1 (said[i]'(h ▸ hi))) ∧ mods = said.filterMap id

end Selint.Spec
