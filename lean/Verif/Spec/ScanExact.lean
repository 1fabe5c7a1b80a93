import Verif.Spec.ScanText
/-!
# What the scan comes across, whatever directories are called
-/

namespace Selint
namespace Spec

/-- A directory is left out: it is not named like a policy or support file, and directories are not searched, or it
is hidden and hidden directories are not searched. -/
def LeftOut (recursive scanHidden source : Bool) (path name : Str) : Prop :=
  PlainDir source path name ∧ (recursive = false ∨ (Hidden name ∧ scanHidden = false))

instance (r h s : Bool) (p n : Str) : Decidable (LeftOut r h s p n) := by unfold LeftOut; infer_instance

mutual
/-- The paths and names the scan comes across, in order: a directory before what is in it and again after it. -/
def crossed (recursive scanHidden source : Bool) (path name : Str) : Fs → List (Str × Str)
  | .file => [(path, name)]
  | .dir es => [(path, name)] ++
      (if LeftOut recursive scanHidden source path name then [] else crossedIn recursive scanHidden source path es) ++
      [(path, name)]
/-- The same for the entries of a directory. -/
def crossedIn (recursive scanHidden source : Bool) (dirPath : Str) : FsList → List (Str × Str)
  | .nil => []
  | .cons n fs rest => crossed recursive scanHidden source (joinPath dirPath n) n fs ++
      crossedIn recursive scanHidden source dirPath rest
end

/-- The paths with a suffix. -/
def withSuffix (suf : Str) (l : List (Str × Str)) : List Str :=
  (l.filter fun p => decide (HasSuffix suf p.1)).map (·.1)

/-- The last path that is called `name` and has no policy suffix. -/
def lastCalled (name : Str) (l : List (Str × Str)) : Option Str :=
  ((l.filter fun p => decide (p.2 = name ∧ ∀ suf ∈ [cs!".te", cs!".if", cs!".fc"], ¬ HasSuffix suf p.1)).map (·.1)).getLast?

end Spec
end Selint
