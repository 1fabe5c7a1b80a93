import Verif.Spec.StartText
import Verif.Model.Selint
/-!
# What may be said about files
-/

namespace Selint
namespace Spec

instance (source : Bool) (path name : Str) : Decidable (PlainDir source path name) := by
  unfold PlainDir; infer_instance

/-- The note about something that is not a policy file. -/
def skipNote (color : Bool) (path : Str) : Str :=
  Label.note.shown color ++ cs!": Skipping " ++ path ++ cs!" which is not a policy file\n"

/-- The warning about a support file that was not found. -/
def notFound (color : Bool) (name : Str) : Str :=
  Label.warning.shown color ++ cs!": Failed to locate " ++ name ++ cs!" file.\n"

/-- The warning about a support file that could not be used; `number` is that of the error. -/
def notUsed (color : Bool) (what path number : Str) : Str :=
  Label.warning.shown color ++ cs!": Failed to " ++ what ++ cs!" from " ++ path ++ cs!": " ++ number ++ cs!"\n"

/-- What is said about a support file: nothing if it was found and read; otherwise that it was not found, or
that it could not be used because it cannot be opened (9) or has an error (6). Before the latter the error
itself may be shown. -/
inductive Told (color : Bool) (name what : Str) (good : Str → Prop) : Option Str → Str → Prop
  | read (path : Str) : good path → Told color name what good (some path) []
  | absent : Told color name what good none (notFound color name)
  | unreadable (path shown : Str) : ¬ good path →
      Told color name what good (some path) (shown ++ notUsed color what path cs!"9")
  | wrong (path shown : Str) : ¬ good path →
      Told color name what good (some path) (shown ++ notUsed color what path cs!"6")

mutual
/-- Is there a file that is not called `index`? -/
def HasPerm (name : Str) : Fs → Prop
  | .file => name ≠ cs!"index"
  | .dir es => HasPermIn es
/-- The same for the entries of a directory. -/
def HasPermIn : FsList → Prop
  | .nil => False
  | .cons n fs rest => HasPerm n fs ∨ HasPermIn rest
end

/-- A support file of this kind is read without error. -/
def GoodSupport (w : Machine) (flavor : PlainFlavor) (m : Maps) (path : Str) : Prop :=
  ∃ text f st, w.text path = some text ∧ (lexFile text).bind pFile = some f ∧
    f.exec flavor path m = .ok (some st)

/-- The list of modules is read without error. -/
def GoodModules (w : Machine) (m : Maps) (path : Str) : Prop :=
  ∃ lines m', w.confLines path = some lines ∧ loadModulesSource m lines = .ok (true, m')

end Spec
end Selint
