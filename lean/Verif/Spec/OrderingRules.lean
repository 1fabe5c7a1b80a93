import Verif.Spec.Ordering
/-! # The documented order of lines (refpolicy style guide; selint.conf:48-54) -/

namespace Selint.Spec

/-- The place of a subsection in the order of each variant. `refpolicy-light` does not
distinguish layers but has related modules; `refpolicy-lax` only has self rules, own rules
and the rest. Lines with equal place are not ordered by subsection. -/
def place : OrderConf → Lss → Nat
  | .ref, .self => 0 | .ref, .own => 1 | .ref, .kernelMod => 2 | .ref, .kernel => 3
  | .ref, .system => 4 | .ref, .other => 5 | .ref, .buildOption => 6 | .ref, .boolean => 7
  | .ref, .tunable => 8 | .ref, .optional => 9
  | .light, .self => 0 | .light, .own => 1 | .light, .related => 2 | .light, .kernelMod => 3
  | .light, .other => 4 | .light, .buildOption => 5 | .light, .boolean => 6
  | .light, .tunable => 7 | .light, .optional => 8
  | .lax, .self => 0 | .lax, .own => 1 | .lax, _ => 2
  | _, _ => 100

/-- What the module of a called interface means for the order: `cur` is the module being
checked, `callee` the interface's module and `layer` the callee's layer, if known. -/
def callPlace (v : OrderConf) (cur callee : Str) (layer : Option Str) : Lss :=
  if callee = cur then .own
  else if v ≠ .ref ∧ callee.takeWhile (· ≠ '_') = cur.takeWhile (· ≠ '_') then .related
  else if callee = cs!"kernel" then .kernelMod
  else if v ≠ .light ∧ layer = some cs!"kernel" then .kernel
  else if v ≠ .light ∧ layer = some cs!"system" then .system
  else .other

end Selint.Spec
