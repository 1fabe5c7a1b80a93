import Verif.Spec.Maps
/-! # Specification of the checks on file context entries -/

namespace Selint.Spec

/-- The character after the text `p` is preceded by a backslash. -/
def AfterBackslash (p : Str) : Prop := p.getLast? = some '\\'

instance (p : Str) : Decidable (AfterBackslash p) := inferInstanceAs (Decidable (_ = _))

/-- After reading `p` one is outside bracket groups. A group starts at a `[` that is outside
groups and not preceded by a backslash; it ends at the next `]` not preceded by a
backslash. -/
inductive OutsideGroups : Str → Prop where
  | start : OutsideGroups []
  | char (p : Str) (c : Char) : OutsideGroups p → (c = '[' → AfterBackslash p) →
      OutsideGroups (p ++ [c])
  | group (p body : Str) : OutsideGroups p → ¬ AfterBackslash p →
      (∀ a b, body = a ++ ']' :: b → AfterBackslash a) →
      ¬ AfterBackslash body → OutsideGroups (p ++ '[' :: body ++ [']'])

/-- A character between `p` and `s` that probably should have been escaped. -/
def Suspicious (p : Str) (c : Char) (s : Str) : Prop :=
  (c = '.' ∧ ¬ AfterBackslash p ∧
    s.head? ≠ some '*' ∧ s.head? ≠ some '+' ∧ s.head? ≠ some '?') ∨
  ((c = '*' ∨ c = '+') ∧ ¬ AfterBackslash p ∧
    p.getLast? ≠ some '.' ∧ p.getLast? ≠ some ']' ∧ p.getLast? ≠ some ')')

/-- The path has a suspicious character outside bracket groups at offset `i`. -/
def SuspiciousAt (path : Str) (i : Nat) (c : Char) : Prop :=
  ∃ p s, path = p ++ c :: s ∧ p.length = i ∧ OutsideGroups p ∧ Suspicious p c s

/-- The file names of file context files that are generated by the policy build. -/
def GeneratedFcFile (filename : Str) : Prop :=
  filename = cs!"base.fc" ∨ filename = cs!"all_mods.fc" ∨ ∃ stem, filename = stem ++ cs!".mod.fc"

/-- Some declaration of the history declares `name` as a symbol of class `fl`. -/
def DeclaredIn (ops : List MapOp) (fl : DeclFlavor) (name : Str) : Prop :=
  ∃ mod, MapOp.decl name mod fl ∈ ops

/-- The first declaration of `name` in the history is in module `mod`. -/
def FirstDeclaredBy (ops : List MapOp) (fl : DeclFlavor) (name mod : Str) : Prop :=
  ∃ before after, ops = before ++ MapOp.decl name mod fl :: after ∧ ¬ DeclaredIn before fl name

end Selint.Spec
