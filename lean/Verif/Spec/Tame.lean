import Verif.Spec.Template
import Verif.Spec.Tables
/-!
# Specification: templates that can be expanded safely

`arity t` is a number of arguments with which template `t` is meant to be called.
-/

namespace Selint.Spec

/-- Every `$` starts a reference, to one of the first `n` arguments, and no argument is referred
to twice. -/
def Fits (n : Nat) (s : Str) : Prop := ∃ vs, Refs s vs ∧ vs.Nodup ∧ ∀ v ∈ vs, v ≤ n

/-- What is said inside template `t` (`none`: outside of templates) fits the arities: a call has
at least as many arguments as the called template takes; inside a template, a call has an
argument, and the arguments and the declared names fit the template. -/
def TameFact (arity : Str → Nat) (t : Option Str) : Fact → Prop
  | .declares _ n => ∀ t' ∈ t, Fits (arity t') n
  | .aliases n => ∀ t' ∈ t, Fits (arity t') n
  | .calls c _ => arity c.name ≤ c.args.length ∧ ∀ t' ∈ t, c.args ≠ [] ∧ ∀ a ∈ c.args, Fits (arity t') a.1
  | _ => True

/-- A file in which all this is so. -/
def TameFile (arity : Str → Nat) : SourceFile → Prop
  | .te _ _ b => ∀ mod, ∀ f ∈ linesFacts mod none b, TameFact arity none f
  | .iface _ d ls => ∀ mod, ∀ d' ∈ ifDefs d ls, ∀ f ∈ ifDefFacts mod d',
      TameFact arity (if d'.isTemplate then some d'.name else none) f
  | _ => True

/-- Tables in which all this is so. -/
structure TameTables (arity : Str → Nat) (m : Maps) : Prop where
  decls : ∀ t, ∀ d ∈ m.templateDecls t, Fits (arity t) d.2
  calls : ∀ t, ∀ c ∈ m.templateCalls t, c.args ≠ [] ∧ (∀ a ∈ c.args, Fits (arity t) a.1) ∧
    arity c.name ≤ c.args.length

end Selint.Spec
