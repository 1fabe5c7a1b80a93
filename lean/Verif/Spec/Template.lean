import Verif.Model.Maps
/-! # Specification: m4 substitution and template expansion -/

namespace Selint.Spec

/-- A decimal digit. -/
def Digit (c : Char) : Prop := c ∈ cs!"0123456789"

instance (c : Char) : Decidable (Digit c) := by unfold Digit; infer_instance

/-- `IsNumeral ds v rest`: `ds` is a non-empty run of digits with value `v`, and it is the
whole run, `rest` being the text that follows it. -/
def IsNumeral (ds : Str) (v : Nat) (rest : Str) : Prop :=
  ds ≠ [] ∧ (∀ c ∈ ds, Digit c) ∧ v = Nat.ofDigitChars 10 ds 0 ∧ ∀ c, rest.head? = some c → ¬Digit c

/-- `Subst args s r`: replacing every `$n` (n ≥ 1) in `s` by the n-th of `args`, or by nothing
if there are fewer, gives `r`. -/
inductive Subst (args : List Str) : Str → Str → Prop
  | nil : Subst args [] []
  | char {c : Char} {s r : Str} : c ≠ '$' → Subst args s r → Subst args (c :: s) (c :: r)
  | ref {ds s r : Str} {v : Nat} : IsNumeral ds v s → 1 ≤ v → Subst args s r →
      Subst args ('$' :: ds ++ s) ((args[v - 1]?).getD [] ++ r)

/-- `Refs s vs`: the references of `s` are `$v`, for `v` in `vs`, in this order. -/
inductive Refs : Str → List Nat → Prop
  | nil : Refs [] []
  | char {c : Char} {s : Str} {vs : List Nat} : c ≠ '$' → Refs s vs → Refs (c :: s) vs
  | ref {ds s : Str} {v : Nat} {vs : List Nat} : IsNumeral ds v s → 1 ≤ v → Refs s vs →
      Refs ('$' :: ds ++ s) (v :: vs)

/-- The text starts with something `sscanf` takes for a number. -/
def NumberAhead (t : Str) : Prop :=
  ∃ blanks sign d rest, t = blanks ++ sign ++ d :: rest ∧
    (∀ c ∈ blanks, c ∈ [' ', '\t', '\n', '\x0b', '\x0c', '\r']) ∧
    sign ∈ [cs!"", cs!"-", cs!"+"] ∧ Digit d

/-- Nothing but references for which there is no argument. -/
inductive AllMissing (args : List Str) : Str → Prop
  | nil : AllMissing args []
  | ref {ds s : Str} {v : Nat} : IsNumeral ds v s → args.length < v → AllMissing args s →
      AllMissing args ('$' :: ds ++ s)

/-- The text ends with a plain character followed by references for which there is no
argument, as in `foo_$3` with two arguments. -/
inductive EndsMissing (args : List Str) : Str → Prop
  | here {c : Char} {s : Str} : c ≠ '$' → s ≠ [] → AllMissing args s → EndsMissing args (c :: s)
  | char {c : Char} {s : Str} : c ≠ '$' → EndsMissing args s → EndsMissing args (c :: s)
  | ref {ds s : Str} {v : Nat} : IsNumeral ds v s → 1 ≤ v → EndsMissing args s →
      EndsMissing args ('$' :: ds ++ s)

/-! ## Expansion of templates -/

/-- `name` makes a call to `callee` in its body. -/
def Calls (m : Maps) (name callee : Str) : Prop := ∃ c ∈ m.templateCalls name, c.name = callee

/-- There is a chain of one or more nested calls from the first to the second. -/
inductive CallChain (m : Maps) : Str → Str → Prop
  | one {a b : Str} : Calls m a b → CallChain m a b
  | step {a b c : Str} : Calls m a b → CallChain m b c → CallChain m a c

/-- Some chain of nested calls that starts at `name` meets the same template twice. -/
def Loops (m : Maps) (name : Str) : Prop :=
  ∃ t, (t = name ∨ CallChain m name t) ∧ CallChain m t t

/-- What `name` stands for cannot be written out: a chain of nested calls that starts there meets the
same template twice, or a template that is met declares a name with a `$` that no number follows. -/
def Faulty (m : Maps) (name : Str) : Prop :=
  Loops m name ∨ ∃ t, (t = name ∨ CallChain m name t) ∧ ∃ fl d, (fl, d) ∈ m.templateDecls t ∧
    ∃ a b, d = a ++ '$' :: b ∧ ¬NumberAhead b

/-- Substituting in each argument of a call. -/
inductive ArgsSubst : List Str → List Str → List Str → Prop
  | nil {args : List Str} : ArgsSubst args [] []
  | cons {args : List Str} {a r : Str} {as rs : List Str} : Subst args a r →
      ArgsSubst args as rs → ArgsSubst args (a :: as) (r :: rs)
/-- Substituting in each declared name. -/
inductive DeclsSubst : List Str → List (DeclFlavor × Str) → List (DeclFlavor × Str) → Prop
  | nil {args : List Str} : DeclsSubst args [] []
  | cons {args : List Str} {fl : DeclFlavor} {a r : Str} {as rs : List (DeclFlavor × Str)} :
      Subst args a r → DeclsSubst args as rs → DeclsSubst args ((fl, a) :: as) ((fl, r) :: rs)

mutual
/-- `Expands m name args out`: expanding template `name` with these arguments declares `out`,
in this order: what the calls in its body declare, in the order of the calls, then its own
declarations. -/
inductive Expands (m : Maps) : Str → List Str → List (DeclFlavor × Str) → Prop
  | mk {name : Str} {args : List Str} {inner own : List (DeclFlavor × Str)} :
      ExpandsCalls m args (m.templateCalls name) inner →
      DeclsSubst args (m.templateDecls name) own →
      Expands m name args (inner ++ own)
/-- The same for a list of calls made from a body with arguments `args`. -/
inductive ExpandsCalls (m : Maps) : List Str → List IfCallData → List (DeclFlavor × Str) → Prop
  | nil {args : List Str} : ExpandsCalls m args [] []
  | cons {args newArgs : List Str} {c : IfCallData} {cs : List IfCallData}
      {o os : List (DeclFlavor × Str)} :
      ArgsSubst args (c.args.map (·.1)) newArgs → Expands m c.name newArgs o →
      ExpandsCalls m args cs os → ExpandsCalls m args (c :: cs) (o ++ os)
end

end Selint.Spec
