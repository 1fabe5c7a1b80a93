import Verif.Spec.MapsInMemory
import Verif.Spec.Template
/-! # What template expansion reads and what it may leave behind -/

namespace Selint.Spec

/-- A list of arguments, some of which may be missing. -/
inductive ArgsAt (m : Mem) : Option Addr → List (Option Str) → List Addr → Prop
  | nil : ArgsAt m none [] []
  | cons {p : Addr} {a n : Option Addr} {b : Bool} {s : Option Str} {l : List (Option Str)}
      {as ps : List Addr} :
      m.obj p = some (.sl ⟨a, n, b⟩) → OptStrAt m a s as → ArgsAt m n l ps →
      (p :: as ++ ps).Nodup → ArgsAt m (some p) (s :: l) (p :: as ++ ps)

/-- The calls that the templates of a table make are in memory, as the data of nodes, and
everything they consist of is among the addresses `F`. -/
def CallsHeld (m : Mem) (callOf : Addr → IfCallData) (t : Tables) (F : List Addr) : Prop :=
  ∀ p ∈ t.template, ∀ o cs qs, m.obj p = some (.tmpl o) → CallsAt m o.calls cs qs →
    ∀ c ∈ cs, ∃ rs, DataAt m (some c) (.ifCall (callOf c)) rs ∧ ∀ q ∈ rs, q ∈ F

/-- `Nested maps name path last`: the template `name` leads, by one call inside another, to
the template `last`, and `path` are the templates on the way, from `name` on and without
`last`. -/
inductive Nested (maps : Maps) : Str → List Str → Str → Prop
  | here {name : Str} : Nested maps name [] name
  | call {name last : Str} {c : IfCallData} {path : List Str} :
      c ∈ maps.templateCalls name → Nested maps c.name path last →
      Nested maps name (name :: path) last

/-- The template declares a name with a `$` that no number follows. -/
def Unwritable (maps : Maps) (name : Str) : Prop :=
  ∃ fl d, (fl, d) ∈ maps.templateDecls name ∧ ∃ a b, d = a ++ '$' :: b ∧ ¬NumberAhead b

end Selint.Spec
