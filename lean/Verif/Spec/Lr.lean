import Verif.Spec.ParseInMemory
import Verif.Model.Lr
/-!
# What the parser holds in memory while it works
-/

namespace Selint.Spec
open Lr

/-- The token that a move reads. -/
def tokenOf : Move → List Token
  | .read (some t) => [t]
  | _ => []

/-- The parser comes from `c₀` to `c` by possible moves, and has read the tokens. -/
inductive ParserReaches (c₀ : Config) : List Token → Config → Prop
  | refl : ParserReaches c₀ [] c₀
  | move {ts : List Token} {c c' : Config} {mv : Move} : ParserReaches c₀ ts c →
      c.step mv = some (.ok (.go c')) → ParserReaches c₀ (ts ++ tokenOf mv) c'

/-- The semantic value of a symbol lies in memory. -/
def ValueAt (m : Mem) (e : Entry) (ps : List Addr) : Prop :=
  match e.sym.kind with
  | .word | .command => ∃ a s, e.val = .str a ∧ m.obj a = some (.bytes s) ∧ ps = [a]
  | .names => ∃ p l, e.val = .list p ∧ NamesAt m p l ps
  | .marked => ∃ p l, e.val = .list p ∧ SlAt m p l ps
  | .av => ∃ fl, e.val = .av fl ∧ ps = []
  | .ifKind => ∃ b, e.val = .ifKind b ∧ ps = []
  | .none => ps = []

/-- The semantic values of symbols lie in memory. -/
inductive ValuesAt (m : Mem) : List Entry → List Addr → Prop
  | nil : ValuesAt m [] []
  | cons {e : Entry} {es : List Entry} {ps qs : List Addr} :
      ValueAt m e ps → ValuesAt m es qs → ValuesAt m (e :: es) (ps ++ qs)

/-- The symbols whose values there are: the token that was read, and the stack. -/
def entries (c : Config) : List Entry := c.look.toList ++ c.stack

/-- No comment that is a command was read. -/
def NoCommand (ts : List Token) : Prop := ∀ s, .command s ∉ ts

/-- The lists of permissions that the parser has made. -/
def permissionsMade (c : Config) : List (Option Addr) := c.tabs.kept.map (·.2) ++ c.tabs.forgotten

/-- What there is in memory while a file is parsed that began with the memory `m₀`: a tree, owning
`T`; strings `L` that nothing points to; the values of symbols, owning `S`; lists of permissions,
owning `G`. -/
structure Parsing (m₀ : Mem) (ts : List Token) (c : Config) (ast : Addr) (T L S G : List Addr) :
    Prop where
  tree : ∃ trees, NodesAt c.ms.mem none none (some ast) trees T
  strings : StringsAt c.ms.mem L
  values : ValuesAt c.ms.mem (entries c) S
  lists : ∃ ls, ListsAt c.ms.mem ls G ∧ (permissionsMade c).Perm (ls.map (·.1))
  /-- nothing else was allocated, and nothing that was there is changed -/
  grows : Grows m₀ c.ms.mem (T ++ L ++ S ++ G)
  /-- only commands are lost -/
  quiet : NoCommand ts → L = []
  /-- permissions are only defined in a file of them -/
  others : c.expected ≠ .sptFile → G = []

/-- The values on the stack that bison has not been told to free. -/
def undestroyed (es : List Entry) : List Addr :=
  es.filterMap fun e =>
    match e.sym, e.val with
    | .t .command, .str a => some a
    | .n .maybeStringComma, .str a => some a
    | _, _ => none

/-- There is a call of an interface that cannot be expanded. -/
def Unexpandable (ms : MState) : Prop :=
  ∃ name args, ∀ e m, expandTemplate name args ms.module ms.maps ≠ .done e m

end Selint.Spec
