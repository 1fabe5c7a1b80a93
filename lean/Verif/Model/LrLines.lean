import Verif.Model.Lr
/-!
# bison's locations (parse.y:18, 40-46)

The stack machine of `Lr.lean` with the lines of the symbols. The scanner gives a token its line
(lex.l:29-33). parse.y does not define `YYLLOC_DEFAULT`, so a symbol that was made from others
reaches from the first line of the first to the last line of the last of them, and a symbol made
from nothing begins and ends on the last line of the symbol before it.

Simplification: columns are left out; no action keeps them.
-/

namespace Selint
namespace Lr

/-- The first and the last line of a symbol. -/
structure Span where
  first : Nat
  last : Nat

/-- The machine, the lines of the symbols on the stack (the top first) and of the token that was
read. -/
structure Lined where
  c : Config
  spans : List Span
  look : Nat

/-- The last line of the topmost symbol (bison's manual, "Default Action for Locations"; on the
empty stack bison's initial location; only `selinux_file: %empty`, parse.y:200-202, is made there, and
its action does not use the line). -/
def lastOf : List Span → Nat
  | [] => 1
  | s :: _ => s.last

/-- bison's `YYLLOC_DEFAULT` for a production with `n` symbols on the right. -/
def spanOf (n : Nat) (spans : List Span) : Span :=
  match (spans.take n).getLast? with
  | none => ⟨lastOf spans, lastOf spans⟩
  | some s => ⟨s.first, lastOf spans⟩

/-- What the parser may do; a token comes with its line. -/
inductive LinedMove where
  | read (line : Nat) (t : Option Token)
  | shift
  | reduce (r : Rule)

/-- The parser continues, or an action has come to `YYERROR`. -/
inductive LinedNext where
  | go (s : Lined)
  | error (s : Lined)

/-- One move; an action's `@$.first_line` is the line of the symbol that it makes. -/
def Lined.step (s : Lined) : LinedMove → Option (Res LinedNext)
  | .read line t =>
    match s.c.step (.read t) with
    | some (.ok (.go c)) => some (.ok (.go ⟨c, s.spans, line⟩))
    | _ => none
  | .shift =>
    match s.c.step .shift with
    | some (.ok (.go c)) => some (.ok (.go ⟨c, ⟨s.look, s.look⟩ :: s.spans, s.look⟩))
    | _ => none
  | .reduce r =>
    let here := spanOf r.rhs.length s.spans
    match s.c.step (.reduce r here.first) with
    | none => none
    | some .ub => some .ub
    | some (.ok (.go c)) => some (.ok (.go ⟨c, here :: s.spans.drop r.rhs.length, s.look⟩))
    | some (.ok (.error c)) => some (.ok (.error ⟨c, s.spans.drop r.rhs.length, s.look⟩))

/-- parse.y:1177-1184: the start of a file. -/
def Lined.start (m : Mem) (expected : PlainFlavor) (mod : Str) (maps : Maps) : Lined :=
  ⟨Lr.start m expected mod maps, [], 1⟩

end Lr
end Selint
