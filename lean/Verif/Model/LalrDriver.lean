import Verif.Model.LalrTables
import Verif.Model.Location
/-!
# `yyparse`: the parser with its tables (parse.y)

The stack machine of `Lr.lean`, driven by the tables of `LalrTables.lean`: it reads a token if it
has none, looks up what to do in the topmost state, and does it. So, in contrast to `Lr.lean`,
there is one move at a time, as in bison's `yyparse`.

Simplifications: the tokens of the whole file are given (`Lex.lean` has the scanner). A token is
read before anything is reduced; bison does not read one if the state has only one reduction,
which makes no difference to the scanner. A syntax error and `YYERROR` end the parse: what
`bare_line: error` (parse.y:337-346) does then is `YYABORT`.
-/

namespace Selint
namespace Lr

/-- The machine, the stack of states (the top first) and the tokens that are left. -/
structure Drive where
  l : Lined
  states : List Nat
  input : Located

/-- What one round of `yyparse` leads to. -/
inductive DriveNext where
  | go (d : Drive)
  | accept
  | reject

/-- The machine makes the move. -/
def Drive.make (d : Drive) (mv : LinedMove) (states : List Nat) (input : Located) : Res DriveNext :=
  match d.l.step mv with
  | none => .ok .reject
  | some .ub => .ub
  | some (.ok (.go l)) => .ok (.go ⟨l, states, input⟩)
  | some (.ok (.error _)) => .ok .reject

/-- bison's `yyreduce`: the production, and the state that follows. -/
def Drive.reduceBy (d : Drive) (r : Rule) : Res DriveNext :=
  match d.states.drop r.rhs.length with
  | [] => .ok .reject
  | t :: rest =>
    match lalrGoto t r.lhs.code with
    | none => .ok .reject
    | some s => d.make (.reduce r) (s :: t :: rest) d.input

/-- parse.y:199-1076, one round of `yyparse`. -/
def Drive.step (d : Drive) : Res DriveNext :=
  match d.l.c.look with
  | none =>
    match d.input with
    | [] => d.make (.read d.l.look none) d.states []
    | (line, t) :: rest => d.make (.read line (some t)) d.states rest
  | some e =>
    match d.states with
    | [] => .ok .reject
    | s :: _ =>
      match lalrAction s e.sym.code with
      | none => .ok .reject
      | some .accept => .ok .accept
      | some (.shift s') => d.make .shift (s' :: d.states) d.input
      | some (.reduce p) =>
        match rules[p]? with
        | none => .ok .reject
        | some r => d.reduceBy r

/-- parse.y:1177-1184: the start of a file. -/
def Drive.start (m : Mem) (expected : PlainFlavor) (mod : Str) (maps : Maps) (ts : Located) : Drive :=
  ⟨Lined.start m expected mod maps, [0], ts⟩

end Lr
end Selint
