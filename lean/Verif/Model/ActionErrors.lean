import Verif.Model.SyntaxOutput
/-!
# What an action prints before it fails (parse.y)

Some actions call `yyerror` and then `YYERROR`: the file is of another kind than its name says, or an
access vector rule is incomplete. What `yyerror` shows depends on how far the text has been read. bison
reads no token in a state that only has its default reduction; the driver of `LalrDriver.lean` always
reads one before it reduces. So it is noted here whether bison would have read it by then.
-/

namespace Selint
namespace Lr

/-- bison's `yypact_value_is_default`: a state in which no token is needed. -/
def onlyReduces (s : Nat) : Bool :=
  (lalrRow s).any fun r => r.shifts.isEmpty && r.default.any fun q => r.reductions.all (·.2 == q)

/-- The parser with its locations, whether bison has read the token that the driver has, and the
location of the token that was shifted last, with the lines kept when it was read. -/
structure Asking where
  p : Locating
  asked : Bool
  last : Location × LineCache

/-- parse.y:199-1076, one round of `yyparse`. -/
def Asking.step (before : Location) (fin : Location × LineCache) (q : Asking) : Option Asking :=
  (q.p.step before fin).map fun p =>
    match q.p.d.l.c.look, q.p.d.states with
    | some e, s :: _ =>
      match lalrAction s e.sym.code with
      | some (.shift _) => ⟨p, false, (q.p.look, q.p.cache)⟩
      | _ => ⟨p, q.asked || !onlyReduces s, q.last⟩
    | _, _ => ⟨p, false, q.last⟩

/-- parse.y:1177-1184: the start of a file. -/
def Asking.start (m : Mem) (expected : PlainFlavor) (mod : Str) (maps : Maps) (before : Location)
    (ts : List (Location × Token × LineCache)) : Asking :=
  ⟨Locating.start m expected mod maps before ts, false, (before, .fresh)⟩

/-- bison's `yylloc` and the lines kept, in state `s`. -/
def Asking.latest (q : Asking) (s : Nat) : Location × LineCache :=
  if q.asked || !onlyReduces s then (q.p.look, q.p.cache) else q.last

/-- parse.y:245, 253, 948, 988, 1001, 1037, 1045, 1053: what is said about a file of another kind. -/
def unexpected : PlainFlavor → Str
  | .teFile => cs!"Error: Unexpected te-file parsed"
  | .ifFile => cs!"Error: Unexpected if-file parsed"
  | .sptFile => cs!"Error: Unexpected spt-file parsed"
  | .avFile => cs!"Error: Unexpected av-file parsed"
  | _ => []

/-- What a statement of an action says before `YYERROR` (parse.y:490 for a rule). -/
def Cmd.complaint : Cmd → Option Str
  | .expect fl _ => some (unexpected fl)
  | .expectAllow _ _ => some cs!"Incomplete AV rule"
  | _ => none

/-- What an action says before `YYERROR`. -/
def Rule.complaint (r : Rule) : Option Str := r.action.findSome? Cmd.complaint

/-- parse.y:241-254, 341-346, 486-491, 945-950, 983-1004, 1033-1056: all that is printed if the action
of production `r` comes to `YYERROR` in state `s`. The location is that from the first symbol to the last
one. Then the right-hand side is taken off the stack and bison looks for a state that takes `error`
(`yyerrorlab`); the token `error` begins where the production did or the last symbol taken off after
that, and ends where the token that was read last does. -/
def Asking.failure (before : Location) (color : Bool) (filename : Str) (q : Asking) (s : Nat) (r : Rule)
    (msg : Str) : Res Str := do
  let here := locationOf before r.rhs.length q.p.locs
  let first ← yyerror color filename (q.latest s).2 here msg
  match recoverPlace (q.p.d.states.drop r.rhs.length) (q.p.locs.drop r.rhs.length) here with
  | none => .ok first
  | some l => do
    let second ← yyerror color filename (q.latest s).2
      ⟨l.firstLine, l.firstColumn, (q.latest s).1.lastLine, (q.latest s).1.lastColumn⟩
      cs!"Error: Invalid statement"
    .ok (first ++ second)

/-- parse.y:199-1175: all that is printed when `yyparse` gives up. -/
def Asking.output (before : Location) (color : Bool) (filename endName : Str) (q : Asking) : Res Str :=
  match q.p.d.l.c.look, q.p.d.states with
  | some e, s :: _ =>
    match lalrAction s e.sym.code with
    | some (.reduce i) =>
      match rules[i]? with
      | none => .ok []
      | some r =>
        match q.p.d.l.step (.reduce r), r.complaint with
        | some (.ok (.error _)), some msg => q.failure before color filename s r msg
        | _, _ => .ok []
    | _ => q.p.output color filename endName
  | _, _ => .ok []

end Lr
end Selint
