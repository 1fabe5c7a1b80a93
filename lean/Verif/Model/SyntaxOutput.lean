import Verif.Model.SyntaxMessage
import Verif.Model.LineCache
/-!
# What a syntax error prints (parse.y)

The driver of `LalrDriver.lean` working on the tokens as `scanText` hands them out, with their
locations and the lines kept at that moment, and with bison's stack of locations; and all that is
printed when the tables have no entry for a token.

Simplification: as in `LalrDriver.lean` a token is read before anything is reduced. At a syntax error
there is a token in any case, so that this makes no difference to what is printed.
-/

namespace Selint
namespace Lr

/-- The parser, the locations of the symbols on the stack (the top first), bison's `yylloc`, the lines
kept, and what the scanner will still return. -/
structure Locating where
  d : Drive
  locs : List Location
  look : Location
  cache : LineCache
  input : List (Location × Token × LineCache)

/-- parse.y:18, 40-46, bison's `YYLLOC_DEFAULT` for a production with `n` symbols on the right;
`before` is the location at the bottom of the stack. -/
def locationOf (before : Location) (n : Nat) (locs : List Location) : Location :=
  let top := locs.headD before
  match (locs.take n).getLast? with
  | none => ⟨top.lastLine, top.lastColumn, top.lastLine, top.lastColumn⟩
  | some l => ⟨l.firstLine, l.firstColumn, top.lastLine, top.lastColumn⟩

/-- parse.y:19, lex.l:28-32: a token is read; at the end of the file `yylloc` is left as it is. -/
def Locating.read (fin : Location × LineCache) (p : Locating) (d : Drive) : Locating :=
  match p.input with
  | [] => { p with d := d, look := fin.1, cache := fin.2 }
  | (loc, _, c) :: rest => { p with d := d, look := loc, cache := c, input := rest }

/-- parse.y:199-1076, one round of `yyparse`, with the locations; `fin` is what the scanner leaves at
the end of the file. -/
def Locating.step (before : Location) (fin : Location × LineCache) (p : Locating) : Option Locating :=
  match p.d.step with
  | .ok (.go d) =>
    match p.d.l.c.look, p.d.states with
    | none, _ => some (p.read fin d)
    | some e, s :: _ =>
      match lalrAction s e.sym.code with
      | some (.shift _) => some { p with d := d, locs := p.look :: p.locs }
      | some (.reduce q) =>
        match rules[q]? with
        | some r => some { p with
            d := d, locs := locationOf before r.rhs.length p.locs :: p.locs.drop r.rhs.length }
        | none => none
      | _ => none
    | some _, [] => none
  | _ => none

/-- parse.y:1177-1184: the start of a file. -/
def Locating.start (m : Mem) (expected : PlainFlavor) (mod : Str) (maps : Maps) (before : Location)
    (ts : List (Location × Token × LineCache)) : Locating :=
  ⟨Drive.start m expected mod maps (ts.map fun x => (x.1.firstLine, x.2.1)), [], before, .fresh, ts⟩

/-- parse.y:341-346, bison's `yyerrlab1`: where the token `error` begins, which is where the last
symbol taken off the stack does, or else the token that was read. -/
def recoverPlace : List Nat → List Location → Location → Option Location
  | [], _, _ => none
  | s :: ss, locs, first =>
    if shiftsError s then some first else
    match locs with
    | [] => none
    | l :: rest => recoverPlace ss rest l

/-- parse.y:341-346, 1086-1175: all that is printed if the tables have no entry. The token `error`
ends where the token that was read does. -/
def Locating.output (color : Bool) (filename endName : Str) (p : Locating) : Res Str :=
  match p.d.l.c.look, p.d.states with
  | some ⟨.t x, _⟩, s :: _ =>
    if lalrAction s x.code = none then do
      let first ← yyerror color filename p.cache p.look (syntaxMessage endName s x)
      match recoverPlace p.d.states p.locs p.look with
      | none => .ok first
      | some l => do
        let second ← yyerror color filename p.cache
          ⟨l.firstLine, l.firstColumn, p.look.lastLine, p.look.lastColumn⟩ cs!"Error: Invalid statement"
        .ok (first ++ second)
    else .ok []
  | _, _ => .ok []

end Lr
end Selint
