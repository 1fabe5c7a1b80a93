import Verif.Model.LalrDriver
/-!
# The size of the parser's stack (parse.y)

The parser of `LalrDriver.lean` has room for any number of states. bison's has not: parse.y does
not define `YYMAXDEPTH`, so its stack holds 10000 states at most (bison's manual, "Memory
Management, or How to Avoid Stack Overflow").
-/

namespace Selint
namespace Lr

/-- bison's default for `YYMAXDEPTH`, which parse.y:1-199 leaves as it is. -/
def yyMaxDepth : Nat := 10000

/-- What one round of `yyparse` leads to, with a stack of limited size. -/
inductive StackNext where
  | go (d : Drive)
  | accept
  | reject
  | exhausted

/-- parse.y:199-1076, one round of `yyparse`: when a state has been pushed and the stack is then full
and cannot be made larger, `yyerror` is called with "memory exhausted" and `yyparse` returns 2,
which is a failure like any other (parse.y:1190-1194).

Simplification: that the stack begins with room for 200 states and is doubled when it is full
cannot be seen, as memory is never short. -/
def Drive.stepWithin (limit : Nat) (d : Drive) : Res StackNext :=
  match d.step with
  | .ub => .ub
  | .ok .accept => .ok .accept
  | .ok .reject => .ok .reject
  | .ok (.go d') => if limit ≤ d'.states.length then .ok .exhausted else .ok (.go d')

end Lr
end Selint
