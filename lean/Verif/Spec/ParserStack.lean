import Verif.Model.ParserStack
import Verif.Spec.Sentences
/-!
# What piles up while a text is read

A parser that reads from left to right has to keep what is not finished. How much that is can be
read off the tokens: brackets and quotes that are still open; `!` and `~`, which wait for what comes
after them; comments at the beginning of a file, as long as nothing else comes; and the words of a
text that `define` or `refpolicywarn` is given in quotes, up to its end.
-/

namespace Selint
namespace Spec
open Lr

/-- Where in a text a token stands: behind nothing but comments; somewhere else; or between
`define` or `refpolicywarn` and the parenthesis that closes it, inside of so many quotes. -/
inductive TextPart where
  | top
  | code
  | macro (quotes : Nat)
  deriving DecidableEq

/-- Where the next token stands. -/
def TextPart.after : TextPart → Term → TextPart
  | .top, .comment => .top
  | .top, .kw .define => .macro 0
  | .top, .kw .refpolicywarn => .macro 0
  | .top, _ => .code
  | .code, .kw .define => .macro 0
  | .code, .kw .refpolicywarn => .macro 0
  | .code, _ => .code
  | .macro q, .p .backtick => .macro (q + 1)
  | .macro 0, .p .closeParen => .code
  | .macro 0, _ => .macro 0
  | .macro (q + 1), .p .singleQuote => .macro q
  | .macro (q + 1), _ => .macro (q + 1)

/-- Inside of a quoted text of `define` or `refpolicywarn`, where only quotes are special. -/
def TextPart.quoted : TextPart → Bool
  | .macro (_ + 1) => true
  | _ => false

/-- A bracket or quote opens (1) or closes (-1). -/
def bracket : Term → Int
  | .p .openParen => 1
  | .p .openCurly => 1
  | .p .backtick => 1
  | .p .closeParen => -1
  | .p .closeCurly => -1
  | .p .singleQuote => -1
  | _ => 0

/-- A quote. -/
def isQuote : Term → Bool
  | .p .backtick => true
  | .p .singleQuote => true
  | _ => false

/-- A sign that waits for what comes after it. -/
def isSign : Term → Bool
  | .p .not => true
  | .p .tilda => true
  | _ => false

/-- A token behind which no sign waits any more. -/
def endsSigns : Term → Bool
  | .p .comma => true
  | .p .semicolon => true
  | .p .backtick => true
  | _ => false

/-- What has piled up. -/
structure PiledUp where
  part : TextPart := .top
  /-- brackets and quotes that are open -/
  opened : Int := 0
  /-- `!` and `~` since the last comma, semicolon or opening quote -/
  signs : Nat := 0
  /-- comments, if there was nothing else yet -/
  comments : Nat := 0
  /-- words of the quoted text of `define` or `refpolicywarn` in which it stands -/
  words : Nat := 0

/-- One more token is read. -/
def PiledUp.read (p : PiledUp) (t : Term) : PiledUp :=
  { part := p.part.after t
    opened := if p.part.quoted && !isQuote t then p.opened else p.opened + bracket t
    signs := if endsSigns t then 0 else if isSign t then p.signs + 1 else p.signs
    comments := if p.part = .top ∧ t = .comment then p.comments + 1 else 0
    words := if (p.part.after t).quoted then (if isQuote t then p.words else p.words + 1) else 0 }

/-- What has piled up after these tokens. -/
def piledUp (ts : List Term) : PiledUp := ts.foldl PiledUp.read {}

/-- How many states that may take. -/
def PiledUp.room (p : PiledUp) : Int := 21 + 11 * (p.opened + p.signs) + p.comments + p.words

/-- `yyparse` with a stack of limited size comes from `d₀` to `d`. -/
inductive StackReaches (limit : Nat) (d₀ : Drive) : Drive → Prop
  | refl : StackReaches limit d₀ d₀
  | step {d d' : Drive} : StackReaches limit d₀ d → d.stepWithin limit = .ok (.go d') →
      StackReaches limit d₀ d'

end Spec
end Selint
