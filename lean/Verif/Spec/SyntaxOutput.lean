import Verif.Model.SyntaxOutput
import Verif.Spec.SyntaxMessages
import Verif.Spec.LineCache
/-!
# Tokens with their places
-/

namespace Selint
namespace Spec
open Lr

/-- Tokens with their locations and the lines kept when they were read. -/
abbrev Scanned := List (Location × Token × LineCache)

/-- The kinds of the tokens. -/
def Scanned.kinds (ts : Scanned) : List Term := ts.map fun t => (term t.2.1).1

/-- The location of the token at a place, or else of the end of the text. -/
def locationAt (ts : Scanned) (fin : Location × LineCache) (n : Nat) : Location :=
  ((ts[n]?).map (·.1)).getD fin.1

/-- The lines kept when the token at a place, or else the end of the text, was read. -/
def cacheAt (ts : Scanned) (fin : Location × LineCache) (n : Nat) : LineCache :=
  ((ts[n]?).map (·.2.2)).getD fin.2

/-- From where one location begins to where another one ends. -/
def fromTo (a b : Location) : Location := ⟨a.firstLine, a.firstColumn, b.lastLine, b.lastColumn⟩

/-- Line `i` of a text, counted from 1, without the blanks at its end. -/
def textLine (ls : List Str) (i : Nat) : Str := trimRight (ls.getD (i - 1) [])

/-- What is shown of a location, with the true lines: all of them, or the last five with a note. -/
def shownOf (color : Bool) (ls : List Str) (loc : Location) : Str :=
  if loc.lastLine - loc.firstLine < 5 then
    pictures color loc (textLine ls) '^'
      (List.range' loc.firstLine (loc.lastLine + 1 - loc.firstLine))
  else
    padLeft ' ' 5 (natToStr (loc.lastLine - 5)) ++ cs!" |  ...  [truncated]\n" ++
      pictures color loc (textLine ls) '^' (List.range' (loc.lastLine - 4) 5)

/-- `yyparse`, with the locations, comes from `p₀` to `p`. -/
inductive LocatingReaches (before : Location) (fin : Location × LineCache) (p₀ : Locating) : Locating → Prop
  | refl : LocatingReaches before fin p₀ p₀
  | step {p p' : Locating} : LocatingReaches before fin p₀ p → p.step before fin = some p' →
      LocatingReaches before fin p₀ p'

end Spec
end Selint
