import Verif.Model.Basic
/-!
# Text with colours

What a terminal is told to change the colour, and texts that differ in nothing else.
-/

namespace Selint
namespace Spec

/-- The character that begins an order to the terminal. -/
def escape : Char := '\x1b'

/-- An order to change the colour: escape, `[`, numbers and semicolons, `m`. -/
def IsColour (s : Str) : Prop :=
  ∃ body, s = [escape, '['] ++ body ++ ['m'] ∧ body ≠ [] ∧ ∀ c ∈ body, c.isDigit ∨ c = ';'

/-- The order to go back to the usual colour. -/
def backToUsual : Str := [escape, '[', '0', 'm']

/-- The first text is the second one with some stretches of it coloured. Before such a stretch the
colour is set, after it the usual colour is restored. -/
inductive Painted : Str → Str → Prop
  | nil : Painted [] []
  | char (c : Char) {on off : Str} : Painted on off → Painted (c :: on) (c :: off)
  | stretch {colour : Str} (text : Str) {on off : Str} : IsColour colour → Painted on off →
      Painted (colour ++ text ++ backToUsual ++ on) (text ++ off)

/-- The same for results: both are undefined, or neither is. -/
def PaintedRes : Res Str → Res Str → Prop
  | .ok on, .ok off => Painted on off
  | .ub, .ub => True
  | _, _ => False

mutual
/-- A text without its orders to the terminal. -/
def colourless : Str → Str
  | [] => []
  | c :: s => if c = escape then afterColour s else c :: colourless s

/-- What follows the `m` that ends an order. -/
def afterColour : Str → Str
  | [] => []
  | c :: s => if c = 'm' then colourless s else afterColour s
end

end Spec
end Selint
