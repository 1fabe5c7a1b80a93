/-!
# Numbers in single precision (IEEE 754, to nearest, ties to even)

What `(float)n` and `a / b` are for numbers that are not negative, not too large and not too small
for the exponent, as are all those of ordering.c:289-295.
-/

namespace Selint.Spec

/-- A number of 24 bits times a power of two. -/
def Single (x : Rat) : Prop := ∃ (s : Nat) (e : Int), s < 2 ^ 24 ∧ x = s * 2 ^ e

/-- The last of its 24 bits, the first of which is not 0, is 0. -/
def EvenSingle (x : Rat) : Prop :=
  x = 0 ∨ ∃ (s : Nat) (e : Int), 2 ^ 23 ≤ s ∧ s < 2 ^ 24 ∧ s % 2 = 0 ∧ x = s * 2 ^ e

/-- How far two numbers are apart. -/
def apart (x y : Rat) : Rat := if x ≤ y then y - x else x - y

/-- `x` is the number of single precision that is nearest to `v`; if there are two, the even one. -/
structure RoundsTo (v x : Rat) : Prop where
  single : Single x
  nearest : ∀ y, Single y → apart v x ≤ apart v y
  even : ∀ y, Single y → y ≠ x → apart v x = apart v y → EvenSingle x

/-- The mean of some numbers. -/
def mean (lines : List Nat) : Rat := (lines.sum : Rat) / (lines.length : Rat)

end Selint.Spec
