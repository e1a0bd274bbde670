import Mathlib.Algebra.Order.Floor.Ring
import Mathlib.Data.Int.Log
import Mathlib.Algebra.Order.Archimedean.Basic

/-!
# Specification: rounding of floating-point operations

IEEE-754 operations are the exact operation followed by rounding to nearest, ties to even.  `roundTo p x` is this rounding to `p` significant bits
with an unbounded exponent: what an operation on doubles (`p = 53`) returns as long as the result neither overflows nor is subnormal.
-/

namespace Pyogp.Spec

variable {K : Type} [Field K] [LinearOrder K] [IsStrictOrderedRing K] [FloorRing K]

/-- The integer nearest to `y`, the even one in a tie. -/
def nearestInt (y : K) : ℤ :=
  if y - ⌊y⌋ < 1 / 2 then ⌊y⌋
  else if 1 / 2 < y - ⌊y⌋ then ⌊y⌋ + 1
  else if ⌊y⌋ % 2 = 0 then ⌊y⌋ else ⌊y⌋ + 1

/-- The number with a significand of `p` bits nearest to `x`, the one with the even significand in a tie. -/
def roundTo (p : ℕ) (x : K) : K :=
  if x = 0 then 0
  else (nearestInt (x / 2 ^ (Int.log 2 |x| + 1 - p)) : K) * 2 ^ (Int.log 2 |x| + 1 - p)

/-- A rounding with relative error at most `ε`. -/
def RelError (fl : K → K) (ε : K) : Prop := ∀ x, |fl x - x| ≤ ε * |x|

end Pyogp.Spec
