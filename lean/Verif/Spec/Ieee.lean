/-!
# Specification: the real number denoted by an IEEE-754 bit pattern

Magnitudes are given as natural numbers in units of `2^-1074`, the smallest positive double, so that they are exact.
-/

namespace Pyogp.Spec

/-- Sign bit of a single / double. -/
def neg32 (f : Nat) : Bool := f / 2 ^ 31 % 2 = 1
def neg64 (d : Nat) : Bool := d / 2 ^ 63 % 2 = 1

/-- Neither infinite nor NaN. -/
def Finite32 (f : Nat) : Prop := f / 2 ^ 23 % 2 ^ 8 ≠ 255
def Finite64 (d : Nat) : Prop := d / 2 ^ 52 % 2 ^ 11 ≠ 2047

/-- A single-precision bit pattern that is a NaN (exponent all ones, non-zero mantissa). -/
def isNaN32 (f : Nat) : Prop := f / 2 ^ 23 % 2 ^ 8 = 255 ∧ f % 2 ^ 23 ≠ 0
instance (f) : Decidable (isNaN32 f) := by unfold isNaN32; infer_instance

/-- Magnitude of a finite double, in units of `2^-1074`. -/
def mag64 (d : Nat) : Nat :=
  if d / 2 ^ 52 % 2 ^ 11 = 0 then d % 2 ^ 52 else (2 ^ 52 + d % 2 ^ 52) * 2 ^ (d / 2 ^ 52 % 2 ^ 11 - 1)

/-- Magnitude of a finite single, in units of `2^-1074` (a single's own unit is `2^-149 = 2^925 · 2^-1074`). -/
def mag32 (f : Nat) : Nat :=
  (if f / 2 ^ 23 % 2 ^ 8 = 0 then f % 2 ^ 23 else (2 ^ 23 + f % 2 ^ 23) * 2 ^ (f / 2 ^ 23 % 2 ^ 8 - 1)) * 2 ^ 925

/-- Distance of two naturals. -/
def dist (a b : Nat) : Nat := (a - b) + (b - a)

/-- Half-way between the largest finite single `(2^24-1)·2^104` and `2^128`, in units of `2^-1074`. -/
def singleOverflow : Nat := (2 ^ 25 - 1) * 2 ^ 1177

end Pyogp.Spec
