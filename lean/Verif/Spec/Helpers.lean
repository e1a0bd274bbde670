import Verif.Model.Helpers

/-!
# Specification: hexadecimal dumps, little-endian numbers, quantised ranges, rotations
-/

namespace Pyogp.Spec

/-- The upper-case hexadecimal digits. -/
def hexAlphabet : List Char := "0123456789ABCDEF".toList

/-- Two digits of a byte. -/
def twoDigits (b : UInt8) : List Char := [hexAlphabet.getD (b.toNat / 16) '?', hexAlphabet.getD (b.toNat % 16) '?']

/-- The ways to write a hexadecimal digit. -/
def spellings (n : Nat) : List Char := [hexAlphabet.getD n '?', "0123456789abcdef".toList.getD n '?']

/-- The characters are the hexadecimal digits of the bytes, two for each, in upper or lower case. -/
inductive Spells : List Char → Bytes → Prop
  | nil : Spells [] []
  | cons {c d : Char} {l : List Char} {b : UInt8} {bs : Bytes} (hc : c ∈ spellings (b.toNat / 16)) (hd : d ∈ spellings (b.toNat % 16))
      (h : Spells l bs) : Spells (c :: d :: l) (b :: bs)

/-- The value of four bytes, the first one least significant. -/
def leValue4 (b : Bytes) : Int :=
  ((b.getD 0 0).toNat : Int) + 256 * ((b.getD 1 0).toNat : Int) + 65536 * ((b.getD 2 0).toNat : Int) + 16777216 * ((b.getD 3 0).toNat : Int)

/-- The point of `[lower, upper]` that `u` of `max` denotes. -/
def rangePoint {K : Type} [Field K] (max lower upper : K) (u : Nat) : K := lower + (u / max) * (upper - lower)

/-- The quaternion product `q · (0, v) · q*` gives the rotated vector `v`: the rotation that a unit quaternion denotes. -/
noncomputable def rotate (x y z w : ℝ) (v : ℝ × ℝ × ℝ) : ℝ × ℝ × ℝ :=
  let (a, b, c) := v
  -- t = 2 (q_vec × v)
  let t₁ := 2 * (y * c - z * b)
  let t₂ := 2 * (z * a - x * c)
  let t₃ := 2 * (x * b - y * a)
  -- v + w t + q_vec × t
  (a + w * t₁ + (y * t₃ - z * t₂), b + w * t₂ + (z * t₁ - x * t₃), c + w * t₃ + (x * t₂ - y * t₁))

end Pyogp.Spec
