import Verif.Model.Float
import Mathlib.Data.Nat.Sqrt

/-!
# Arithmetic on doubles

The operations that `datatypes.py:150-157` and `helpers.py:83-120` apply to Python floats: `*`, `+`, `-`, `math.sqrt`, each rounding to nearest, ties to even
(IEEE-754; proved of these definitions in `Proofs/IeeeRound.lean`).  Values are integers in units of `2^-1074`.  Infinities and NaNs are not special: with their bits
read as a number (at least `2^1024`), `ieeeQuatW` still returns 0 as the code does (`t > 0` is false for `-inf` and NaN); the theorems about `packedU16ToF64` and
`packedU8ToF64` are about finite ranges.  The sign of a zero result is not modelled.
-/

namespace Pyogp

/-- A double in units of `2^-1074`. -/
def F64.units (x : F64) : Int :=
  let e := x.toNat / 2 ^ 52 % 2 ^ 11
  let m := x.toNat % 2 ^ 52
  let mag : Nat := if e = 0 then m else (2 ^ 52 + m) * 2 ^ (e - 1)
  if x.toNat / 2 ^ 63 % 2 = 1 then -mag else mag

/-- The bits, without sign, of the double nearest to `N / 2^k` units; infinity on overflow. -/
def roundBits (N k : Nat) : Nat :=
  let b := if Nat.log2 N < k + 53 then roundShift N k else (Nat.log2 N - k - 52) * 2 ^ 52 + roundShift N (Nat.log2 N - 52)
  if b < 2047 * 2 ^ 52 then b else 2047 * 2 ^ 52

/-- The double nearest to `i / 2^k` units. -/
def F64.ofUnits (i : Int) (k : Nat) : F64 := BitVec.ofNat 64 ((if i < 0 then 2 ^ 63 else 0) + roundBits i.natAbs k)

/-- `x * y`. -/
def F64.mul (x y : F64) : F64 := F64.ofUnits (x.units * y.units) 1074
/-- `x + y`. -/
def F64.add (x y : F64) : F64 := F64.ofUnits (x.units + y.units) 0
/-- `x - y`. -/
def F64.sub (x y : F64) : F64 := F64.ofUnits (x.units - y.units) 0
/-- `math.sqrt(x)` for `x > 0`: 60 binary digits more than the unit, and one digit telling whether anything follows. -/
def F64.sqrt (x : F64) : F64 :=
  let n := x.units.toNat * 2 ^ (1074 + 120)
  let s := Nat.sqrt n
  F64.ofUnits (2 * s + (if s * s = n then 0 else 1) : Nat) 61

/-- `datatypes.py:150-157`: `W` reconstructed from `X`, `Y`, `Z`. -/
def ieeeQuatW (x y z : F64) : F64 :=
  let t := F64.sub 0x3ff0000000000000#64 (F64.add (F64.add (F64.mul x x) (F64.mul y y)) (F64.mul z z))
  if 0 < t.units then F64.sqrt t else 0

/-- `helpers.py:87-101,106-120` on doubles after reading the integer `u`, with `oo` the double `1.0/65535` or `1.0/255`.  (`lower` and `upper` are floats;
`u * oo` converts `u` first.) -/
def rangeF64 (oo : F64) (u : Nat) (lower upper : F64) : F64 :=
  let val := F64.mul ((intToF64 u).getD 0) oo
  let delta := F64.sub upper lower
  let val := F64.mul val delta
  let val := F64.add val lower
  let maxError := F64.mul delta oo
  if (val.units.natAbs : Int) < maxError.units then 0 else val

/-- The double `1.0/65535` (`helpers.py:87-88`). -/
def oo16 : F64 := 0x3ef0001000100010#64
/-- The double `1.0/255` (`helpers.py:106-107`). -/
def oo8 : F64 := 0x3f70101010101010#64

/-- `helpers.py:83-101` (`packed_u16_to_float`), on doubles. -/
def packedU16ToF64 (bytes : Bytes) (offset : Nat) (lower upper : F64) : Py F64 := do
  let u ← structUnpack .little .H (slice bytes offset (offset + 2))
  .ok (rangeF64 oo16 u.toNat lower upper)

/-- `helpers.py:102-120` (`packed_u8_to_float`), on doubles. -/
def packedU8ToF64 (bytes : Bytes) (offset : Nat) (lower upper : F64) : Py F64 := do
  let u ← structUnpack .little .B (slice bytes offset (offset + 1))
  .ok (rangeF64 oo8 u.toNat lower upper)

end Pyogp
