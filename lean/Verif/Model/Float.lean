import Verif.Model.Struct

/-!
# IEEE-754 bit patterns for `struct` formats `f` and `d`

A Python float is a C `double`, represented by its 64-bit pattern.  `struct.unpack('<f', …)` widens a C `float` to
`double` (exact); `struct.pack('<f', x)` casts to `float` (round to nearest, ties to even) and raises
`OverflowError` when a finite `x` rounds to infinity (`_PyFloat_Pack4`).  NaN payloads: the cast of a signalling NaN
sets the quiet bit (x86/SSE behaviour); no theorem relies on it.
-/

namespace Pyogp

/-- A Python float, by bit pattern. -/
abbrev F64 := BitVec 64

/-- `⌊sig / 2^sh⌉`, ties to even. -/
def roundShift (sig sh : Nat) : Nat :=
  let q := sig / 2 ^ sh
  let r := sig % 2 ^ sh
  if 2 ^ sh < 2 * r ∨ (2 * r = 2 ^ sh ∧ q % 2 = 1) then q + 1 else q

/-- `(double) f` on bit patterns: `f < 2^32`. -/
def widenBits (f : Nat) : Nat :=
  let s := f / 2 ^ 31
  let e := f / 2 ^ 23 % 2 ^ 8
  let m := f % 2 ^ 23
  if e = 255 then
    if m = 0 then s * 2 ^ 63 + 2047 * 2 ^ 52
    else s * 2 ^ 63 + 2047 * 2 ^ 52 + 2 ^ 51 + (m % 2 ^ 22) * 2 ^ 29
  else if e = 0 then
    if m = 0 then s * 2 ^ 63
    else s * 2 ^ 63 + (Nat.log2 m + 874) * 2 ^ 52 + (m - 2 ^ Nat.log2 m) * 2 ^ (52 - Nat.log2 m)
  else s * 2 ^ 63 + (e + 896) * 2 ^ 52 + m * 2 ^ 29

/-- `(float) d` on bit patterns (`d < 2^64`); `none` when a finite value rounds to infinity. -/
def narrowBits (d : Nat) : Option Nat :=
  let s := d / 2 ^ 63
  let e := d / 2 ^ 52 % 2 ^ 11
  let m := d % 2 ^ 52
  if e = 2047 then
    if m = 0 then some (s * 2 ^ 31 + 255 * 2 ^ 23)
    else some (s * 2 ^ 31 + 255 * 2 ^ 23 + 2 ^ 22 + m / 2 ^ 29 % 2 ^ 22)
  else if e = 0 then some (s * 2 ^ 31)
  else
    let mag :=
      if 897 ≤ e then (e - 897) * 2 ^ 23 + roundShift (2 ^ 52 + m) 29
      else roundShift (2 ^ 52 + m) (29 + (897 - e))
    if 255 * 2 ^ 23 ≤ mag then none else some (s * 2 ^ 31 + mag)

/-- `struct.unpack(endian + 'f', b)[0]`. -/
def unpackF32 (en : Endian) (b : Bytes) : Py F64 :=
  if b.length = 4 then .ok (BitVec.ofNat 64 (widenBits (leVal (en.order b)))) else .error .structError

/-- `struct.pack(endian + 'f', x)`. -/
def packF32 (en : Endian) (x : F64) : Py Bytes :=
  match narrowBits x.toNat with
  | some n => .ok (en.order (leBytes 4 n))
  | none => .error .overflowError

/-- `struct.unpack(endian + 'd', b)[0]`. -/
def unpackF64 (en : Endian) (b : Bytes) : Py F64 :=
  if b.length = 8 then .ok (BitVec.ofNat 64 (leVal (en.order b))) else .error .structError

/-- `struct.pack(endian + 'd', x)`. -/
def packF64 (en : Endian) (x : F64) : Py Bytes := .ok (en.order (leBytes 8 x.toNat))

/-- `float(i)` for an integer: round to nearest even; `none` if too large (`OverflowError`). -/
def intToF64 (i : Int) : Option F64 :=
  let s := if i < 0 then 1 else 0
  let n := i.natAbs
  if n = 0 then some 0
  else
    let k := Nat.log2 n
    let mag := if k ≤ 52 then (k + 1023) * 2 ^ 52 + (n - 2 ^ k) * 2 ^ (52 - k)
               else (k + 1022) * 2 ^ 52 + roundShift n (k - 52)
    if 2047 * 2 ^ 52 ≤ mag then none else some (BitVec.ofNat 64 (s * 2 ^ 63 + mag))

/-- `-x` for a float: flips the sign bit. -/
def F64.neg (x : F64) : F64 := x ^^^ (BitVec.ofNat 64 (2 ^ 63))

/-- `x >= 0` for a float (false for NaN, true for `-0.0`). -/
def F64.nonneg (x : F64) : Bool :=
  let e := x.toNat / 2 ^ 52 % 2 ^ 11
  let m := x.toNat % 2 ^ 52
  if e = 2047 ∧ m ≠ 0 then false
  else x.toNat < 2 ^ 63 || (e = 0 && m = 0)

/-- `int(x)` for a finite float, truncating towards zero; `none` for infinities and NaN. -/
def truncF64 (x : F64) : Option Int :=
  let e := x.toNat / 2 ^ 52 % 2 ^ 11
  let m := x.toNat % 2 ^ 52
  if e = 2047 then none
  else
    let mag : Nat := if e < 1023 then 0 else if e < 1075 then (2 ^ 52 + m) / 2 ^ (1075 - e) else (2 ^ 52 + m) * 2 ^ (e - 1075)
    some (if 2 ^ 63 ≤ x.toNat then -(mag : Int) else mag)

/-- Is it a NaN? -/
def F64.isNaN (x : F64) : Bool := x.toNat / 2 ^ 52 % 2 ^ 11 = 2047 && x.toNat % 2 ^ 52 ≠ 0

end Pyogp
