import Mathlib.Algebra.Order.Field.Basic
import Mathlib.Analysis.Real.Sqrt
import Verif.Model.Struct

/-!
# Helper functions

Models `helpers.py:38-141` and the reconstruction of `W` in `datatypes.py:150-157`.  `bytes_to_ascii` and `bytes_to_base64` are
in `Model/Ascii.lean`.  A Python `str` that is text is a list of characters.
-/

namespace Pyogp

/-- `helpers.py:131-140` (`int_to_bytes`): `>>` on Python integers rounds towards minus infinity, `%` is never negative. -/
def intToBytes (v : PyVersion) (data : Int) : Py Bytes := do
  let a ← structPack v .little .B (data % 256)
  let b ← structPack v .little .B ((data >>> 8) % 256)
  let c ← structPack v .little .B ((data >>> 16) % 256)
  let d ← structPack v .little .B ((data >>> 24) % 256)
  .ok (a ++ b ++ c ++ d)

/-- `"%X" % n` for one digit. -/
def hexDigitU (n : Nat) : Char := if n < 10 then Char.ofNat (48 + n) else Char.ofNat (55 + n)

/-- `"%X" % n`: at least one digit. -/
def hexU (n : Nat) : List Char := if _h : n < 16 then [hexDigitU n] else hexU (n / 16) ++ [hexDigitU (n % 16)]
termination_by n

/-- `"%02X " % n`: padded with zeros to two digits. -/
def hex02 (n : Nat) : List Char := List.replicate (2 - (hexU n).length) '0' ++ hexU n ++ [' ']

/-- White space for `str.strip`. -/
def isWs (c : Char) : Bool := c = ' ' || c = '\t' || c = '\n' || c = '\r' || c = '\x0b' || c = '\x0c'

/-- `str.strip()`. -/
def strip (s : List Char) : List Char := ((s.dropWhile isWs).reverse.dropWhile isWs).reverse

/-- `helpers.py:41-49` (`bytes_to_hex`). -/
def bytesToHex (data : Bytes) : List Char := strip (data.flatMap (fun x => hex02 x.toNat))

/-- Value of a hexadecimal digit for `binascii.unhexlify`. -/
def hexNibble (c : Char) : Option Nat :=
  if '0' ≤ c ∧ c ≤ '9' then some (c.toNat - 48)
  else if 'A' ≤ c ∧ c ≤ 'F' then some (c.toNat - 55)
  else if 'a' ≤ c ∧ c ≤ 'f' then some (c.toNat - 87)
  else none

/-- `binascii.unhexlify`: `none` is its `TypeError` (odd length or a character that is no digit). -/
def unhexlify : List Char → Option Bytes
  | [] => some []
  | [_] => none
  | a :: b :: l => do
    let x ← hexNibble a
    let y ← hexNibble b
    let r ← unhexlify l
    some (UInt8.ofNat (x * 16 + y) :: r)

/-- `helpers.py:60-71` (`hex_to_ascii`). -/
def hexToAscii (data : List Char) : Py Bytes :=
  match unhexlify data with
  | some b => .ok b
  | none => .error .dataParsing

section Arithmetic

variable {K : Type} [Field K] [LinearOrder K]

/-- `helpers.py:87-101,106-120` after reading the integer `u`: floating-point arithmetic is exact arithmetic followed by a rounding `fl`
(the identity for real-number semantics). -/
def unpackRange (fl : K → K) (max : K) (u : Nat) (lower upper : K) : K :=
  let oo := fl (1 / max)
  let val := fl (u * oo)
  let delta := fl (upper - lower)
  let val := fl (val * delta)
  let val := fl (val + lower)
  let maxError := fl (delta * oo)
  if |val| < maxError then 0 else val

/-- `helpers.py:83-101` (`packed_u16_to_float`). -/
def packedU16ToFloat (fl : K → K) (bytes : Bytes) (offset : Nat) (lower upper : K) : Py K := do
  let u ← structUnpack .little .H (slice bytes offset (offset + 2))
  .ok (unpackRange fl 65535 u.toNat lower upper)

/-- `helpers.py:102-120` (`packed_u8_to_float`). -/
def packedU8ToFloat (fl : K → K) (bytes : Bytes) (offset : Nat) (lower upper : K) : Py K := do
  let u ← structUnpack .little .B (slice bytes offset (offset + 1))
  .ok (unpackRange fl 255 u.toNat lower upper)

end Arithmetic

/-- `helpers.py:122-129` (`pack_quaternion_to_vector3`), on real numbers. -/
noncomputable def packQuaternionToVector3 (x y z w : ℝ) : ℝ × ℝ × ℝ := if 0 ≤ w then (x, y, z) else (-x, -y, -z)

/-- `datatypes.py:150-157`: `W` reconstructed from a vector of three; every operation is rounded with `fl`. -/
noncomputable def reconstructWith (fl : ℝ → ℝ) (x y z : ℝ) : ℝ :=
  let t := fl (1 - fl (fl (fl (x * x) + fl (y * y)) + fl (z * z)))
  if 0 < t then fl (Real.sqrt t) else 0

/-- The same on real numbers. -/
noncomputable def reconstructW (x y z : ℝ) : ℝ := reconstructWith id x y z

end Pyogp
