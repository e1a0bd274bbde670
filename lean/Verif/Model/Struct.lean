import Verif.Model.Base

/-!
# The `struct` module, as used by `data_packer.py`, `data_unpacker.py`, `udpserializer.py`, `template_dict.py`,
`datatypes.py` and `helpers.py`

Integer formats `B b H h I i Q q` with standard sizes.  CPython's `struct` is part of the runtime, not of `/repo`;
its behaviour on out-of-range integers changed between Python 2.6 (mask with a DeprecationWarning, except for the
8-byte formats) and 2.7 (raise), so the version is a parameter.
-/

namespace Pyogp

/-- How `struct.pack` treats out-of-range integers. `v26`: Python 2.5/2.6, masks formats of up to 4 bytes.
`v27`: raises. -/
inductive PyVersion | v26 | v27
  deriving DecidableEq, Repr

/-- `msgtypes.py:31-35` (`EndianType`); `'!'` is `big`. -/
inductive Endian | little | big
  deriving DecidableEq, Repr

/-- Integer format characters of `struct`. -/
inductive IntFmt | B | b | H | h | I | i | Q | q
  deriving DecidableEq, Repr

def IntFmt.size : IntFmt → Nat
  | .B | .b => 1
  | .H | .h => 2
  | .I | .i => 4
  | .Q | .q => 8

def IntFmt.signed : IntFmt → Bool
  | .B | .H | .I | .Q => false
  | .b | .h | .i | .q => true

/-- Smallest representable value. -/
def IntFmt.lo (f : IntFmt) : Int := if f.signed then -(2 ^ (8 * f.size - 1) : Nat) else 0

/-- One past the largest representable value. -/
def IntFmt.hi (f : IntFmt) : Int := if f.signed then (2 ^ (8 * f.size - 1) : Nat) else (2 ^ (8 * f.size) : Nat)

/-- `k` little-endian base-256 digits of `n`. -/
def leBytes : Nat → Nat → Bytes
  | 0, _ => []
  | k + 1, n => UInt8.ofNat (n % 256) :: leBytes k (n / 256)

/-- Value of little-endian base-256 digits. -/
def leVal : Bytes → Nat
  | [] => 0
  | b :: bs => b.toNat + 256 * leVal bs

/-- Bytes in wire order. -/
def Endian.order (e : Endian) (b : Bytes) : Bytes :=
  match e with
  | .little => b
  | .big => b.reverse

/-- `struct.pack(endian + fmt, x)` for an integer `x`. -/
def structPack (v : PyVersion) (e : Endian) (f : IntFmt) (x : Int) : Py Bytes :=
  let out : Bytes := e.order (leBytes f.size (x % (2 ^ (8 * f.size) : Nat)).toNat)
  if f.lo ≤ x ∧ x < f.hi then .ok out
  else match v with
    | .v27 => .error .structError
    | .v26 => if f.size = 8 then .error .structError else .ok out

/-- `struct.unpack(endian + fmt, bytes)[0]`. -/
def structUnpack (e : Endian) (f : IntFmt) (b : Bytes) : Py Int :=
  if b.length = f.size then
    let n := leVal (e.order b)
    if f.signed ∧ 2 ^ (8 * f.size - 1) ≤ n then .ok ((n : Int) - (2 ^ (8 * f.size) : Nat))
    else .ok (n : Int)
  else .error .structError

end Pyogp
