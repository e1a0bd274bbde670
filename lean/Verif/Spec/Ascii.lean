import Verif.Model.Base

/-!
# Reading base64 and uuencoded text

Decoders for the two encodings (RFC 4648; POSIX `uuencode`), written without reference to the encoder.
-/

namespace Pyogp.Spec

/-- The alphabet of base64. -/
def b64Alphabet : List Char := "ABCDEFGHIJKLMNOPQRSTUVWXYZabcdefghijklmnopqrstuvwxyz0123456789+/".toList

/-- The value of a base64 digit. -/
def b64Digit (c : Char) : Option Nat := let i := b64Alphabet.idxOf c; if i < 64 then some i else none

/-- Four digits stand for three bytes, most significant bits first; `=` marks that the last group stands for one or two bytes only. -/
def b64Decode : List Char → Option Bytes
  | [] => some []
  | a :: b :: '=' :: '=' :: [] => do
    let n := (← b64Digit a) * 64 + (← b64Digit b)
    some [UInt8.ofNat (n / 16)]
  | a :: b :: c :: '=' :: [] => do
    let n := ((← b64Digit a) * 64 + (← b64Digit b)) * 64 + (← b64Digit c)
    some [UInt8.ofNat (n / 1024), UInt8.ofNat (n / 4 % 256)]
  | a :: b :: c :: d :: l => do
    let n := (((← b64Digit a) * 64 + (← b64Digit b)) * 64 + (← b64Digit c)) * 64 + (← b64Digit d)
    let r ← b64Decode l
    some (UInt8.ofNat (n / 65536) :: UInt8.ofNat (n / 256 % 256) :: UInt8.ofNat (n % 256) :: r)
  | _ => none

/-- The value of a uuencode character: space to `_`. -/
def uuDigit (c : Char) : Option Nat := if 32 ≤ c.toNat ∧ c.toNat < 96 then some (c.toNat - 32) else none

/-- Groups of four characters. -/
def uuGroups : List Char → Option Bytes
  | [] => some []
  | a :: b :: c :: d :: l => do
    let n := (((← uuDigit a) * 64 + (← uuDigit b)) * 64 + (← uuDigit c)) * 64 + (← uuDigit d)
    let r ← uuGroups l
    some (UInt8.ofNat (n / 65536) :: UInt8.ofNat (n / 256 % 256) :: UInt8.ofNat (n % 256) :: r)
  | _ => none

/-- A line of uuencoded text: the number of bytes, the groups, a newline. -/
def uuDecodeLine (s : List Char) : Option Bytes :=
  match s, s.getLast? with
  | h :: t, some '\n' => do
    let n ← uuDigit h
    let r ← uuGroups t.dropLast
    if n ≤ r.length then some (r.take n) else none
  | _, _ => none

end Pyogp.Spec
