import Verif.Model.Helpers

/-!
# `bytes_to_ascii`, `bytes_to_base64`

`helpers.py:51-58,73-80` call `binascii.b2a_uu` and `binascii.b2a_base64` of the standard library (`Modules/binascii.c`), which collect the bytes in a buffer of bits and
take six bits at a time from its upper end.  The bits above those still to be taken are never read, so the buffer is a number without bound here (`left`), of which
`bits` bits are still to be taken.  `b2a_base64` refuses data of about 2^30 bytes and more; that is not modelled.
-/

namespace Pyogp

/-- The inner `while (leftbits >= 6)`: the characters, and how many bits are left. -/
def takeSixes (tbl : Nat → Char) (left bits : Nat) : List Char × Nat :=
  if 6 ≤ bits then
    let r := takeSixes tbl left (bits - 6)
    (tbl (left / 2 ^ (bits - 6) % 64) :: r.1, r.2)
  else ([], bits)
termination_by bits

/-- `table_b2a_base64`. -/
def b64Char (n : Nat) : Char :=
  if n < 26 then Char.ofNat (65 + n)
  else if n < 52 then Char.ofNat (97 + (n - 26))
  else if n < 62 then Char.ofNat (48 + (n - 52))
  else if n = 62 then '+' else '/'

/-- The loop of `b2a_base64`, and the padding at the end. -/
def b64Loop (left bits : Nat) : Bytes → List Char
  | [] =>
    if bits = 2 then [b64Char (left % 4 * 16), '=', '=']
    else if bits = 4 then [b64Char (left % 16 * 4), '=']
    else []
  | x :: l =>
    let left := left * 256 + x.toNat
    let d := takeSixes b64Char left (bits + 8)
    d.1 ++ b64Loop left d.2 l

/-- `helpers.py:73-80` (`bytes_to_base64`). -/
def bytesToBase64 (data : Bytes) : List Char := b64Loop 0 0 data ++ ['\n']

/-- `this_ch + ' '`. -/
def uuChar (n : Nat) : Char := Char.ofNat (n + 32)

/-- The rounds of `b2a_uu` after the last byte: zeros are shifted in until no bits are left (2 bits need two rounds, 4 bits one). -/
def uuPad (left bits : Nat) : Nat → List Char
  | 0 => []
  | n + 1 =>
    if bits = 0 then []
    else
      let left := left * 256
      let d := takeSixes uuChar left (bits + 8)
      d.1 ++ uuPad left d.2 n

/-- The loop of `b2a_uu`. -/
def uuLoop (left bits : Nat) : Bytes → List Char
  | [] => uuPad left bits 2
  | x :: l =>
    let left := left * 256 + x.toNat
    let d := takeSixes uuChar left (bits + 8)
    d.1 ++ uuLoop left d.2 l

/-- `helpers.py:51-58` (`bytes_to_ascii`); `none` is `binascii.Error` ("At most 45 bytes at once"), which nothing catches. -/
def bytesToAscii (data : Bytes) : Option (List Char) :=
  if 45 < data.length then none else some (uuChar data.length :: (uuLoop 0 0 data ++ ['\n']))

end Pyogp
