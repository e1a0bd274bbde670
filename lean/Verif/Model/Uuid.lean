import Verif.Model.Types

/-!
# `datatypes.UUID`

Models `datatypes.py:181-249` on top of the standard `uuid.UUID` (Python 2 `uuid.py`: `__init__` with `hex`, `bytes`
or `int`; `__str__`).  A UUID object is its 128-bit integer.  Python strings are lists of characters.
-/

namespace Pyogp

/-- Digit of `'%x'`. -/
def hexChar (n : Nat) : Char := "0123456789abcdef".toList.getD n '0'

/-- `'%0kx' % n` for `n < 16^k`: `k` digits, most significant first. -/
def hexDigits : Nat → Nat → List Char
  | 0, _ => []
  | k + 1, n => hexDigits k (n / 16) ++ [hexChar (n % 16)]

/-- `str(uuid)` (standard `uuid.UUID.__str__`), used by `datatypes.py:226,231`. -/
def uuidToString (u : BitVec 128) : List Char :=
  let h := hexDigits 32 u.toNat
  slice h 0 8 ++ ['-'] ++ slice h 8 12 ++ ['-'] ++ slice h 12 16 ++ ['-'] ++ slice h 16 20 ++ ['-'] ++ h.drop 20

/-- `s.replace(pat, '')` for a non-empty `pat`: left to right, non-overlapping. -/
def removeSub (pat : List Char) : List Char → Nat → List Char
  | s, 0 => s
  | [], _ + 1 => []
  | c :: s, fuel + 1 =>
    if pat.isPrefixOf (c :: s) ∧ pat ≠ [] then removeSub pat ((c :: s).drop pat.length) fuel
    else c :: removeSub pat s fuel

/-- `s.strip(chars)`. -/
def stripChars (cs : List Char) (s : List Char) : List Char :=
  ((s.dropWhile (cs.contains ·)).reverse.dropWhile (cs.contains ·)).reverse

/-- Value of a hexadecimal digit. -/
def hexVal (c : Char) : Option Nat :=
  if '0' ≤ c ∧ c ≤ '9' then some (c.toNat - '0'.toNat)
  else if 'a' ≤ c ∧ c ≤ 'f' then some (c.toNat - 'a'.toNat + 10)
  else if 'A' ≤ c ∧ c ≤ 'F' then some (c.toNat - 'A'.toNat + 10)
  else none

/-- Digits of a hexadecimal number, most significant first. -/
def hexNumber : List Char → Nat → Option Nat
  | [], acc => some acc
  | c :: s, acc => match hexVal c with
    | some d => hexNumber s (acc * 16 + d)
    | none => none

/-- Python 2 `long(s, 16)` for a string without `-`: surrounding whitespace, a `+` (with whitespace after it), a `0x` prefix and a trailing `L`
are accepted. -/
def pyLong16 (s : List Char) : Option Nat :=
  let s := stripChars [' ', '\t', '\n', '\r', '\x0b', '\x0c'] s
  let s := if s.head? = some '+' then s.tail.dropWhile ([' ', '\t', '\n', '\r', '\x0b', '\x0c'].contains ·) else s
  let s := if s.take 2 = ['0', 'x'] ∨ s.take 2 = ['0', 'X'] then s.drop 2 else s
  let s := if s.getLast? = some 'l' ∨ s.getLast? = some 'L' then s.dropLast else s
  if s = [] then none else hexNumber s 0

/-- `uuid.UUID(hex)`: the standard library's clean-up, length check and conversion. -/
def uuidOfString (s : List Char) : Py (BitVec 128) :=
  let s := removeSub "urn:".toList s s.length
  let s := removeSub "uuid:".toList s s.length
  let s := (stripChars ['{', '}'] s).filter (· ≠ '-')
  if s.length ≠ 32 then .error .valueError
  else match pyLong16 s with
    | none => .error .valueError
    | some n => if n < 2 ^ 128 then .ok (BitVec.ofNat 128 n) else .error .valueError

/-- `datatypes.py:188-196,207-211` (`UUID.__init__`, `unpack_from_bytes`); `bytes = None` uses the string. -/
def uuidNew (string : List Char := "00000000-0000-0000-0000-000000000000".toList) (bytes : Option Bytes := none)
    (offset : Nat := 0) : Py (BitVec 128) :=
  match bytes with
  | some b => uuidOfBytes (slice b offset (offset + 16))
  | none => uuidOfString string

/-- `datatypes.py:213-216` (`get_bytes`). -/
def uuidGetBytes (u : BitVec 128) : Bytes := uuidBytes u

/-- `datatypes.py:223-224` (`copy`). -/
def uuidCopy (u : BitVec 128) : Py (BitVec 128) := uuidNew (string := uuidToString u)

/-- `datatypes.py:244-248` (`__xor__`): through `uuid.UUID(int=…)` and its string. -/
def uuidXor (a b : BitVec 128) : Py (BitVec 128) :=
  let temp := a.toNat ^^^ b.toNat
  if temp < 2 ^ 128 then uuidNew (string := uuidToString (BitVec.ofNat 128 temp)) else .error .valueError

/-- `datatypes.py:198-205` (`random`): replaces the value only if it is the null UUID; returns the new value, or
`None` with a warning. -/
def uuidRandom (u fresh : BitVec 128) : BitVec 128 × Option (BitVec 128) :=
  if uuidToString u = "00000000-0000-0000-0000-000000000000".toList then (fresh, some fresh) else (u, none)

end Pyogp
