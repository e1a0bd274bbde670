import Verif.Model.Types

/-!
# Specification: message-number prefixes

From the Second Life message format: High messages have a 1-byte number, Medium `FF` + 1 byte, Low `FF FF` + 2 bytes
(most significant first), Fixed `FF FF FF` + 1 byte.
-/

namespace Pyogp.Spec

/-- The numbers a frequency class can hold without colliding with another class. -/
def InClass : Frequency → Nat → Prop
  | .high, n => n < 255
  | .medium, n => n < 255
  | .low, n => n < 0xff00
  | .fixed, n => n < 256

instance (f n) : Decidable (InClass f n) := by cases f <;> (unfold InClass; infer_instance)

/-- The bytes in front of the message body. -/
def numPrefix : Frequency → Nat → Bytes
  | .high, n => [UInt8.ofNat n]
  | .medium, n => [0xff, UInt8.ofNat n]
  | .low, n => [0xff, 0xff, UInt8.ofNat (n / 256), UInt8.ofNat (n % 256)]
  | .fixed, n => [0xff, 0xff, 0xff, UInt8.ofNat n]

end Pyogp.Spec
