import Verif.Model.Types

/-!
# Specification: integer fields on the wire

Written from the Second Life message format, without the packer/unpacker tables: for each integer type its number of
bytes, whether it is two's complement, and its default byte order.
-/

namespace Pyogp.Spec

/-- Bytes, signedness and default byte order of the integer field types. -/
def wireInt : MsgType → Option (Nat × Bool × Endian)
  | .u8 => some (1, false, .big)
  | .bool => some (1, false, .big)
  | .s8 => some (1, true, .big)
  | .u16 => some (2, false, .little)
  | .s16 => some (2, true, .little)
  | .u32 => some (4, false, .little)
  | .s32 => some (4, true, .little)
  | .u64 => some (8, false, .little)
  | .s64 => some (8, true, .little)
  | .ipport => some (2, false, .big)
  | _ => none

/-- `x` is representable with `n` bytes, in two's complement if `signed`. -/
def InRange (n : Nat) (signed : Bool) (x : Int) : Prop :=
  if signed then -(2 : Int) ^ (8 * n - 1) ≤ x ∧ x < (2 : Int) ^ (8 * n - 1)
  else 0 ≤ x ∧ x < (2 : Int) ^ (8 * n)

instance (n s x) : Decidable (InRange n s x) := by unfold InRange; infer_instance

/-- `b` are the base-256 digits of `x` modulo `256 ^ n`, least significant first for `little`. -/
def IsDigits (n : Nat) (en : Endian) (x : Int) (b : Bytes) : Prop :=
  b.length = n ∧ ∀ i, i < n →
    b[match en with | .little => i | .big => n - 1 - i]? = some (UInt8.ofNat (x / (256 : Int) ^ i % 256).toNat)

/-- Bytes per component, component count and component precision (`true`: double) of the float-vector types. -/
def wireFloats : MsgType → Option (Nat × Bool)
  | .f32 => some (1, false)
  | .f64 => some (1, true)
  | .vector3 => some (3, false)
  | .vector3d => some (3, true)
  | .vector4 => some (4, false)
  | _ => none

/-- The wire width of every fixed-width field type. -/
def wireWidth : MsgType → Option Nat
  | .u8 => some 1 | .s8 => some 1 | .bool => some 1
  | .u16 => some 2 | .s16 => some 2 | .ipport => some 2
  | .u32 => some 4 | .s32 => some 4 | .f32 => some 4 | .ipaddr => some 4
  | .u64 => some 8 | .s64 => some 8 | .f64 => some 8
  | .vector3 => some 12 | .quaternion => some 12
  | .vector4 => some 16 | .uuid => some 16
  | .vector3d => some 24
  | .fixed => none | .variable => none

/-- The float components of a vector value. -/
def components : PyVal → Option (List F64)
  | .vec3 x y z => some [x, y, z]
  | .tuple ns => ns.mapM (fun n => match n with | .flt x => some x | .int _ => none)
  | _ => none

end Pyogp.Spec
