import Verif.Model.Message
import Verif.Spec.Wire
import Verif.Spec.Ieee

/-!
# Specification: what a receiver sees for the value of a field

`receivedAs rt v x` is the value a peer is meant to obtain for a field declared as `v` in the template when the
sender puts `x` into it (`none`: not a value of that type, or too large for its slot).  It is given type by type, without packing anything.
-/

namespace Pyogp.Spec

/-- `s` without its trailing NUL bytes. -/
def IsStripped (s r : Bytes) : Prop := (∃ k, s = r ++ List.replicate k 0) ∧ ∀ r', r ≠ r' ++ [0]

/-- A number as a double (`float(n)`). -/
def asDouble : Num → Option F64
  | .int i => intToF64 i
  | .flt x => some x

/-- The single nearest to `x`, as a double (see `C03_f32_rounding`, `C03_f32_value`). -/
def toSingle (x : F64) : Option F64 := (narrowBits x.toNat).map (fun f => BitVec.ofNat 64 (widenBits f))

/-- Component of a single-precision field. -/
def single (n : Num) : Option F64 := do toSingle (← asDouble n)

/-- The whole part of a finite double (truncated towards zero), from its magnitude in units of `2^-1074`. -/
def wholePart (x : F64) : Option Int :=
  if x.toNat / 2 ^ 52 % 2 ^ 11 = 2047 then none
  else some (if neg64 x.toNat then -((mag64 x.toNat / 2 ^ 1074 : Nat) : Int) else (mag64 x.toNat / 2 ^ 1074 : Nat))

/-- A number as an integer (`int(n)`). -/
def asInteger : Num → Option Int
  | .int i => some i
  | .flt x => wholePart x

/-- The bytes of a text value. -/
def textBytes : PyVal → Option Bytes
  | .none => some []
  | .str b => some b
  | .unicode u => some u
  | _ => none

/-- The components of a vector value. -/
def nums : PyVal → Option (List Num)
  | .tuple ns => some ns
  | .vec3 x y z => some [.flt x, .flt y, .flt z]
  | _ => none

/-- The components of a quaternion value (`X`, `Y`, `Z`, `W`; anything after them is ignored). -/
def quatNums : PyVal → Option (Num × Num × Num × Num)
  | .quat a b c d => some (.flt a, .flt b, .flt c, .flt d)
  | .tuple (a :: b :: c :: d :: _) => some (a, b, c, d)
  | _ => none

/-- A number is not negative. -/
def atLeastZero : Num → Bool
  | .int i => decide (0 ≤ i)
  | .flt x => x.nonneg

/-- The number with the other sign. -/
def opposite : Num → Num
  | .int i => .int (0 - i)
  | .flt x => .flt x.neg

/-- What the receiver is meant to see. Text comes without its trailing NULs unless the field is called `Data`. -/
def receivedAs (rt : Runtime) (v : TVar) (x : PyVal) : Option PyVal :=
  match v.type with
  | .variable =>
    match textBytes x with
    | some s =>
      if s.length + 1 < 256 ^ v.size then
        if v.name = "Data" then some (.str (s ++ [0])) else some (.str (s.reverse.dropWhile (· == 0)).reverse)
      else none
    | none => none
  | .u8 | .u16 | .u32 | .u64 | .s8 | .s16 | .s32 | .s64 | .bool | .ipport =>
    match x with
    | .num n =>
      match asInteger n, wireInt v.type with
      | some i, some (n, s, _) => if InRange n s i then some (.num (.int i)) else none
      | _, _ => none
    | _ => none
  | .f32 =>
    match x with
    | .num n => (single n).map (fun y => .num (.flt y))
    | _ => none
  | .f64 =>
    match x with
    | .num n => (asDouble n).map (fun y => .num (.flt y))
    | _ => none
  | .vector3 =>
    match nums x with
    | some [a, b, c] => do
      let a ← single a
      let b ← single b
      let c ← single c
      some (.vec3 a b c)
    | _ => none
  | .vector3d =>
    match x with
    | .tuple [a, b, c] => do
      let a ← asDouble a
      let b ← asDouble b
      let c ← asDouble c
      some (.tuple [.flt a, .flt b, .flt c])
    | _ => none
  | .vector4 =>
    match x with
    | .tuple [a, b, c, d] => do
      let a ← single a
      let b ← single b
      let c ← single c
      let d ← single d
      some (.tuple [.flt a, .flt b, .flt c, .flt d])
    | _ => none
  | .quaternion =>
    match quatNums x with
    | some (a, b, c, d) => do
      let a ← single (if atLeastZero d then a else opposite a)
      let b ← single (if atLeastZero d then b else opposite b)
      let c ← single (if atLeastZero d then c else opposite c)
      some (.quat a b c (rt.quatW a b c))
    | none => none
  | .uuid =>
    match x with
    | .uuid u => some (.uuid u)
    | _ => none
  | .fixed | .ipaddr =>
    -- The packer appends a NUL, so only a value one byte short of the declared size stays in its slot (C04).
    match textBytes x with
    | some s => if s.length + 1 = v.size then some (.str (s ++ [0])) else none
    | none => none

/-- A template variable whose size is the width of its type: fixed-width types have their width, variable-length ones a
length prefix of 1, 2 or 4 bytes. -/
def WFVar (v : TVar) : Prop :=
  match wireWidth v.type with
  | some n => v.size = n
  | none => if v.type = .variable then v.size = 1 ∨ v.size = 2 ∨ v.size = 4 else 0 < v.size

instance (v : TVar) : Decidable (WFVar v) := by unfold WFVar; split <;> infer_instance

end Pyogp.Spec
