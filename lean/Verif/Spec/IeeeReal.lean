import Verif.Spec.Ieee
import Verif.Model.Float
import Mathlib.Data.Real.Basic
import Mathlib.Algebra.Order.Group.Unbundled.Abs

/-! # Specification: the real number denoted by a finite double -/

namespace Pyogp.Spec

/-- The real number denoted by a finite double. -/
noncomputable def realOf (x : F64) : ℝ :=
  (if neg64 x.toNat then -(mag64 x.toNat : ℝ) else (mag64 x.toNat : ℝ)) / 2 ^ 1074

/-- A finite double. -/
def IsFinite (x : F64) : Prop := Finite64 x.toNat

/-- `x` is the finite double nearest to the real number `r`; if two are equally near, the one whose last bit is 0 (IEEE-754, round to nearest, ties to even). -/
def Nearest (r : ℝ) (x : F64) : Prop :=
  IsFinite x ∧ ∀ y, IsFinite y → |realOf x - r| ≤ |realOf y - r| ∧ (|realOf x - r| = |realOf y - r| → realOf y ≠ realOf x → x.toNat % 2 = 0)

end Pyogp.Spec
