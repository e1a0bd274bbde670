import Verif.Spec.IeeeReal
import Verif.Model.Datatypes

/-!
# Points in space
-/

namespace Pyogp.Spec

/-- All coordinates are finite doubles. -/
def FiniteVec (a : Vec3) : Prop := IsFinite a.X ∧ IsFinite a.Y ∧ IsFinite a.Z

/-- All coordinates are at most `2^500` in absolute value. -/
def Within (a : Vec3) : Prop := |realOf a.X| ≤ 2 ^ 500 ∧ |realOf a.Y| ≤ 2 ^ 500 ∧ |realOf a.Z| ≤ 2 ^ 500

/-- The square of the distance between two points, a real number. -/
noncomputable def exactDistance (a b : Vec3) : ℝ :=
  (realOf a.X - realOf b.X) ^ 2 + (realOf a.Y - realOf b.Y) ^ 2 + (realOf a.Z - realOf b.Z) ^ 2

end Pyogp.Spec
