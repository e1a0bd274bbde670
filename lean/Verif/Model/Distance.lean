import Verif.Model.Datatypes
import Verif.Model.Ieee

/-!
# `Vector3.dist_squared`
-/

namespace Pyogp

/-- `datatypes.py:87-92` (`dist_squared`), on doubles.  For finite components this is the result bit by bit: no step can give a NaN or a negative zero
(`Model/Ieee` reads an infinity, the result of an overflow, as a number of at least `2^1024`, and the square and the sums overflow again). -/
def distSquared (a b : Vec3) : F64 :=
  let x := F64.sub a.X b.X
  let y := F64.sub a.Y b.Y
  let z := F64.sub a.Z b.Z
  F64.add (F64.add (F64.mul x x) (F64.mul y y)) (F64.mul z z)

end Pyogp
