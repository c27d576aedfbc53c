import Mathlib.Data.Real.Basic
import Verif.Model.Road

/-! Vocabulary for the properties of roads. -/

set_option autoImplicit false

namespace Verif.Road

/-- Scalar product. -/
def dot (a b : Vec3) : ℝ := a.1 * b.1 + a.2.1 * b.2.1 + a.2.2 * b.2.2

/-- Vector product. -/
def cross (a b : Vec3) : Vec3 :=
  (a.2.1 * b.2.2 - a.2.2 * b.2.1, a.2.2 * b.1 - a.1 * b.2.2, a.1 * b.2.1 - a.2.1 * b.1)

/-- Direction in which the car points: the tangent turned by `alpha` in the plane of the road. -/
noncomputable def forward (f : TrackPoint) (alpha : ℝ) : Vec3 :=
  Real.cos alpha • tangent f + Real.sin alpha • normal f

/-- Direction to the side of the car: the normal turned by `alpha` in the plane of the road. -/
noncomputable def sideways (f : TrackPoint) (alpha : ℝ) : Vec3 :=
  -Real.sin alpha • tangent f + Real.cos alpha • normal f

end Verif.Road
