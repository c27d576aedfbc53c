import Verif.Model.Track

/-!
# Tracks built from a planar curve

Model of the constructor of `Track_by_polynomial` from a polynomial of positions
(src/core/vehicles/track_by_polynomial.hpp:17-75): the check, and the samples of heading and curvature to
which the polynomials of the track are fitted. The fit itself belongs to the lion library and is not modelled.
-/

set_option autoImplicit false

namespace Verif.Track

open Verif.Road (Vec3)

/-- A block of the polynomial of positions: its ends, and the number of coefficients of its derivative,
track_by_polynomial.hpp:42-48. -/
structure Block where
  left : ℝ
  right : ℝ
  order : Nat

/-- `linspace` of the lion library, used at track_by_polynomial.hpp:51: `n` values at equal distances, both
ends included. -/
noncomputable def linspace (a b : ℝ) (n : Nat) : List ℝ :=
  (List.range n).map fun i : Nat => a + (b - a) * (i / (n - 1 : ℝ))

/-- A sample: parameter, heading and curvature, track_by_polynomial.hpp:51-60. -/
structure Sample where
  t : ℝ
  yaw : ℝ
  yawDot : ℝ

/-- The samples of a block, track_by_polynomial.hpp:50-62. `dp` and `d2p` are the derivatives of the curve
(32-33). -/
noncomputable def blockSamples (dp d2p : ℝ → Vec3) (b : Block) : List Sample :=
  (linspace b.left b.right (2 * b.order + 1)).map fun t =>
    ⟨t, planarHeading (dp t), planarCurvature (dp t) (d2p t)⟩

/-- The constructor up to the fits, track_by_polynomial.hpp:22-65: `coeffs` are the coefficients of every block,
which are checked first. -/
noncomputable def planarSamples (coeffs : List (List Vec3)) (dp d2p : ℝ → Vec3) (blocks : List Block) :
    Res (List (List Sample)) :=
  (planar coeffs).bind fun _ => .ok (blocks.map (blockSamples dp d2p))

end Verif.Track
