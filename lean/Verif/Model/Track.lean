import Verif.Model.Preprocessor
import Verif.Model.Kerb
import Mathlib.Data.Real.Basic

/-!
# Track_by_polynomial

Model of `Track_by_polynomial` (src/core/vehicles/track_by_polynomial.h, .hpp). The polynomials of the
lion library are not part of the repository: one of order 1 built with `smooth = false` is taken to be
the piecewise linear function through its nodes (`line`).
-/

set_option autoImplicit false

namespace Verif.Track

open Verif.Road (Vec3 TrackPoint)
open Verif.Preprocessor (Point)
open Verif.Kerbs (Kerb augmentAll)

/-- `sPolynomial(s, v, 1, false)` evaluated at `t`: the piecewise linear function through the nodes.
Outside of them the library is not described: `none`. Used at track_by_polynomial.hpp:129-149. -/
noncomputable def line : List ℝ → List ℝ → ℝ → Option ℝ
  | s0 :: s1 :: s, v0 :: v1 :: v, t =>
    if t < s0 then none
    else if t ≤ s1 then some (v0 + (v1 - v0) * ((t - s0) / (s1 - s0)))
    else line (s1 :: s) (v1 :: v) t
  | _, _, _ => none

/-- What the constructor reads from `Circuit_preprocessor` (circuit_preprocessor.h:212-226,
circuit_geometry.h): arclengths, the values of every point, kerbs, and length. The vectors of a
computed circuit have one entry per point (circuit_preprocessor.hpp:625-641), so the values of a point
are kept together. -/
structure Circuit where
  closed : Bool
  withElevation : Bool
  s : List ℝ
  pts : List (Point ℝ)
  leftKerbs : List (Kerb ℝ)
  rightKerbs : List (Kerb ℝ)
  trackLength : ℝ

/-- The polynomials of a track: nodes and values, track_by_polynomial.h:69-84. -/
structure Polys where
  s : List ℝ
  x : List ℝ
  y : List ℝ
  z : List ℝ
  yaw : List ℝ
  dyaw : List ℝ
  wl : List ℝ
  wr : List ℝ
  /-- Nodes of the polynomials of pitch and roll. -/
  sAngles : List ℝ
  pitch : List ℝ
  roll : List ℝ
  dpitch : List ℝ
  droll : List ℝ

/-- `v.push_back(v.front())` when the circuit is closed; `front()` of an empty vector is undefined
(track_by_polynomial.hpp:110-127). -/
def closeWith {α : Type} (closed : Bool) (v : List α) : Res (List α) :=
  if closed then
    match v with
    | [] => .ub
    | a :: l => .ok (a :: l ++ [a])
  else .ok v

/-- `Track_by_polynomial(const Circuit_preprocessor&)`, track_by_polynomial.hpp:78-153. The rates of
pitch and roll are taken from `dpitch_dot` and `droll_dot` (87-88). -/
noncomputable def build (c : Circuit) : Res Polys :=
  (augmentAll c.leftKerbs c.s (c.pts.map Point.nl)).bind fun nl =>
  (augmentAll c.rightKerbs c.s (c.pts.map Point.nr)).bind fun nr =>
  (closeWith c.closed c.pts).bind fun pts =>
  (closeWith c.closed nl).bind fun nl =>
  (closeWith c.closed nr).bind fun nr =>
    let s := if c.closed then c.s ++ [c.trackLength] else c.s
    match s.head?, s.getLast? with
    | some a, some b =>
      .ok
        { s := s, x := pts.map Point.x, y := pts.map Point.y, z := pts.map Point.z
          yaw := pts.map Point.yaw, dyaw := pts.map Point.yawDot, wl := nl, wr := nr
          sAngles := if c.withElevation then s else [a, b]
          pitch := if c.withElevation then pts.map Point.pitch else [0, 0]
          roll := if c.withElevation then pts.map Point.roll else [0, 0]
          dpitch := if c.withElevation then pts.map Point.dpitchDot else [0, 0]
          droll := if c.withElevation then pts.map Point.drollDot else [0, 0] }
    | _, _ => .ub

/-- `operator()`, track_by_polynomial.h:45. -/
noncomputable def Polys.at (p : Polys) (t : ℝ) : Option TrackPoint :=
  (line p.s p.x t).bind fun x => (line p.s p.y t).bind fun y => (line p.s p.z t).bind fun z =>
  (line p.s p.yaw t).bind fun yaw => (line p.s p.dyaw t).bind fun dyaw =>
  (line p.sAngles p.pitch t).bind fun pitch => (line p.sAngles p.roll t).bind fun roll =>
  (line p.sAngles p.dpitch t).bind fun dpitch => (line p.sAngles p.droll t).map fun droll =>
    ⟨(x, y, z), yaw, pitch, roll, dyaw, dpitch, droll⟩

/-- `get_left_track_limit`, track_by_polynomial.h:29: `correction` is the value of the correction
polynomial, zero when it was never set. -/
noncomputable def Polys.leftLimit (p : Polys) (correction t : ℝ) : Option ℝ :=
  (line p.s p.wl t).map (· + correction)

/-- `get_right_track_limit`, track_by_polynomial.h:31. -/
noncomputable def Polys.rightLimit (p : Polys) (correction t : ℝ) : Option ℝ :=
  (line p.s p.wr t).map (· + correction)

/-- `get_total_length`, track_by_polynomial.h:35: the right bound of the polynomial of the position. -/
def Polys.totalLength (p : Polys) : Option ℝ := p.s.getLast?

/-- `has_elevation`, track_by_polynomial.hpp:156-160. `is_zero` of the library is taken to be the
absence of values above its tolerance `tol`; the one of the height is explicit. -/
noncomputable def Polys.hasElevation (p : Polys) (tol : ℝ) : Bool :=
  open Classical in
  decide (¬(∀ v ∈ p.pitch, |v| ≤ tol) ∨ ¬(∀ v ∈ p.roll, |v| ≤ tol)
    ∨ ¬(∀ v ∈ p.z, |v| < 1 / 10 ^ 12)
    ∨ ¬(∀ v ∈ p.dpitch, |v| ≤ tol) ∨ ¬(∀ v ∈ p.droll, |v| ≤ tol))

/-- The heading at a sample of a planar curve with derivative `d`, track_by_polynomial.hpp:59. -/
noncomputable def planarHeading (d : Vec3) : ℝ := Preprocessor.atan2 d.2.1 d.1

/-- The curvature at a sample of a planar curve with derivatives `d` and `d2`,
track_by_polynomial.hpp:60. -/
noncomputable def planarCurvature (d d2 : Vec3) : ℝ :=
  (Preprocessor.crossV d d2).2.2
    / (Preprocessor.normV d * (d.1 * d.1 + d.2.1 * d.2.1 + d.2.2 * d.2.2))

/-- The check that the curve is planar, track_by_polynomial.hpp:22-29: `blocks` are the coefficients of
every block of the polynomial. -/
noncomputable def planar (blocks : List (List Vec3)) : Res Unit :=
  open Classical in
  if ∀ b ∈ blocks, ∀ v ∈ b, |v.2.2| < 1 / 10 ^ 12 then .ok () else .throw

end Verif.Track
