import Mathlib.Analysis.SpecialFunctions.Trigonometric.Basic

/-!
# Roads

Model of `Road_curvilinear` (src/core/vehicles/road_curvilinear.h, .hpp) and `Road_cartesian`
(src/core/vehicles/road_cartesian.hpp). Scalars are real numbers. A division by zero is an infinity or
a NaN in C++ and 0 in the model; theorems state the condition under which it does not happen.
-/

set_option autoImplicit false

namespace Verif.Road

/-- `sVector3d`. Used at road_curvilinear.hpp:4-40. -/
abbrev Vec3 := ℝ × ℝ × ℝ

/-- What a track returns at an arclength: `frenet_frame` with `position`, `euler_angles` and
`deuler_angles_ds`, used at road_curvilinear.hpp:106-119. -/
structure TrackPoint where
  position : Vec3
  yaw : ℝ
  pitch : ℝ
  roll : ℝ
  dyaw : ℝ
  dpitch : ℝ
  droll : ℝ

/-- `Road_curvilinear::curvature`, road_curvilinear.h:49-60. -/
noncomputable def curvature (f : TrackPoint) : Vec3 :=
  (f.droll - Real.sin f.pitch * f.dyaw,
   Real.cos f.roll * f.dpitch + Real.cos f.pitch * Real.sin f.roll * f.dyaw,
   -Real.sin f.roll * f.dpitch + Real.cos f.pitch * Real.cos f.roll * f.dyaw)

/-- `_tangent_vector`, road_curvilinear.hpp:122. -/
noncomputable def tangent (f : TrackPoint) : Vec3 :=
  (Real.cos f.yaw * Real.cos f.pitch, Real.sin f.yaw * Real.cos f.pitch, -Real.sin f.pitch)

/-- `_normal_vector`, road_curvilinear.hpp:124-126. -/
noncomputable def normal (f : TrackPoint) : Vec3 :=
  (Real.cos f.yaw * Real.sin f.pitch * Real.sin f.roll - Real.sin f.yaw * Real.cos f.roll,
   Real.sin f.yaw * Real.sin f.pitch * Real.sin f.roll + Real.cos f.yaw * Real.cos f.roll,
   Real.cos f.pitch * Real.sin f.roll)

/-- `_binormal_vector`, road_curvilinear.hpp:128-130. -/
noncomputable def binormal (f : TrackPoint) : Vec3 :=
  (Real.cos f.yaw * Real.sin f.pitch * Real.cos f.roll + Real.sin f.yaw * Real.sin f.roll,
   Real.sin f.yaw * Real.sin f.pitch * Real.cos f.roll - Real.cos f.yaw * Real.sin f.roll,
   Real.cos f.pitch * Real.cos f.roll)

/-- The members of `Road_curvilinear` that `update` writes, road_curvilinear.h:143-147 and
road.h:52-55. -/
structure Motion where
  dtimeds : ℝ
  nDot : ℝ
  alphaDot : ℝ
  position : Vec3
  psi : ℝ
  groundVz : ℝ

/-- `Road_curvilinear::update` after `update_track` at the point `f`, road_curvilinear.hpp:5-21.
`n` and `alpha` are the lateral displacement and the track heading angle, `u`, `v`, `omega` the velocity
and yaw rate of the body. -/
noncomputable def update (f : TrackPoint) (n alpha u v omega : ℝ) : Motion :=
  let dtimeds := (1 - n * (curvature f).2.2) / (u * Real.cos alpha - v * Real.sin alpha)
  { dtimeds := dtimeds
    nDot := u * Real.sin alpha + v * Real.cos alpha
    alphaDot := omega - (curvature f).2.2 / dtimeds
    position := f.position + n • normal f
    psi := alpha + f.yaw
    groundVz := n * (curvature f).1 / dtimeds }

/-- `Road_curvilinear::get_euler_angles_dot`, road_curvilinear.h:80: yaw, pitch and roll. -/
noncomputable def eulerAnglesDot (f : TrackPoint) (m : Motion) : Vec3 :=
  (f.dyaw / m.dtimeds, f.dpitch / m.dtimeds, f.droll / m.dtimeds)

/-- `Road_cartesian::update`, road_cartesian.hpp:5-15: the derivatives of X, Y and psi. -/
noncomputable def cartesian (psi u v omega : ℝ) : Vec3 :=
  (u * Real.cos psi - v * Real.sin psi, u * Real.sin psi + v * Real.cos psi, omega)

end Verif.Road
