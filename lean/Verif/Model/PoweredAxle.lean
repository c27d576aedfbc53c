import Verif.Model.Kart

/-!
# A single powered axle

Model of `Dynamic_model_powered_axle` (src/core/vehicles/dynamic_model_powered_axle.h, .hpp) with the rear
axle of the kart. The axle frame has the inertial frame as its parent (`Model/Frames`). A division by zero is
an infinity or a NaN in C++ and 0 in the model; theorems state the condition under which it does not happen.
-/

set_option autoImplicit false

namespace Verif.PoweredAxle

open Verif.Road (Vec3)
open Verif.Kart (AxleK wheelUpdate)
open Verif.F1 (WheelOut)

/-- The parameters: the axle with its tyres, its inertia and engine, and the members `_m` and `_Fz`,
dynamic_model_powered_axle.h:47-58. The stiffnesses read in the constructor
(dynamic_model_powered_axle.hpp:16-18) are those of the axle, from the same elements of the database. -/
structure Model where
  axle : AxleK
  inertia : ℝ
  power : Power.Axle3
  mass : ℝ
  Fz : ℝ

/-- `_z`, dynamic_model_powered_axle.hpp:20-23. -/
noncomputable def height (m : Model) : ℝ :=
  let a := m.axle.susp
  m.Fz / (a.kChassis * a.kTire / (a.kChassis + a.kTire)) - a.R0

/-- The states, dynamic_model_powered_axle.h:17-20: angular speed of the axle, position and heading on the
road, forward velocity. -/
structure State where
  omega : ℝ
  x : ℝ
  y : ℝ
  psi : ℝ
  u : ℝ

/-- The tyres after `_axle.update({X, 0, _z}, {_u, 0, 0}, 0, 0)`, dynamic_model_powered_axle.hpp:43,
axle_car_6dof.hpp:99-161. -/
noncomputable def tyres (m : Model) (q : State) : WheelOut × WheelOut :=
  let a := m.axle
  let h := Power.tyreHeight a.susp (height m) 0 0
  let dh := Power.tyreVelocity a.susp 0 0
  (wheelUpdate a (q.x, 0, height m) (q.u, 0, 0) (-(1 / 2) * a.susp.track) h.1 dh.1 0 (0, 0, 0) (0, 0, 0) q.omega,
   wheelUpdate a (q.x, 0, height m) (q.u, 0, 0) (1 / 2 * a.susp.track) h.2 dh.2 0 (0, 0, 0) (0, 0, 0) q.omega)

/-- `operator()`, dynamic_model_powered_axle.hpp:29-58: the derivatives of the states for the throttle given.
The aerodynamic force is `0.5*1.2*u*u*0.7` (54); `_domega` is the one of axle_car_6dof.hpp:164-168. -/
noncomputable def derivative (m : Model) (q : State) (throttle : ℝ) : State :=
  let t := tyres m q
  let road := Road.cartesian q.psi q.u 0 0
  let F := Chassis.axleForces t.1.wheel t.2.wheel
  { omega := (Power.kartTorque m.power throttle q.omega + Tyre.wheelTorque t.1.kin t.1.Fx
      + Tyre.wheelTorque t.2.kin t.2.Fx) / m.inertia
    x := road.1
    y := road.2.1
    psi := road.2.2
    u := (F.1.1 - 1 / 2 * (12 / 10) * q.u * q.u * (7 / 10)) / m.mass }

end Verif.PoweredAxle
