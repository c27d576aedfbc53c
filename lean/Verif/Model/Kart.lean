import Verif.Model.F1

/-!
# The kart

Model of `lot2016kart` (src/core/vehicles/lot2016kart.h), `Chassis_car_6dof`
(src/core/chassis/chassis_car_6dof.h, .hpp) and `Axle_car_6dof` (src/core/chassis/axle_car_6dof.h, .hpp).
Scalars are real numbers. The kart refuses tracks with elevation (lot2016kart.h:48-52, 64-68): the road is
flat in this model, its frame has the velocity `(u, v, 0)` and the angular velocity `(0, 0, omega)` in body
axes, its height is zero, and it only turns about the vertical. `linsolve`, `smooth_pos` and `g0` belong to
the lion library (not part of /repo) and are parameters. A division by zero is an infinity or a NaN in C++
and 0 in the model; theorems state the condition under which it does not happen.
-/

set_option autoImplicit false

namespace Verif.Kart

open Verif.Road Verif.Chassis
open Verif.F1 (Writes written Limits DEG KMH RoadKind WheelOut)

/-! ### Indices, lot2016kart.h:20-32 -/

/-- `OMEGA_AXLE`: tyres and front axle add no input (axle_car_6dof.h:36-48, 73-76). -/
def iAxle : Nat := 0

/-- `velocity_x_mps`, `velocity_y_mps`, `yaw_rate_radps`, chassis.h:32-53. -/
def iChassis : Nat := iAxle + 1

/-- `Z`, `PHI`, `MU`, `DZDT`, `DPHIDT`, `DMUDT`, chassis_car_6dof.h:51-77. -/
def iBody : Nat := iChassis + 3

/-- `time` of a curvilinear road (road_curvilinear.h:16-24) or `X` of a cartesian one
(road_cartesian.h:12-20). -/
def iRoad : Nat := iBody + 6

/-- `number_of_inputs`, dynamic_model_car.h:33-34. -/
def nInputs : Nat := iRoad + 3

/-- `STEERING`, axle_car_6dof.h:78-85. -/
def cSteering : Nat := 0

/-- `TORQUE`, axle_car_6dof.h:60-67. -/
def cTorque : Nat := cSteering + 1

/-- `number_of_controls`, dynamic_model_car.h:35. -/
def nControls : Nat := cTorque + 1

/-! ### The kart -/

/-- An axle with its two tyres, which read the same parameters (chassis_car_6dof.hpp:58-65). `ct` is the
radial damping, `sp` is `smooth_pos(., _Fz_max_ref2)` (tire_pacejka.hpp:94-103); the radial stiffness and the
radius of the tyre are in `susp`. -/
structure AxleK where
  susp : Power.Axle6
  onlyLateral : Bool
  ct : ℝ
  sp : ℝ → ℝ
  std : Tyre.Std

/-- The parameters of the kart: chassis.h:255-270, chassis_car_6dof.h:233-235, axle_car_6dof.h:360-375. `I`
are the rows of the inertia matrix, `IAxle` and `power` belong to the rear axle. -/
structure Vehicle where
  g0 : ℝ
  mass : ℝ
  I : Vec3 × Vec3 × Vec3
  aero : Aero
  xCom : Vec3
  xFront : Vec3
  xRear : Vec3
  front : AxleK
  rear : AxleK
  IAxle : ℝ
  power : Power.Axle3

/-- The members that `set_state_and_controls` writes: axle_car_6dof.hpp:285-305, chassis.hpp:339-355,
chassis_car_6dof.hpp:285-315, and those of the road. -/
structure Members where
  omegaAxle : ℝ
  u : ℝ
  v : ℝ
  omega : ℝ
  z : ℝ
  phi : ℝ
  mu : ℝ
  dz : ℝ
  dphi : ℝ
  dmu : ℝ
  steering : ℝ
  throttle : ℝ
  road1 : ℝ
  road2 : ℝ
  road3 : ℝ

/-- `set_state_and_controls` of the chassis (chassis_car_6dof.hpp:283-313, chassis.hpp:339-355,
axle_car_6dof.hpp:285-305) and of the road (road_curvilinear.hpp:43-59, road_cartesian.hpp:36-52). -/
def setState (q u : Nat → ℝ) : Members :=
  { omegaAxle := q iAxle
    u := q iChassis
    v := q (iChassis + 1)
    omega := q (iChassis + 2)
    z := q iBody
    phi := q (iBody + 1)
    mu := q (iBody + 2)
    dz := q (iBody + 3)
    dphi := q (iBody + 4)
    dmu := q (iBody + 5)
    steering := u cSteering
    throttle := u cTorque
    road1 := q iRoad
    road2 := q (iRoad + 1)
    road3 := q (iRoad + 2) }

/-- `get_com_position`, chassis_car_6dof.h:143: the origin of the chassis frame in the road frame
(chassis_car_6dof.hpp:106). -/
def comPosition (c : Vehicle) (m : Members) : Vec3 := c.xCom + (0, 0, m.z)

/-- `get_front_axle_position`, `get_rear_axle_position`, chassis_car_6dof.h:152-156: in the chassis frame. -/
def axlePosition (x : Vec3) (m : Members) : Vec3 := x + (0, 0, -m.mu * x.1)

/-- `get_front_axle_velocity`, `get_rear_axle_velocity`, chassis_car_6dof.h:167-169. -/
def axleVelocity (x : Vec3) (m : Members) : Vec3 := (0, 0, -m.dmu * x.1)

/-- `tire.update(x0, v0, omega)`, tire_pacejka.hpp:77-103 and tire.hpp:44-75, on a flat road: `axle` and
`daxle` are position and velocity of the axle frame in the road frame, `y` and `h` the position of the tyre in
the axle frame and `dh` its vertical velocity, `vel` and `om` the velocity and the angular velocity of the road
frame. The tyre frame is turned by `delta` (axle_car_6dof.hpp:220-225). -/
noncomputable def wheelUpdate (a : AxleK) (axle daxle : Vec3) (y h dh delta : ℝ) (vel om : Vec3) (omega : ℝ) :
    WheelOut :=
  let R0 := a.susp.R0
  let x := axle + (0, y, h)
  let dx := daxle + (0, 0, dh)
  let w := x.2.2 + R0
  let dw := (vel + dx + cross om (x + (0, 0, R0))).2.2
  let v := rotZ (-delta) (vel + dx + cross om (x + (0, 0, R0 - w)))
  let kin := Tyre.updateOmega ⟨a.onlyLateral, R0, 0, 0, 0, 0, 0, 0⟩ w v.1 v.2.1 omega
  let Fz := a.sp (a.susp.kTire * w + a.ct * dw)
  let Fx := Tyre.stdX a.std kin.kappa kin.lambda Fz
  let Fy := Tyre.stdY a.std kin.kappa kin.lambda Fz
  let FT := Tyre.forceTorque kin Fx Fy Fz
  { kin := kin, Fx := Fx, Fy := Fy, Fz := Fz,
    wheel := { force := FT.1, torque := FT.2, delta := delta, position := (0, y, h) } }

/-- An axle after its update: tyres, force and torque of the axle, and its position in the road frame
(axle_car_6dof.hpp:109-181). -/
structure AxleOut where
  left : WheelOut
  right : WheelOut
  forces : Vec3 × Vec3
  position : Vec3

/-- `Axle_car_6dof::update`, axle_car_6dof.hpp:99-181, of the axle at `x` in the chassis frame. `delta` and
`omega` are `_delta` and `_omega`. The height of the axle frame is the vertical component of its position. -/
noncomputable def axleUpdate (c : Vehicle) (m : Members) (a : AxleK) (x : Vec3) (delta omega : ℝ) : AxleOut :=
  let position := comPosition c m + axlePosition x m
  let velocity := (0, 0, m.dz) + axleVelocity x m
  let h := Power.tyreHeight a.susp position.2.2 m.phi delta
  let dh := Power.tyreVelocity a.susp velocity.2.2 m.dphi
  let l := wheelUpdate a position velocity (-(1 / 2) * a.susp.track) h.1 dh.1 delta (m.u, m.v, 0) (0, 0, m.omega) omega
  let r := wheelUpdate a position velocity (1 / 2 * a.susp.track) h.2 dh.2 delta (m.u, m.v, 0) (0, 0, m.omega) omega
  { left := l, right := r, forces := axleForces l.wheel r.wheel, position := position }

/-- The front axle: its `_omega` is never set (axle_car_6dof.hpp:20, 59). -/
noncomputable def frontAxle (c : Vehicle) (m : Members) : AxleOut := axleUpdate c m c.front c.xFront m.steering 0

/-- The rear axle: its `_delta` is never set (axle_car_6dof.hpp:25, 64). -/
noncomputable def rearAxle (c : Vehicle) (m : Members) : AxleOut := axleUpdate c m c.rear c.xRear 0 m.omegaAxle

/-- `_domega`, axle_car_6dof.hpp:164-168, with the torque of set_throttle_and_omega (186-206). -/
noncomputable def axleAcceleration (c : Vehicle) (m : Members) : ℝ :=
  (Power.kartTorque c.power m.throttle m.omegaAxle
    + Tyre.wheelTorque (rearAxle c m).left.kin (rearAxle c m).left.Fx
    + Tyre.wheelTorque (rearAxle c m).right.kin (rearAxle c m).right.Fx) / c.IAxle

/-- `F_aero`, chassis_car_6dof.hpp:133-134: `heading` is the direction of the kart. -/
noncomputable def aeroForce (c : Vehicle) (m : Members) (heading : ℝ) : Vec3 :=
  (aeroForces c.aero ⟨0, 0, 0, heading⟩ (m.u, m.v, 0)).lift + (aeroForces c.aero ⟨0, 0, 0, heading⟩ (m.u, m.v, 0)).drag

/-- `_total_force_N`, chassis_car_6dof.hpp:125-127, 135. -/
noncomputable def totalForce (c : Vehicle) (m : Members) (heading : ℝ) : Vec3 :=
  (frontAxle c m).forces.1 + (rearAxle c m).forces.1 + (0, 0, c.mass * c.g0) + aeroForce c m heading

/-- `_total_torque_Nm`, chassis_car_6dof.hpp:129-130, 136. -/
noncomputable def totalTorque (c : Vehicle) (m : Members) (heading : ℝ) : Vec3 :=
  let f := frontAxle c m
  let r := rearAxle c m
  f.forces.2 + cross f.position f.forces.1 + r.forces.2 + cross r.position r.forces.1
    + cross (comPosition c m) (aeroForce c m heading)

/-- `Newton_lhs`, chassis_car_6dof.hpp:158-165. -/
def newtonLhs (m : Members) : Vec3 := cross (0, 0, m.omega) (m.u, m.v, 0)

/-- `dvdt`, chassis_car_6dof.hpp:139-146: the derivatives of `u`, `v` and `dz`. -/
noncomputable def dvdt (c : Vehicle) (m : Members) (heading : ℝ) : Vec3 :=
  -newtonLhs m + (1 / c.mass) • totalForce c m heading

/-- `Euler_lhs`, chassis_car_6dof.hpp:169-189: `du`, `dv` are the accelerations just computed. -/
noncomputable def eulerLhs (c : Vehicle) (m : Members) (du dv : ℝ) : Vec3 :=
  let Ixx := c.I.1.1
  let Iyy := c.I.2.1.2.1
  let Izz := c.I.2.2.2.2
  let Ixz := c.I.1.2.2
  let Izx := c.I.2.2.1
  let h := -c.xCom.2.2
  (c.mass * (dv * h + (h - m.z) * m.omega * m.u) - (Iyy - Izz + Ixx) * m.omega * m.dmu
     - (Iyy - Izz) * m.omega * m.omega * m.phi,
   c.mass * ((m.z - h) * du + h * m.omega * m.v) + (Iyy - Izz + Ixx) * m.omega * m.dphi
     - ((Ixx - Izz) * m.mu + Ixz) * m.omega * m.omega,
   2 * Izx * m.dmu * m.omega)

/-- `Euler_m`, chassis_car_6dof.hpp:193-200: the rows. -/
def eulerM (c : Vehicle) (m : Members) : Vec3 × Vec3 × Vec3 :=
  let Ixx := c.I.1.1
  let Iyy := c.I.2.1.2.1
  let Izz := c.I.2.2.2.2
  let Ixz := c.I.1.2.2
  ((Ixx, 0, -(Ixx - Izz) * m.mu - Ixz), (0, Iyy, (Iyy - Izz) * m.phi), (-Ixz, 0, Izz + 2 * Ixz * m.mu))

/-- `d2phi`, chassis_car_6dof.hpp:149-153: roll, pitch and yaw accelerations. `solve` is `linsolve`. -/
noncomputable def angularAcceleration (solve : Vec3 × Vec3 × Vec3 → Vec3 → Vec3) (c : Vehicle) (m : Members)
    (heading : ℝ) : Vec3 :=
  let a := dvdt c m heading
  solve (eulerM c m) (-eulerLhs c m a.1 a.2.1 + totalTorque c m heading)

/-- `get_acceleration`, chassis_car_6dof.h:159: "the chassis CoM absolute acceleration in road frame". -/
noncomputable def getAcceleration (c : Vehicle) (m : Members) (heading : ℝ) : Vec3 := dvdt c m heading

/-! ### The equations -/

/-- What the road gives: the direction of the kart, `dtimeds` and the derivatives of the states of the road,
dynamic_model_car.hpp:71-97. -/
structure RoadOut where
  heading : ℝ
  dtimeds : ℝ
  rates : Vec3

/-- A curvilinear road at the track point `f`, road_curvilinear.hpp:4-40. The direction is the sum of the yaw
of the track and the track heading angle: both turn about the vertical on a flat track. -/
noncomputable def roadCurvilinear (f : TrackPoint) (m : Members) : RoadOut :=
  let r := Road.update f m.road2 m.road3 m.u m.v m.omega
  { heading := f.yaw + m.road3, dtimeds := r.dtimeds, rates := (1, r.nDot, r.alphaDot) }

/-- A cartesian road, road_cartesian.hpp:4-34. -/
noncomputable def roadCartesian (m : Members) : RoadOut :=
  { heading := m.road3, dtimeds := 1, rates := cartesian m.road3 m.u m.v m.omega }

/-- The states with their time derivatives in the order of their indices: axle_car_6dof.hpp:246-258,
chassis.hpp:379-396, chassis_car_6dof.hpp:219-250, road_curvilinear.hpp:24-40, road_cartesian.hpp:18-34. -/
noncomputable def allStates (solve : Vec3 × Vec3 × Vec3 → Vec3 → Vec3) (c : Vehicle) (m : Members) (r : RoadOut) :
    List (ℝ × ℝ) :=
  let a := dvdt c m r.heading
  let b := angularAcceleration solve c m r.heading
  [(m.omegaAxle, axleAcceleration c m), (m.u, a.1), (m.v, a.2.1), (m.omega, b.2.2),
   (m.z, m.dz), (m.phi, m.dphi), (m.mu, m.dmu), (m.dz, a.2.2), (m.dphi, b.1), (m.dmu, b.2.1),
   (m.road1, r.rates.1), (m.road2, r.rates.2.1), (m.road3, r.rates.2.2)]

/-- `operator()`, dynamic_model_car.hpp:51-108: states, and derivatives multiplied by `dtimeds`. -/
noncomputable def evaluate (solve : Vec3 × Vec3 × Vec3 → Vec3 → Vec3) (c : Vehicle) (m : Members) (r : RoadOut) :
    F1.Equations :=
  let l := allStates solve c m r
  { states := l.map Prod.fst, dstates := l.map fun x => x.2 * r.dtimeds }

/-- `transform_states_to_inputs`, dynamic_model_car.hpp:8-20, chassis.hpp:191-209, axle_car_6dof.h:169-171: the
two velocities are written over a copy of the states. -/
def statesToInputs (states : Nat → ℝ) : Nat → ℝ :=
  written states [(iChassis, states iChassis), (iChassis + 1, states (iChassis + 1))]

/-! ### Names and limits -/

/-- The names of the inputs: axle_car_6dof.hpp:263-282, chassis.hpp:357-373, chassis_car_6dof.hpp:255-280,
road_curvilinear.hpp:85-100, road_cartesian.hpp:80-96, dynamic_model_car.hpp:206-216. -/
def inputNames (r : RoadKind) : Nat → String :=
  written (fun _ => "")
    ((match r with
      | .curvilinear => [(iRoad, "time"), (iRoad + 1, "road.lateral-displacement"),
          (iRoad + 2, "road.track-heading-angle")]
      | .cartesian => [(iRoad, "x"), (iRoad + 1, "y"), (iRoad + 2, "psi")]) ++
     [(iAxle, "rear-axle.omega"), (iChassis, "chassis.velocity.x"), (iChassis + 1, "chassis.velocity.y"),
      (iChassis + 2, "chassis.omega.z"), (iBody, "chassis.position.z"), (iBody + 1, "chassis.attitude.phi"),
      (iBody + 2, "chassis.attitude.mu"), (iBody + 3, "chassis.velocity.z"), (iBody + 4, "chassis.omega.x"),
      (iBody + 5, "chassis.omega.y")])

/-- The names of the controls, axle_car_6dof.hpp:273-281. -/
def controlNames : Nat → String :=
  written (fun _ => "") [(cSteering, "front-axle.steering-angle"), (cTorque, "rear-axle.throttle")]

/-- The default values and bounds of the inputs: axle_car_6dof.hpp:316-326, chassis.hpp:398-425,
chassis_car_6dof.hpp:317-368, road_curvilinear.hpp:61-82, road_cartesian.hpp:54-75. `junk` is what was in
memory, `lowest` and `highest` are the limits of `scalar`. -/
noncomputable def inputLimits (lowest highest : ℝ) (r : RoadKind) (junk : Nat → Limits) : Nat → Limits :=
  written junk
    ([(iAxle, ⟨10 * KMH / (139 / 1000), 10 * KMH / (139 / 1000), 200 * KMH / (139 / 1000)⟩),
      (iChassis, ⟨10 * KMH, 10 * KMH, 200 * KMH⟩), (iChassis + 1, ⟨0, -(10 * KMH), 10 * KMH⟩),
      (iChassis + 2, ⟨0, -10, 10⟩),
      (iBody, ⟨1 / 10 ^ 5, 1 / 10 ^ 5, 139 / 1000⟩), (iBody + 1, ⟨0, -30 * DEG, 30 * DEG⟩),
      (iBody + 2, ⟨0, -30 * DEG, 30 * DEG⟩), (iBody + 3, ⟨0, -10, 10⟩), (iBody + 4, ⟨0, -10, 10⟩),
      (iBody + 5, ⟨0, -10, 10⟩)] ++
     (match r with
      | .curvilinear => [(iRoad, ⟨0, 0, highest⟩), (iRoad + 1, ⟨0, lowest, highest⟩),
          (iRoad + 2, ⟨0, -45 * DEG, 45 * DEG⟩)]
      | .cartesian => [(iRoad, ⟨0, lowest, highest⟩), (iRoad + 1, ⟨0, lowest, highest⟩),
          (iRoad + 2, ⟨0, lowest, highest⟩)]))

/-- The default values and bounds of the controls, axle_car_6dof.hpp:323-333. -/
noncomputable def controlLimits (junk : Nat → Limits) : Nat → Limits :=
  written junk [(cSteering, ⟨0, -20 * DEG, 20 * DEG⟩), (cTorque, ⟨0, -1, 1⟩)]

/-- `optimal_laptime_derivative_control_bounds`, lot2016kart.h:186-192. -/
noncomputable def rateBounds (directTorque : Bool) : List ℝ × List ℝ :=
  if directTorque then ([-20 * DEG, -4000], [20 * DEG, 4000]) else ([-20 * DEG, -10], [20 * DEG, 10])

/-- `optimal_laptime_extra_constraints`, lot2016kart.h:200-211. -/
noncomputable def extraConstraints (c : Vehicle) (m : Members) : List ℝ :=
  [(rearAxle c m).left.kin.kappa, (rearAxle c m).right.kin.kappa, (frontAxle c m).left.kin.lambda,
   (frontAxle c m).right.kin.lambda, (rearAxle c m).left.kin.lambda, (rearAxle c m).right.kin.lambda]

/-- `optimal_laptime_extra_constraints_bounds`, lot2016kart.h:194-198. -/
noncomputable def extraBounds : List ℝ × List ℝ :=
  ([-(11 / 100), -(11 / 100), -(11 / 100), -(11 / 100), -(11 / 100), -(11 / 100)],
   [11 / 100, 11 / 100, 11 / 100, 11 / 100, 11 / 100, 11 / 100])

/-! ### Steady state -/

/-- `steady_state_initial_guess`, lot2016kart.h:83-86. -/
noncomputable def steadyGuess : List ℝ := [0, 2 / 100, 0, 0, 0, 0]

/-- `steady_state_variable_bounds`, lot2016kart.h:88-92. -/
noncomputable def steadyVariableBounds : List ℝ × List ℝ :=
  ([-(1 / 2), 1 / 10 ^ 4, -10 * DEG, -10 * DEG, -10 * DEG, -10 * DEG],
   [1 / 2, 4 / 100, 10 * DEG, 10 * DEG, 10 * DEG, 10 * DEG])

/-- `get_x`, lot2016kart.h:104-116. -/
noncomputable def getX (q u : Nat → ℝ) (V : ℝ) : List ℝ :=
  [(q iAxle * (139 / 1000) - V) / V, q iBody, q (iBody + 1), q (iBody + 2), q (iRoad + 2), u cSteering]

/-- The inputs built by `steady_state_equations`, lot2016kart.h:134-151. -/
noncomputable def steadyInputs (x : Nat → ℝ) (ay V : ℝ) : Writes ℝ :=
  [(iAxle, (x 0 + 1) * V / (139 / 1000)), (iChassis, V * Real.cos (x 4)), (iChassis + 1, -V * Real.sin (x 4)),
   (iChassis + 2, ay / V), (iBody, x 1), (iBody + 1, x 2), (iBody + 2, x 3), (iBody + 3, 0), (iBody + 4, 0),
   (iBody + 5, 0), (iRoad, 0), (iRoad + 1, 0), (iRoad + 2, x 4)]

/-- The controls built by `steady_state_equations`, lot2016kart.h:153-156. -/
def steadyControls (x : Nat → ℝ) : Writes ℝ := [(cSteering, x 5), (cTorque, 0)]

/-- `steady_state_equations`, lot2016kart.h:127-182, on a cartesian road: the constraints. `junkQ` and `junkU`
are what the arrays held before. -/
noncomputable def steadyEquations (solve : Vec3 × Vec3 × Vec3 → Vec3 → Vec3) (c : Vehicle) (junkQ junkU : Nat → ℝ)
    (x : Nat → ℝ) (ax ay V : ℝ) : List ℝ :=
  let psi := x 4
  let m := setState (written junkQ (steadyInputs x ay V)) (written junkU (steadyControls x))
  let d := fun k => (evaluate solve c m (roadCartesian m)).dstates.getD k 0
  [d (iBody + 3), d (iChassis + 2), d (iBody + 4), d (iBody + 5),
   d iChassis * Real.sin psi + d (iChassis + 1) * Real.cos psi,
   ax - d iChassis * Real.cos psi + d (iChassis + 1) * Real.sin psi,
   (rearAxle c m).left.kin.kappa, (rearAxle c m).right.kin.kappa,
   (rearAxle c m).left.kin.lambda, (rearAxle c m).right.kin.lambda,
   (frontAxle c m).left.kin.lambda, (frontAxle c m).right.kin.lambda]

/-- `steady_state_constraint_bounds`, lot2016kart.h:118-122. -/
noncomputable def steadyBounds : List ℝ × List ℝ :=
  ([0, 0, 0, 0, 0, 0, -(11 / 100), -(11 / 100), -(9 / 100), -(9 / 100), -(9 / 100), -(9 / 100)],
   [0, 0, 0, 0, 0, 0, 11 / 100, 11 / 100, 9 / 100, 9 / 100, 9 / 100, 9 / 100])

/-! ### Change of track -/

/-- The kart after a call, and whether the call threw (lot2016kart.h:57-69). -/
structure Called (τ : Type) where
  track : τ
  threw : Bool

/-- `change_track`, lot2016kart.h:57-69, dynamic_model_car.h:149: `old` is the track of the kart. -/
def changeTrack {τ : Type} (hasElevation : τ → Bool) (_old new : τ) : Called τ :=
  let track := new
  ⟨track, hasElevation track⟩

/-- The constructor from a database and a road, lot2016kart.h:44-54. -/
def construct {τ : Type} (hasElevation : τ → Bool) (track : τ) : Res τ :=
  if hasElevation track then .throw else .ok track

end Verif.Kart
