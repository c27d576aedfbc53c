import Verif.Spec.Road
import Mathlib.Analysis.SpecialFunctions.Trigonometric.Arctan

/-!
# Chassis of the F1 car

Model of `Chassis` (src/core/chassis/chassis.h, .hpp), `Chassis_car_3dof`
(src/core/chassis/chassis_car_3dof.h, .hpp) and the forces of `Axle_car_3dof`
(src/core/chassis/axle_car_3dof.hpp). Scalars are real numbers. `Frame`, `Vector3d`, `cross`, `dot`,
`smooth_pos` and the constant `g0` belong to the lion library (not part of /repo): frames are reduced to
what the chassis reads from them (origins, rotation angles, absolute velocity and angular velocity in body
axes), `smooth_pos` and `g0` are parameters. Axes: x forward, y to the right, z down. A division by zero
is an infinity or a NaN in C++ and 0 in the model; theorems state the condition under which it does not
happen.
-/

set_option autoImplicit false

namespace Verif.Chassis

open Verif.Road Real

/-- The rotation angles of the road frame, a sequence of rotations about Z, Y, X and Z, chassis.hpp:10 and
126-130: yaw, pitch and roll of the road, and the track heading angle. -/
structure Attitude where
  yaw : ℝ
  pitch : ℝ
  roll : ℝ
  heading : ℝ

/-- `get_gravity_force`, chassis.hpp:248-260. -/
noncomputable def gravity (m g0 : ℝ) (a : Attitude) : Vec3 :=
  (m * g0 * (sin a.heading * sin a.roll * cos a.pitch - cos a.heading * sin a.pitch),
   m * g0 * (sin a.heading * sin a.pitch + cos a.heading * sin a.roll * cos a.pitch),
   m * g0 * cos a.roll * cos a.pitch)

/-- Rotation of a vector about the Z axis (lion). Used through the frames of chassis.hpp:10-11, 119-165. -/
noncomputable def rotZ (t : ℝ) (v : Vec3) : Vec3 :=
  (cos t * v.1 - sin t * v.2.1, sin t * v.1 + cos t * v.2.1, v.2.2)

/-- Rotation of a vector about the Y axis (lion). Used through the frames of chassis.hpp:10-11, 119-165. -/
noncomputable def rotY (t : ℝ) (v : Vec3) : Vec3 :=
  (cos t * v.1 + sin t * v.2.2, v.2.1, -sin t * v.1 + cos t * v.2.2)

/-- Rotation of a vector about the X axis (lion). Used through the frames of chassis.hpp:10-11, 119-165. -/
noncomputable def rotX (t : ℝ) (v : Vec3) : Vec3 :=
  (v.1, cos t * v.2.1 - sin t * v.2.2, sin t * v.2.1 + cos t * v.2.2)

/-- `transpose(_road_frame.get_absolute_rotation_matrix()) * v` (lion): from absolute to body axes
(chassis.hpp:271). -/
noncomputable def toBody (a : Attitude) (v : Vec3) : Vec3 :=
  rotZ (-a.heading) (rotX (-a.roll) (rotY (-a.pitch) (rotZ (-a.yaw) v)))

/-- The aerodynamic parameters, chassis.h:266-269 and 276-277. -/
structure Aero where
  rho : ℝ
  cd : ℝ
  cl : ℝ
  area : ℝ
  northward : ℝ
  eastward : ℝ

/-- `Aerodynamic_forces`, chassis.h:181-187. -/
structure AeroForces where
  lift : Vec3
  drag : Vec3
  windBody : Vec3
  velocity : Vec3

/-- `get_aerodynamic_force`, chassis.hpp:264-288; `car` is the velocity of the road frame in body axes. -/
noncomputable def aeroForces (p : Aero) (a : Attitude) (car : Vec3) : AeroForces :=
  let windAbs : Vec3 := (p.eastward, -p.northward, 0)
  let wind := toBody a windAbs
  let va := -car + wind
  let norm := √(va.1 * va.1 + va.2.1 * va.2.1)
  { lift := (0, 0, 1 / 2 * p.rho * p.cl * p.area * va.1 * va.1)
    drag := (1 / 2 * p.rho * p.cd * p.area * norm) • va
    windBody := wind
    velocity := va }

/-- `get_longitudinal_acceleration`, chassis.hpp:228-234. -/
noncomputable def longitudinalAcceleration (m u v : ℝ) (F : Vec3) : ℝ :=
  dot (u, v, 0) ((1 / m) • F) / √(dot (u, v, 0) (u, v, 0))

/-- `get_lateral_acceleration`, chassis.hpp:238-244. -/
noncomputable def lateralAcceleration (m u v : ℝ) (F : Vec3) : ℝ :=
  (cross (u, v, 0) ((1 / m) • F)).2.2 / √(dot (u, v, 0) (u, v, 0))

/-- `get_understeer_oversteer_indicator`, chassis.hpp:292-337. `xFront`, `xRear` are the positions of the
axles in the road frame, `dl`, `dr` the steering angles of the left and right front tyres. -/
noncomputable def understeer (track xFront xRear u v omega dl dr : ℝ) : ℝ :=
  let kappa := omega / √(u * u + v * v)
  let xCom := -xRear
  let wb := xFront + xCom
  let inside := if 0 ≤ kappa then dr else -dl
  let outside := if 0 ≤ kappa then dl else -dr
  let k := if 0 ≤ kappa then kappa else -kappa
  let inIdeal := arctan (wb * k / (√(1 - k * k * xCom * xCom) - 1 / 2 * track * k))
  let outIdeal := arctan (wb * k / (√(1 - k * k * xCom * xCom) + 1 / 2 * track * k))
  let dIn := inIdeal - inside
  let dOut := outIdeal - outside
  if dIn * dOut ≤ 0 then 0
  else if 0 < dIn then (if dIn > dOut then dOut else dIn)
  else (if dIn > dOut then dIn else dOut)

/-- Force and torque that a tyre gives, in its own frame (tire_pacejka.hpp:114-119), the angle of its
frame and its position in the axle. -/
structure Wheel where
  force : Vec3
  torque : Vec3
  delta : ℝ
  position : Vec3

/-- `_F` and `_T` of an axle, axle_car_3dof.hpp:264-273: `get_force_in_parent` and `get_torque_in_parent`
(tire.h:130, 133) rotate by the steering angle of the tyre frame. -/
noncomputable def axleForces (l r : Wheel) : Vec3 × Vec3 :=
  let Fl := rotZ l.delta l.force
  let Fr := rotZ r.delta r.force
  (Fl + Fr, rotZ l.delta l.torque + cross l.position Fl + (rotZ r.delta r.torque + cross r.position Fr))

/-- The parameters of the chassis used in its equations, chassis.h:255-270 and
chassis_car_3dof.h:241-249. `I` are the rows of the inertia matrix, `sp` is
`smooth_pos(., _force_z_max_ref2)`. -/
structure Params where
  g0 : ℝ
  mass : ℝ
  I : Vec3 × Vec3 × Vec3
  aero : Aero
  xCom : Vec3
  xFront : Vec3
  xRear : Vec3
  xAero : Vec3
  rollBalance : ℝ
  sp : ℝ → ℝ

/-- `_x_com.z()` with the sign changed: the height of the centre of mass, chassis_car_3dof.hpp:183. -/
def Params.h (p : Params) : ℝ := -p.xCom.2.2

/-- What the chassis reads when it is updated: velocity and yaw rate, vertical velocity of the road frame,
its attitude, the x and y components of its angular velocity, and the vertical loads (front left, front
right, rear left, rear right) (chassis_car_3dof.hpp:117-128). -/
structure Input where
  u : ℝ
  v : ℝ
  omegaZ : ℝ
  groundVz : ℝ
  att : Attitude
  omegaX : ℝ
  omegaY : ℝ
  fl : ℝ
  fr : ℝ
  rl : ℝ
  rr : ℝ

/-- `_neg_force_z_.._N`, chassis_car_3dof.hpp:131-134. -/
def negLoad (p : Params) (Fz : ℝ) : ℝ := -p.sp (-Fz)

/-- The load that an axle gives to a tyre, axle_car_3dof.hpp:227-228. -/
def tyreLoad (p : Params) (Fz : ℝ) : ℝ := -negLoad p Fz

/-- What `Chassis_car_3dof::update` writes (chassis_car_3dof.hpp:117-204). -/
structure Output where
  force : Vec3
  torque : Vec3
  comVelocity : Vec3
  comVelocityDot : Vec3
  rollMomentum : ℝ
  pitchMomentum : ℝ
  rollMomentumDot : ℝ
  pitchMomentumDot : ℝ
  yawRateDot : ℝ
  rollBalance : ℝ

/-- The aerodynamic force, chassis_car_3dof.hpp:141-142. -/
noncomputable def aeroForce (p : Params) (i : Input) : Vec3 :=
  (aeroForces p.aero i.att (i.u, i.v, i.groundVz)).lift + (aeroForces p.aero i.att (i.u, i.v, i.groundVz)).drag

/-- The total torque, chassis_car_3dof.hpp:155-161: `front` and `rear` are the forces and torques of the
axles. -/
noncomputable def totalTorque (p : Params) (i : Input) (front rear : Vec3 × Vec3) : Vec3 :=
  let Fa := aeroForce p i
  let F := front.1 + rear.1 + Fa
  front.2 + cross p.xFront front.1 + rear.2 + cross p.xRear rear.1 + cross (p.xAero - p.xCom) Fa
    + cross p.xCom (-F)

/-- `Chassis_car_3dof::update`, chassis_car_3dof.hpp:117-204: `front` and `rear` are the forces and torques
of the axles. -/
noncomputable def update (p : Params) (i : Input) (front rear : Vec3 × Vec3) : Output :=
  let F := front.1 + rear.1 + aeroForce p i + gravity p.mass p.g0 i.att
  let T := totalTorque p i front rear
  let Ixx := p.I.1.1
  let Iyy := p.I.2.1.2.1
  let Izz := p.I.2.2.2.2
  { force := F
    torque := T
    comVelocityDot :=
      (F.1 / p.mass + (i.v + p.h * i.omegaX) * i.omegaZ - i.groundVz * i.omegaY,
       F.2.1 / p.mass - (i.u - p.h * i.omegaY) * i.omegaZ + i.groundVz * i.omegaX,
       F.2.2 / p.mass + (i.u - p.h * i.omegaY) * i.omegaY - (i.v + p.h * i.omegaX) * i.omegaX)
    comVelocity := (i.u - p.h * i.omegaY, i.v + p.h * i.omegaX, i.groundVz)
    rollMomentumDot := T.1 + (Iyy - Izz) * i.omegaZ * i.omegaY
    pitchMomentumDot := T.2.1 + (Izz - Ixx) * i.omegaZ * i.omegaX
    yawRateDot := (T.2.2 + (Ixx - Iyy) * i.omegaX * i.omegaY) / Izz
    rollMomentum := Ixx * i.omegaX
    pitchMomentum := Iyy * i.omegaY
    rollBalance := (i.fr - i.fl) * (1 - p.rollBalance) + (i.rl - i.rr) * p.rollBalance }

/-- The dynamic part of the state that the chassis reports, with its time derivative:
`Chassis::get_state_and_state_derivative`, chassis.hpp:379-396, and that of `Chassis_car_3dof`,
chassis_car_3dof.hpp:222-239. Components: velocity x, velocity y, yaw rate, velocity z, roll momentum,
pitch momentum, roll balance. -/
noncomputable def state (p : Params) (i : Input) (o : Output) : List (ℝ × ℝ) :=
  [(o.comVelocity.1, o.comVelocityDot.1),
   (o.comVelocity.2.1, o.comVelocityDot.2.1),
   (i.omegaZ, o.yawRateDot),
   (o.comVelocity.2.2 / p.g0, o.comVelocityDot.2.2 / p.g0),
   (o.rollMomentum / (p.g0 * p.mass), o.rollMomentumDot / (p.g0 * p.mass)),
   (o.pitchMomentum / (p.g0 * p.mass), o.pitchMomentumDot / (p.g0 * p.mass)),
   (0, o.rollBalance / (p.g0 * p.mass))]

/-- The angular velocity of the road frame in body axes (`get_omega_absolute_in_body`, lion) when the road
moves with the rates of `Road_curvilinear`, dynamic_model_car.hpp:82-97: the rates of
the Euler angles of the road and of the track heading angle. -/
noncomputable def omegaBody (a : Attitude) (dyaw dpitch droll dheading : ℝ) : Vec3 :=
  let r : Vec3 := (droll - sin a.pitch * dyaw,
    cos a.roll * dpitch + cos a.pitch * sin a.roll * dyaw,
    -sin a.roll * dpitch + cos a.pitch * cos a.roll * dyaw)
  rotZ (-a.heading) r + (0, 0, dheading)

end Verif.Chassis
