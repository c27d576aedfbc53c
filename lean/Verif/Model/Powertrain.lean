import Mathlib.Data.Real.Basic

/-!
# Engine, brakes, driven axle and kart axle

Model of `Engine` (src/core/actuators/engine.h, .hpp), `Brake` (src/core/actuators/brake.h), the torques
of `Axle_car_3dof::update` (src/core/chassis/axle_car_3dof.hpp), and of `Axle_car_6dof` the torque of the
axle and the suspension deformations (src/core/chassis/axle_car_6dof.h, .hpp). Scalars are real numbers.
`smooth_pos(., eps)` and `smooth_sign(., 1.0)` belong to the lion library (not part of /repo) and are
parameters `sp` and `ss` of the model.
-/

set_option autoImplicit false

namespace Verif.Power

/-- The members of `Engine` used by `operator()`, engine.h:54-67. `P`, `left` and `right` are the values
and the bounds of the polynomial `_p` of the lion library. -/
structure Engine where
  directTorque : Bool
  onlyMaxPower : Bool
  gear : ℝ
  maxPower : ℝ
  P : ℝ → ℝ
  left : ℝ
  right : ℝ

/-- The power used at the engine speed `w` when a power curve is given, engine.hpp:47-57
(`_p[.]`, linear extrapolation to zero on both sides, clamped at zero outside the data only). -/
noncomputable def curvePower (e : Engine) (w : ℝ) : ℝ :=
  let zero : ℝ := 15000 / 14000
  if w < e.left then max 0 (w * e.P e.left / e.left)
  else if w > e.right then max 0 (e.P e.right * (zero - w / e.right) / (zero - 1))
  else e.P w

/-- `Engine::operator()(throttle_percentage, angular_speed)`, engine.hpp:35-59. -/
noncomputable def engineTorque (e : Engine) (throttle omega : ℝ) : ℝ :=
  if e.directTorque then throttle
  else if e.onlyMaxPower then throttle * (e.maxPower * 1000) / omega
  else throttle * curvePower e (e.gear * omega) / omega

/-- What `get_power()` returns after a call, engine.hpp:42 and engine.h:51: only the maximum-power branch
writes `_power`, `old` is the previous value. -/
noncomputable def enginePower (e : Engine) (old throttle : ℝ) : ℝ :=
  if e.directTorque then old
  else if e.onlyMaxPower then throttle * (e.maxPower * 1000)
  else old

/-- A value of the automatic-differentiation type: value and derivative along a direction
(`CppAD::AD<double>`, not part of /repo). Used for engine.hpp:27-58. -/
structure Dual where
  val : ℝ
  eps : ℝ

/-- Product of two differentiated values. Used for engine.hpp:27-58. -/
def Dual.mul (a b : Dual) : Dual := ⟨a.val * b.val, a.eps * b.val + a.val * b.eps⟩

/-- Quotient of two differentiated values. Used for engine.hpp:27-58. -/
noncomputable def Dual.div (a b : Dual) : Dual :=
  ⟨a.val / b.val, (a.eps * b.val - a.val * b.eps) / b.val ^ 2⟩

/-- A plain number. Used for engine.hpp:27-58. -/
def Dual.const (x : ℝ) : Dual := ⟨x, 0⟩

/-- `Engine<AD>::operator()`, engine.hpp:35-59: the speed enters the power curve through
`Value(angular_speed)` (47), a plain number. The maximum power is a parameter without derivative. -/
noncomputable def engineTorqueAD (e : Engine) (throttle omega : Dual) : Dual :=
  if e.directTorque then throttle
  else if e.onlyMaxPower then (throttle.mul (.const (e.maxPower * 1000))).div omega
  else (throttle.mul (.const (curvePower e (e.gear * omega.val)))).div omega

/-- `Brake::operator()`, brake.h:48. -/
def brakeTorque (Tmax pct : ℝ) : ℝ := pct * Tmax

/-- The parameters of an `Axle_car_3dof` used for its torques (axle_car_3dof.h:270-348). -/
structure Axle3 where
  sp : ℝ → ℝ
  ss : ℝ → ℝ
  Tmax : ℝ
  stiffness : ℝ
  engine : Engine
  boost : Engine

/-- The braking torque of a wheel, axle_car_3dof.hpp:234-238. -/
def brakingTorque (a : Axle3) (throttle bias omega : ℝ) : ℝ :=
  -a.ss omega * brakeTorque a.Tmax (a.sp (-throttle)) * bias

/-- `_torque_left`, `_torque_right` of a steering axle, axle_car_3dof.hpp:237-238. -/
def steeringTorques (a : Axle3) (throttle bias ol or : ℝ) : ℝ × ℝ :=
  (brakingTorque a throttle bias ol, brakingTorque a throttle bias or)

/-- `_torque_left`, `_torque_right` of a powered axle, axle_car_3dof.hpp:234-257. -/
noncomputable def poweredTorques (a : Axle3) (throttle boost bias ol or : ℝ) : ℝ × ℝ :=
  let pct := a.sp throttle
  let mean := 1 / 2 * (ol + or)
  let engine := engineTorque a.engine pct mean
  let diff := a.stiffness * (ol - or)
  let boostT := engineTorque a.boost (pct * boost) mean
  (brakingTorque a throttle bias ol + (1 / 2 * (engine + boostT) - diff),
   brakingTorque a throttle bias or + (1 / 2 * (engine + boostT) + diff))

/-- The axle torque of the kart, `Axle_car_6dof::set_throttle_and_omega`, axle_car_6dof.hpp:186-206. -/
noncomputable def kartTorque (a : Axle3) (throttle omega : ℝ) : ℝ :=
  if a.engine.directTorque then throttle
  else engineTorque a.engine (a.sp throttle) omega - a.ss omega * brakeTorque a.Tmax (a.sp (-throttle))

/-- The brake bias handed to the front and to the rear axle, chassis_car_3dof.hpp:137-138. -/
def axleBiases (bias : ℝ) : ℝ × ℝ := (bias, 1 - bias)

/-- The parameters of an `Axle_car_6dof` used for its deformations; `steering` is
`Axle_mode == STEERING_FREE_ROLL`. `_y_tire = {-0.5*_track, 0.5*_track}`, axle_car_6dof.hpp:30, 70.
`kTire` and `R0` are those of the left tyre (119-120), which the code uses for both. -/
structure Axle6 where
  steering : Bool
  track : ℝ
  kChassis : ℝ
  kAntiroll : ℝ
  kTire : ℝ
  R0 : ℝ
  betaL : ℝ
  betaR : ℝ

/-- `displ_symmetric`, axle_car_6dof.hpp:125: `z` is the height of the axle frame. -/
def displSym (a : Axle6) (z : ℝ) : ℝ := z + a.R0

/-- `displ_assymmetric`, axle_car_6dof.hpp:129-134. -/
noncomputable def displAsym (a : Axle6) (phi delta : ℝ) : ℝ :=
  1 / 2 * a.track * phi + (if a.steering then a.betaR * delta else 0)

/-- `sym_stiffness`, axle_car_6dof.hpp:137. -/
noncomputable def symK (a : Axle6) : ℝ := 1 / (a.kChassis + a.kTire)

/-- `assym_stiffness`, axle_car_6dof.hpp:138. -/
noncomputable def asymK (a : Axle6) : ℝ :=
  2 * a.kAntiroll * a.kTire * symK a / (2 * a.kAntiroll + a.kChassis + a.kTire)

/-- `wl` and `wr` (or `dwl`, `dwr`), axle_car_6dof.hpp:140-151, from the symmetric and asymmetric
displacements (or their rates). -/
noncomputable def tyreDeformation (a : Axle6) (sym asym : ℝ) : ℝ × ℝ :=
  (a.kChassis * symK a * (sym - asym) - asym * asymK a,
   a.kChassis * symK a * (sym + asym) + asym * asymK a)

/-- `_s` (or `_ds`), axle_car_6dof.hpp:153-157. -/
noncomputable def chassisDeformation (a : Axle6) (sym asym : ℝ) : ℝ × ℝ :=
  ((tyreDeformation a sym asym).1 - sym + asym, (tyreDeformation a sym asym).2 - sym - asym)

/-- The rates of the displacements, axle_car_6dof.hpp:126, 130: the steering rate does not enter. -/
noncomputable def displRates (a : Axle6) (dz dphi : ℝ) : ℝ × ℝ := (dz, 1 / 2 * a.track * dphi)

/-- The heights of the tyres in the axle frame, `get_tire_position(.)[Z]`, axle_car_6dof.h:253-254. -/
noncomputable def tyreHeight (a : Axle6) (z phi delta : ℝ) : ℝ × ℝ :=
  let s := chassisDeformation a (displSym a z) (displAsym a phi delta)
  (s.1 + phi * (-(1 / 2) * a.track) + a.betaL * delta, s.2 + phi * (1 / 2 * a.track) + a.betaR * delta)

/-- The vertical velocities of the tyres in the axle frame, `get_tire_velocity(.)[Z]`,
axle_car_6dof.h:262-263, with `_ds` of axle_car_6dof.hpp:147-151, 156-157. -/
noncomputable def tyreVelocity (a : Axle6) (dz dphi : ℝ) : ℝ × ℝ :=
  let ds := chassisDeformation a (displRates a dz dphi).1 (displRates a dz dphi).2
  (ds.1 + dphi * (-(1 / 2) * a.track), ds.2 + dphi * (1 / 2 * a.track))

end Verif.Power
