import Verif.Spec.F1
import Verif.Spec.Kart
import Verif.Spec.LapSolve
import Verif.Model.LapVehicles

/-! Vocabulary of the properties of the two vehicles in the applications (C193..): the laws of motion over an
element of a lap and the conditions at a node, in terms of forces, loads and the inputs of the vehicle. Inputs of
the F1 car: 4, 5 velocity, 6 yaw rate, 7..10 loads (front left, front right, rear left, rear right, in weights),
12 lateral displacement, 13 heading; of the kart: 0 speed of the rear axle, 1, 2 velocity, 3 yaw rate, 4..6 height,
roll, pitch, 7..9 their rates, 11 lateral displacement, 12 heading. -/

set_option autoImplicit false

namespace Verif.LapVehicles

open Verif.Road Verif.Chassis

/-- Over a length `L` a quantity changes from `x` to `x'` by its rates `a` and `b` at both ends, with the weights
`1 - sigma` and `sigma`, up to `tol`. -/
def Changes (sigma L tol x x' a b : ℝ) : Prop := |x' - x - L * ((1 - sigma) * a + sigma * b)| ≤ tol

/-- Time per metre of a flat track of a car displaced by `n` that heads `alpha`, with velocity `(u, v)`. -/
noncomputable def pace (f : TrackPoint) (n alpha u v : ℝ) : ℝ :=
  (1 - n * f.dyaw) / (u * Real.cos alpha - v * Real.sin alpha)

/-! ### F1 car -/

/-- Wheels and chassis of the F1 car at a track point. -/
noncomputable def f1Out (c : F1.Car) (f : TrackPoint) (q u : Nat → ℝ) : F1.CarOut :=
  F1.carUpdate c (F1.setState c q u) (F1.roadCurvilinear f (F1.setState c q u))

/-- Time per metre of the F1 car. -/
noncomputable def f1Pace (f : TrackPoint) (q : Nat → ℝ) : ℝ := pace f (q 12) (q 13) (q 4) (q 5)

/-- The conditions at a node of a lap of the F1 car, up to `tol`: the loads of the tyres carry the weight and the
downforce, no moment turns the car over its side or its nose, the load transfer is shared as the roll balance
says, the slip angles are below their maxima and the front wheels are between the edges `wl` and `wr`. -/
structure F1Node (tol : ℝ) (c : F1.Car) (f : TrackPoint) (wl wr : ℝ) (q u : Nat → ℝ) : Prop where
  carried : |(f1Out c f q u).front.left.Fz + (f1Out c f q u).front.right.Fz + (f1Out c f q u).rear.left.Fz
      + (f1Out c f q u).rear.right.Fz
      - (c.chassis.mass * c.chassis.g0 + (aeroForce c.chassis (f1Out c f q u).input).2.2)|
    ≤ tol * (c.chassis.g0 * c.chassis.mass)
  roll : |(f1Out c f q u).chassis.torque.1| ≤ tol * (c.chassis.g0 * c.chassis.mass)
  pitch : |(f1Out c f q u).chassis.torque.2.1| ≤ tol * (c.chassis.g0 * c.chassis.mass)
  shared : |q 8 - q 7 - c.chassis.rollBalance * (q 8 + q 10 - q 7 - q 9)| ≤ tol
  slips : ∀ w ∈ [((f1Out c f q u).front.left, c.front), ((f1Out c f q u).front.right, c.front),
      ((f1Out c f q u).rear.left, c.rear), ((f1Out c f q u).rear.right, c.rear)],
    |w.1.kin.lambda| ≤ max (Tyre.maxLambda w.2.tyre 0) (Tyre.maxLambda w.2.tyre (c.chassis.mass * c.chassis.g0)) + tol
  wheels : ∀ y ∈ [c.front.track / 2, -(c.front.track / 2)],
    -wl - tol ≤ F1.lateral (q 12) (q 13) (0, y, 0) ∧ F1.lateral (q 12) (q 13) (0, y, 0) ≤ wr + tol

/-- A wheel of the F1 car, the torque of engine and brakes on it and its inertia. -/
noncomputable def f1Wheel (c : F1.Car) (o : F1.CarOut) : Kart.Corner → F1.WheelOut × ℝ × ℝ
  | .frontLeft => (o.front.left, o.front.torqueL, c.front.I)
  | .frontRight => (o.front.right, o.front.torqueR, c.front.I)
  | .rearLeft => (o.rear.left, o.rear.torqueL, c.rear.I)
  | .rearRight => (o.rear.right, o.rear.torqueR, c.rear.I)

/-- The angular momentum of a wheel, and the torque on it: engine and brakes less the force of the road times the
height of the centre. -/
def spin (w : F1.WheelOut × ℝ × ℝ) : ℝ × ℝ := (w.2.2 * w.1.kin.omega, w.2.1 - w.1.Fx * (w.1.kin.R0 - w.1.kin.w))

/-- The laws of motion of the F1 car over an element of a flat track of length `L`, up to `tol`: velocity
and yaw rate change by the forces and the moment, displacement and heading by the velocity, the wheels by their
torques (when their inertia is not negligible). -/
structure F1Element (sigma L tol : ℝ) (c : F1.Car) (f : TrackPoint) (q u : Nat → ℝ) (c' : F1.Car) (f' : TrackPoint)
    (q' u' : Nat → ℝ) : Prop where
  forward : Changes sigma L tol (q 4) (q' 4)
    (((f1Out c f q u).chassis.force.1 / c.chassis.mass + q 5 * q 6) * f1Pace f q)
    (((f1Out c' f' q' u').chassis.force.1 / c'.chassis.mass + q' 5 * q' 6) * f1Pace f' q')
  sideways : Changes sigma L tol (q 5) (q' 5)
    (((f1Out c f q u).chassis.force.2.1 / c.chassis.mass - q 4 * q 6) * f1Pace f q)
    (((f1Out c' f' q' u').chassis.force.2.1 / c'.chassis.mass - q' 4 * q' 6) * f1Pace f' q')
  yaw : Changes sigma L tol (q 6) (q' 6)
    ((f1Out c f q u).chassis.torque.2.2 / c.chassis.I.2.2.2.2 * f1Pace f q)
    ((f1Out c' f' q' u').chassis.torque.2.2 / c'.chassis.I.2.2.2.2 * f1Pace f' q')
  displacement : Changes sigma L tol (q 12) (q' 12)
    ((q 4 * Real.sin (q 13) + q 5 * Real.cos (q 13)) * f1Pace f q)
    ((q' 4 * Real.sin (q' 13) + q' 5 * Real.cos (q' 13)) * f1Pace f' q')
  heading : Changes sigma L tol (q 13) (q' 13) (q 6 * f1Pace f q - f.dyaw) (q' 6 * f1Pace f' q' - f'.dyaw)
  wheels : ∀ k, 1 / 10 ^ 10 ≤ (f1Wheel c (f1Out c f q u) k).2.2 → 1 / 10 ^ 10 ≤ (f1Wheel c' (f1Out c' f' q' u') k).2.2 →
    Changes sigma L tol (spin (f1Wheel c (f1Out c f q u) k)).1 (spin (f1Wheel c' (f1Out c' f' q' u') k)).1
      ((spin (f1Wheel c (f1Out c f q u) k)).2 * f1Pace f q)
      ((spin (f1Wheel c' (f1Out c' f' q' u') k)).2 * f1Pace f' q')

/-- What the sliding of a tyre on the road takes: its force against the velocity of the contact. -/
def friction (w : F1.WheelOut) : ℝ := -(w.Fx * (w.kin.vx - w.kin.omega * w.kin.R0) + w.Fy * w.kin.vy)

/-- The names of the quantities whose integrals over the time of the lap are reported. -/
def f1Quantities : List String :=
  ["engine-energy", "tire-fl-energy", "tire-fr-energy", "tire-rl-energy", "tire-rr-energy", "boost-time"]

/-- These quantities: powers in megawatts of the engine (its maximum power, in kilowatts, times the positive part of
the throttle, control 2) and of the tyres, and the boost (control 1). -/
noncomputable def f1Spent (c : F1.Car) (f : TrackPoint) (q u : Nat → ℝ) : List ℝ :=
  [c.rear.torque.sp (u 2) * c.rear.torque.engine.maxPower / 1000,
   friction (f1Out c f q u).front.left / 10 ^ 6, friction (f1Out c f q u).front.right / 10 ^ 6,
   friction (f1Out c f q u).rear.left / 10 ^ 6, friction (f1Out c f q u).rear.right / 10 ^ 6, u 1]

/-! ### F1 car on a road with elevation -/

/-- Time per metre of the F1 car on any road: on a road that bends by `curvature f`, component z sideways. -/
noncomputable def roadPace (f : TrackPoint) (q : Nat → ℝ) : ℝ :=
  (1 - q 12 * (curvature f).2.2) / (q 4 * Real.cos (q 13) - q 5 * Real.sin (q 13))

/-- The angular velocity of the F1 car in its axes: it turns about its x and y axes with the road, and by its yaw
rate. -/
noncomputable def turning (f : TrackPoint) (q : Nat → ℝ) : Vec3 :=
  (((curvature f).1 * Real.cos (q 13) + (curvature f).2.1 * Real.sin (q 13)) / roadPace f q,
   ((curvature f).2.1 * Real.cos (q 13) - (curvature f).1 * Real.sin (q 13)) / roadPace f q, q 6)

/-- The velocity of its centre of mass: that of the point of the road below, which goes up and down when the road
twists, and what the turning adds. -/
noncomputable def comMotion (c : F1.Car) (f : TrackPoint) (q : Nat → ℝ) : Vec3 :=
  (q 4, q 5, q 12 * (curvature f).1 / roadPace f q) + cross (turning f q) (0, 0, c.chassis.xCom.2.2)

/-- Its acceleration in the axes of the car: Newton's law in axes that turn. -/
noncomputable def newton (c : F1.Car) (f : TrackPoint) (q u : Nat → ℝ) : Vec3 :=
  (1 / c.chassis.mass) • (f1Out c f q u).chassis.force - cross (turning f q) (comMotion c f q)

/-- The angular momentum of the car (diagonal of the inertia matrix). -/
noncomputable def rotation (c : F1.Car) (f : TrackPoint) (q : Nat → ℝ) : Vec3 :=
  (c.chassis.I.1.1 * (turning f q).1, c.chassis.I.2.1.2.1 * (turning f q).2.1, c.chassis.I.2.2.2.2 * (turning f q).2.2)

/-- Its rate of change in the axes of the car: Euler's law in axes that turn. -/
noncomputable def euler (c : F1.Car) (f : TrackPoint) (q u : Nat → ℝ) : Vec3 :=
  (f1Out c f q u).chassis.torque - cross (turning f q) (rotation c f q)

/-- The excess of the load transfer of the front axle over its part of the whole transfer, in weights. -/
def excess (c : F1.Car) (q : Nat → ℝ) : ℝ := q 8 - q 7 - c.chassis.rollBalance * (q 8 + q 10 - q 7 - q 9)

/-- The laws of motion of the F1 car over an element of length `L` of any road, up to `tol`: the three components of
the velocity of the centre of mass (the vertical one over `g0`) change by Newton's law, those of the angular
momentum (the first two over the weight, the third over the inertia) by Euler's law; displacement and heading by the
velocity; the wheels by their torques (when their inertia is not negligible). The excess of load transfer vanishes
on average only. -/
structure F1Climb (sigma L tol : ℝ) (c : F1.Car) (f : TrackPoint) (q u : Nat → ℝ) (c' : F1.Car) (f' : TrackPoint)
    (q' u' : Nat → ℝ) : Prop where
  forward : Changes sigma L tol (comMotion c f q).1 (comMotion c' f' q').1
    ((newton c f q u).1 * roadPace f q) ((newton c' f' q' u').1 * roadPace f' q')
  sideways : Changes sigma L tol (comMotion c f q).2.1 (comMotion c' f' q').2.1
    ((newton c f q u).2.1 * roadPace f q) ((newton c' f' q' u').2.1 * roadPace f' q')
  down : Changes sigma L tol ((comMotion c f q).2.2 / c.chassis.g0) ((comMotion c' f' q').2.2 / c'.chassis.g0)
    ((newton c f q u).2.2 / c.chassis.g0 * roadPace f q) ((newton c' f' q' u').2.2 / c'.chassis.g0 * roadPace f' q')
  roll : Changes sigma L tol ((rotation c f q).1 / (c.chassis.g0 * c.chassis.mass))
    ((rotation c' f' q').1 / (c'.chassis.g0 * c'.chassis.mass))
    ((euler c f q u).1 / (c.chassis.g0 * c.chassis.mass) * roadPace f q)
    ((euler c' f' q' u').1 / (c'.chassis.g0 * c'.chassis.mass) * roadPace f' q')
  pitch : Changes sigma L tol ((rotation c f q).2.1 / (c.chassis.g0 * c.chassis.mass))
    ((rotation c' f' q').2.1 / (c'.chassis.g0 * c'.chassis.mass))
    ((euler c f q u).2.1 / (c.chassis.g0 * c.chassis.mass) * roadPace f q)
    ((euler c' f' q' u').2.1 / (c'.chassis.g0 * c'.chassis.mass) * roadPace f' q')
  yaw : Changes sigma L tol (q 6) (q' 6) ((euler c f q u).2.2 / c.chassis.I.2.2.2.2 * roadPace f q)
    ((euler c' f' q' u').2.2 / c'.chassis.I.2.2.2.2 * roadPace f' q')
  shared : Changes sigma L tol 0 0 (excess c q * roadPace f q) (excess c' q' * roadPace f' q')
  displacement : Changes sigma L tol (q 12) (q' 12)
    ((q 4 * Real.sin (q 13) + q 5 * Real.cos (q 13)) * roadPace f q)
    ((q' 4 * Real.sin (q' 13) + q' 5 * Real.cos (q' 13)) * roadPace f' q')
  heading : Changes sigma L tol (q 13) (q' 13) (q 6 * roadPace f q - (curvature f).2.2)
    (q' 6 * roadPace f' q' - (curvature f').2.2)
  wheels : ∀ k, 1 / 10 ^ 10 ≤ (f1Wheel c (f1Out c f q u) k).2.2 → 1 / 10 ^ 10 ≤ (f1Wheel c' (f1Out c' f' q' u') k).2.2 →
    Changes sigma L tol (spin (f1Wheel c (f1Out c f q u) k)).1 (spin (f1Wheel c' (f1Out c' f' q' u') k)).1
      ((spin (f1Wheel c (f1Out c f q u) k)).2 * roadPace f q)
      ((spin (f1Wheel c' (f1Out c' f' q' u') k)).2 * roadPace f' q')

/-- The conditions at a node of a lap of the F1 car on any road, up to `tol`: the slip angles are below their maxima and
the front wheels are between the edges `wl` and `wr`. -/
structure F1Limits (tol : ℝ) (c : F1.Car) (f : TrackPoint) (wl wr : ℝ) (q u : Nat → ℝ) : Prop where
  slips : ∀ w ∈ [((f1Out c f q u).front.left, c.front), ((f1Out c f q u).front.right, c.front),
      ((f1Out c f q u).rear.left, c.rear), ((f1Out c f q u).rear.right, c.rear)],
    |w.1.kin.lambda| ≤ max (Tyre.maxLambda w.2.tyre 0) (Tyre.maxLambda w.2.tyre (c.chassis.mass * c.chassis.g0)) + tol
  wheels : ∀ y ∈ [c.front.track / 2, -(c.front.track / 2)],
    -wl - tol ≤ F1.lateral (q 12) (q 13) (0, y, 0) ∧ F1.lateral (q 12) (q 13) (0, y, 0) ≤ wr + tol

/-! ### Kart -/

/-- Time per metre of the kart. -/
noncomputable def kartPace (f : TrackPoint) (q : Nat → ℝ) : ℝ := pace f (q 11) (q 12) (q 1) (q 2)

/-- The forces on the kart: tyres, air, weight. -/
noncomputable def kartForce (c : Kart.Vehicle) (f : TrackPoint) (q u : Nat → ℝ) : Vec3 :=
  ((Kart.applied c (Kart.setState q u) (f.yaw + q 12)).map Prod.snd).sum

/-- The torque on the rear axle: the engine or the brakes less the forces of the road times the height of the
centres of the wheels. -/
noncomputable def axleTorque (c : Kart.Vehicle) (m : Kart.Members) : ℝ :=
  Power.kartTorque c.power m.throttle m.omegaAxle
    - (Kart.rearAxle c m).left.Fx * ((Kart.rearAxle c m).left.kin.R0 - (Kart.rearAxle c m).left.kin.w)
    - (Kart.rearAxle c m).right.Fx * ((Kart.rearAxle c m).right.kin.R0 - (Kart.rearAxle c m).right.kin.w)

/-- The laws of motion of the kart over an element of a flat track of length `L`, up to `tol`: the rear axle
changes its speed by the torque, the kart its velocity by the forces; height, roll and pitch change by
their rates, displacement and heading by the velocity. Roll, pitch and yaw rates change by the accelerations that
the kart computes from the moments (C156, C157). -/
structure KartElement (solve : Vec3 × Vec3 × Vec3 → Vec3 → Vec3) (sigma L tol : ℝ) (c : Kart.Vehicle) (f : TrackPoint)
    (q u : Nat → ℝ) (c' : Kart.Vehicle) (f' : TrackPoint) (q' u' : Nat → ℝ) : Prop where
  axle : Changes sigma L tol (q 0) (q' 0) (axleTorque c (Kart.setState q u) / c.IAxle * kartPace f q)
    (axleTorque c' (Kart.setState q' u') / c'.IAxle * kartPace f' q')
  forward : Changes sigma L tol (q 1) (q' 1) (((kartForce c f q u).1 / c.mass + q 2 * q 3) * kartPace f q)
    (((kartForce c' f' q' u').1 / c'.mass + q' 2 * q' 3) * kartPace f' q')
  sideways : Changes sigma L tol (q 2) (q' 2) (((kartForce c f q u).2.1 / c.mass - q 1 * q 3) * kartPace f q)
    (((kartForce c' f' q' u').2.1 / c'.mass - q' 1 * q' 3) * kartPace f' q')
  down : Changes sigma L tol (q 7) (q' 7) ((kartForce c f q u).2.2 / c.mass * kartPace f q)
    ((kartForce c' f' q' u').2.2 / c'.mass * kartPace f' q')
  rates : ∀ k, k < 3 → Changes sigma L tol (q (4 + k)) (q' (4 + k)) (q (7 + k) * kartPace f q)
    (q' (7 + k) * kartPace f' q')
  displacement : Changes sigma L tol (q 11) (q' 11)
    ((q 1 * Real.sin (q 12) + q 2 * Real.cos (q 12)) * kartPace f q)
    ((q' 1 * Real.sin (q' 12) + q' 2 * Real.cos (q' 12)) * kartPace f' q')
  heading : Changes sigma L tol (q 12) (q' 12) (q 3 * kartPace f q - f.dyaw) (q' 3 * kartPace f' q' - f'.dyaw)
  roll : Changes sigma L tol (q 8) (q' 8)
    ((Kart.angularAcceleration solve c (Kart.setState q u) (f.yaw + q 12)).1 * kartPace f q)
    ((Kart.angularAcceleration solve c' (Kart.setState q' u') (f'.yaw + q' 12)).1 * kartPace f' q')
  pitch : Changes sigma L tol (q 9) (q' 9)
    ((Kart.angularAcceleration solve c (Kart.setState q u) (f.yaw + q 12)).2.1 * kartPace f q)
    ((Kart.angularAcceleration solve c' (Kart.setState q' u') (f'.yaw + q' 12)).2.1 * kartPace f' q')
  yaw : Changes sigma L tol (q 3) (q' 3)
    ((Kart.angularAcceleration solve c (Kart.setState q u) (f.yaw + q 12)).2.2 * kartPace f q)
    ((Kart.angularAcceleration solve c' (Kart.setState q' u') (f'.yaw + q' 12)).2.2 * kartPace f' q')

/-- The conditions at a node of a lap of the kart, up to `tol`: slips and slip angles below 0.11. -/
def KartNode (tol : ℝ) (c : Kart.Vehicle) (q u : Nat → ℝ) : Prop :=
  ∀ x ∈ [(Kart.rearAxle c (Kart.setState q u)).left.kin.kappa, (Kart.rearAxle c (Kart.setState q u)).right.kin.kappa,
      (Kart.frontAxle c (Kart.setState q u)).left.kin.lambda, (Kart.frontAxle c (Kart.setState q u)).right.kin.lambda,
      (Kart.rearAxle c (Kart.setState q u)).left.kin.lambda, (Kart.rearAxle c (Kart.setState q u)).right.kin.lambda],
    |x| ≤ 11 / 100 + tol

/-! ### Laps -/

/-- The inputs `q i`, the controls `u i` and the arclength `s i` are those of the lap at node `i`; `defaults` are the
values of the controls that are not optimised. -/
def LapData (p : Transcription.Problem ℝ) (lap : Transcription.Lap ℝ) (defaults : Nat → ℝ) (s : Nat → ℝ)
    (q u : Nat → Nat → ℝ) : Prop :=
  ∀ i, i < p.nPoints → lap.inputs[i]? = some (q i) ∧ p.s[i]? = some (s i) ∧
    ∀ c cv, lap.controls[c]? = some cv → Control.ExpectedControl cv (defaults c) i (s i) (u i c)

/-- The length of element `e` of a lap: up to the next node, or to the end of the track. -/
def lengthOf (p : Transcription.Problem ℝ) (track : ℝ) (s : Nat → ℝ) (e : Nat) : ℝ :=
  if e + 1 < p.nPoints then s (e + 1) - s e else track - s e

/-- The integral over a lap of what is `g` per metre at the nodes, by the rule of the lap. -/
def alongLap (p : Transcription.Problem ℝ) (track : ℝ) (s g : Nat → ℝ) : ℝ :=
  ∑ e ∈ Finset.range p.nElements,
    lengthOf p track s e * ((1 - p.opts.sigma) * g e + p.opts.sigma * g (Transcription.rightNode p e))

end Verif.LapVehicles
