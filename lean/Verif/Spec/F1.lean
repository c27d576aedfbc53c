import Verif.Model.F1

/-! Vocabulary for the properties of the F1 car. -/

set_option autoImplicit false

namespace Verif.F1

open Verif.Road Verif.Chassis

/-- The names of the inputs of the car, in order, as documented. -/
def documentedInputs (r : RoadKind) : List String :=
  ["front-axle.left-tire.kappa", "front-axle.right-tire.kappa", "rear-axle.left-tire.kappa",
   "rear-axle.right-tire.kappa", "chassis.velocity.x", "chassis.velocity.y", "chassis.omega.z",
   "chassis.force_z_fl_g", "chassis.force_z_fr_g", "chassis.force_z_rl_g", "chassis.force_z_rr_g"] ++
  match r with
  | .curvilinear => ["time", "road.lateral-displacement", "road.track-heading-angle"]
  | .cartesian => ["x", "y", "psi"]

/-- The names of the controls of the car, in order, as documented. -/
def documentedControls : List String :=
  ["front-axle.steering-angle", "rear-axle.boost", "chassis.throttle", "chassis.brake-bias"]

/-- The name of the variable of integration, as documented. -/
def documentedKey : RoadKind → String
  | .curvilinear => "road.arclength"
  | .cartesian => "time"

/-- What a name stands for in a car whose state has been set; a load is given in units of the weight. -/
noncomputable def meaning (c : Car) (r : RoadKind) (m : Members) (name : String) : Option ℝ :=
  ([("front-axle.left-tire.kappa", m.kappaFL), ("front-axle.right-tire.kappa", m.kappaFR),
    ("rear-axle.left-tire.kappa", m.kappaRL), ("rear-axle.right-tire.kappa", m.kappaRR),
    ("chassis.velocity.x", m.u), ("chassis.velocity.y", m.v), ("chassis.omega.z", m.omega),
    ("chassis.force_z_fl_g", m.fl / (c.chassis.g0 * c.chassis.mass)),
    ("chassis.force_z_fr_g", m.fr / (c.chassis.g0 * c.chassis.mass)),
    ("chassis.force_z_rl_g", m.rl / (c.chassis.g0 * c.chassis.mass)),
    ("chassis.force_z_rr_g", m.rr / (c.chassis.g0 * c.chassis.mass)),
    ("front-axle.steering-angle", m.steering), ("rear-axle.boost", m.boost),
    ("chassis.throttle", m.throttle), ("chassis.brake-bias", m.bias)] ++
   match r with
   | .curvilinear => [("time", m.road1), ("road.lateral-displacement", m.road2),
      ("road.track-heading-angle", m.road3)]
   | .cartesian => [("x", m.road1), ("y", m.road2), ("psi", m.road3)]).lookup name

/-- The default lies between the bounds. -/
def Limits.Inside (l : Limits) : Prop := l.lb ≤ l.default ∧ l.default ≤ l.ub

/-- The names of the four vertical loads. -/
def loadNames : List String :=
  ["chassis.force_z_fl_g", "chassis.force_z_fr_g", "chassis.force_z_rl_g", "chassis.force_z_rr_g"]

/-- The two lists have every index below `n` except `time`, each exactly once. -/
def Partition (n time : Nat) (r : List Nat × List Nat) : Prop :=
  (r.1 ++ r.2).Nodup ∧ ∀ k, k ∈ r.1 ++ r.2 ↔ k < n ∧ k ≠ time

/-- A track point of a flat road. -/
structure Flat (f : TrackPoint) : Prop where
  pitch : f.pitch = 0
  roll : f.roll = 0
  dpitch : f.dpitch = 0
  droll : f.droll = 0

/-- Lateral distance from the centreline of the point `x` of a car (in its own axes) displaced by `n` and
heading `alpha`. -/
noncomputable def lateral (n alpha : ℝ) (x : Vec3) : ℝ := n + (x.1 * Real.sin alpha + x.2.1 * Real.cos alpha)

/-- The positions of the four wheels in the axes of the car. -/
noncomputable def wheels (c : Car) : List Vec3 :=
  [c.chassis.xFront + (0, -(c.front.track / 2), 0), c.chassis.xFront + (0, c.front.track / 2, 0),
   c.chassis.xRear + (0, -(c.rear.track / 2), 0), c.chassis.xRear + (0, c.rear.track / 2, 0)]

/-- Every value lies between its bounds, and there are as many bounds as values. -/
def Within (b : List ℝ × List ℝ) (x : List ℝ) : Prop :=
  b.1.length = x.length ∧ b.2.length = x.length ∧
    ∀ k, k < x.length → b.1.getD k 0 ≤ x.getD k 0 ∧ x.getD k 0 ≤ b.2.getD k 0

/-! ### Mirror image in the vertical plane of the car -/

/-- The mirror image of a position, a velocity or a force. -/
def mirrorVec (v : Vec3) : Vec3 := (v.1, -v.2.1, v.2.2)

/-- The mirror image of an angular velocity or a torque. -/
def mirrorAxial (v : Vec3) : Vec3 := (-v.1, v.2.1, -v.2.2)

/-- The mirror image of the car: lateral offsets and the wind across are reversed. -/
def mirrorCar (c : Car) : Car :=
  { c with chassis := { c.chassis with
      aero := { c.chassis.aero with northward := -c.chassis.aero.northward }
      xCom := mirrorVec c.chassis.xCom, xFront := mirrorVec c.chassis.xFront
      xRear := mirrorVec c.chassis.xRear, xAero := mirrorVec c.chassis.xAero } }

/-- The mirror image of a track. -/
def mirrorTrack (f : TrackPoint) : TrackPoint :=
  ⟨mirrorVec f.position, -f.yaw, f.pitch, -f.roll, -f.dyaw, f.dpitch, -f.droll⟩

/-- The mirror image of the inputs: left and right are exchanged, the lateral velocity, the yaw rate, the
lateral position and the heading are reversed. -/
def mirrorInputs (q : Nat → ℝ) : Nat → ℝ
  | 0 => q 1 | 1 => q 0 | 2 => q 3 | 3 => q 2 | 5 => -q 5 | 6 => -q 6
  | 7 => q 8 | 8 => q 7 | 9 => q 10 | 10 => q 9 | 12 => -q 12 | 13 => -q 13 | k => q k

/-- The mirror image of the controls: the steering is reversed. -/
def mirrorControls (u : Nat → ℝ) : Nat → ℝ
  | 0 => -u 0 | k => u k

/-- The mirror image of the states: left and right wheels are exchanged; lateral velocity, yaw rate, roll
momentum, roll balance, lateral position and heading are reversed. -/
def mirrorStates : List ℝ → List ℝ
  | [a, b, c, d, vx, vy, om, vz, roll, pitch, balance, t, n, al] =>
    [b, a, d, c, vx, -vy, -om, vz, -roll, pitch, -balance, t, -n, -al]
  | l => l

/-- The mirror image of what an evaluation returns. -/
def Equations.mirror (e : Equations) : Equations := ⟨mirrorStates e.states, mirrorStates e.dstates⟩

/-! ### Energy -/

/-- The kinetic energy of the car in terms of its states: translation, yaw and the four wheels. -/
noncomputable def kineticEnergy (c : Car) (x : List ℝ) : ℝ :=
  c.chassis.mass * (x.getD 4 0 ^ 2 + x.getD 5 0 ^ 2) / 2 + c.chassis.I.2.2.2.2 * x.getD 6 0 ^ 2 / 2
    + (x.getD 0 0 ^ 2 + x.getD 1 0 ^ 2) / (2 * c.front.I) + (x.getD 2 0 ^ 2 + x.getD 3 0 ^ 2) / (2 * c.rear.I)

/-- The rate of the kinetic energy that follows from the reported states and derivatives. -/
noncomputable def energyRate (c : Car) (e : Equations) : ℝ :=
  c.chassis.mass * (e.states.getD 4 0 * e.dstates.getD 4 0 + e.states.getD 5 0 * e.dstates.getD 5 0)
    + c.chassis.I.2.2.2.2 * (e.states.getD 6 0 * e.dstates.getD 6 0)
    + (e.states.getD 0 0 * e.dstates.getD 0 0 + e.states.getD 1 0 * e.dstates.getD 1 0) / c.front.I
    + (e.states.getD 2 0 * e.dstates.getD 2 0 + e.states.getD 3 0 * e.dstates.getD 3 0) / c.rear.I

/-- The power that engine and brakes give to the wheels. -/
def wheelPower (o : CarOut) : ℝ :=
  o.front.torqueL * o.front.left.kin.omega + o.front.torqueR * o.front.right.kin.omega
    + o.rear.torqueL * o.rear.left.kin.omega + o.rear.torqueR * o.rear.right.kin.omega

/-- The reported dissipation of the four tyres. -/
def tyrePower (o : CarOut) : ℝ :=
  Tyre.dissipation o.front.left.kin o.front.left.Fx o.front.left.Fy
    + Tyre.dissipation o.front.right.kin o.front.right.Fx o.front.right.Fy
    + Tyre.dissipation o.rear.left.kin o.rear.left.Fx o.rear.left.Fy
    + Tyre.dissipation o.rear.right.kin o.rear.right.Fx o.rear.right.Fy

/-- The power of the aerodynamic force at its point of application. -/
noncomputable def aeroPower (c : Car) (o : CarOut) : ℝ :=
  dot (aeroForce c.chassis o.input)
    ((o.input.u, o.input.v, o.input.groundVz) + cross (o.input.omegaX, o.input.omegaY, o.input.omegaZ) c.chassis.xAero)

/-- What the deformation of the tyres adds: longitudinal force times deformation times wheel speed. -/
def deformationPower (o : CarOut) : ℝ :=
  o.front.left.Fx * o.front.left.kin.w * o.front.left.kin.omega
    + o.front.right.Fx * o.front.right.kin.w * o.front.right.kin.omega
    + o.rear.left.Fx * o.rear.left.kin.w * o.rear.left.kin.omega
    + o.rear.right.Fx * o.rear.right.kin.w * o.rear.right.kin.omega

/-- A car whose energy is that of its states: masses are not zero, the wheels are not massless, the centre
of mass is above the origin. -/
structure Massive (c : Car) : Prop where
  mass : c.chassis.mass ≠ 0
  yaw : c.chassis.I.2.2.2.2 ≠ 0
  front : 1 / 10 ^ 10 ≤ c.front.I
  rear : 1 / 10 ^ 10 ≤ c.rear.I
  xCom : c.chassis.xCom.1 = 0
  yCom : c.chassis.xCom.2.1 = 0

/-! ### Steady state -/

/-- A car in steady state with the given accelerations (units of `g0`): the reported accelerations are the
requested ones, nothing rotates faster or slower, vertical forces and moments are in balance, and the slip
angles are within the accepted range. -/
structure Steady (c : Car) (q : Nat → ℝ) (o : CarOut) (ax ay : ℝ) : Prop where
  longitudinal : longitudinalAcceleration c.chassis.mass (q 4) (q 5) o.chassis.force = ax * c.chassis.g0
  lateral : lateralAcceleration c.chassis.mass (q 4) (q 5) o.chassis.force = ay * c.chassis.g0
  vertical : o.chassis.force.2.2 = 0
  roll : o.chassis.torque.1 = 0
  pitch : o.chassis.torque.2.1 = 0
  yaw : o.chassis.torque.2.2 = 0
  balance : (q 8 - q 7) * (1 - c.chassis.rollBalance) + (q 9 - q 10) * c.chassis.rollBalance = 0
  wheelFL : o.front.torqueL + Tyre.wheelTorque o.front.left.kin o.front.left.Fx = 0
  wheelFR : o.front.torqueR + Tyre.wheelTorque o.front.right.kin o.front.right.Fx = 0
  wheelRL : o.rear.torqueL + Tyre.wheelTorque o.rear.left.kin o.rear.left.Fx = 0
  wheelRR : o.rear.torqueR + Tyre.wheelTorque o.rear.right.kin o.rear.right.Fx = 0
  slips : ∀ x ∈ [(o.front.left, c.front, q 7), (o.front.right, c.front, q 8), (o.rear.left, c.rear, q 9),
      (o.rear.right, c.rear, q 10)],
    -1 ≤ x.1.kin.lambda / Tyre.maxLambda x.2.1.tyre (-x.2.2 * c.chassis.mass * c.chassis.g0) ∧
      x.1.kin.lambda / Tyre.maxLambda x.2.1.tyre (-x.2.2 * c.chassis.mass * c.chassis.g0) ≤ 12 / 10

/-- The lateral load transfer of both axles is shared as the roll balance says. -/
def Balanced (c : Car) (q : Nat → ℝ) : Prop :=
  q 8 - q 7 = c.chassis.rollBalance * (q 8 + q 10 - q 7 - q 9)

end Verif.F1
