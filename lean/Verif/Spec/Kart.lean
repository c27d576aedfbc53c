import Verif.Model.Kart
import Verif.Spec.Chassis
import Verif.Spec.F1

/-! Vocabulary for the properties of the kart. -/

set_option autoImplicit false

namespace Verif.Kart

open Verif.Road Verif.Chassis
open Verif.F1 (RoadKind WheelOut)

/-- The determinant of a matrix given by its rows. -/
def det (M : Vec3 × Vec3 × Vec3) : ℝ := dot M.1 (cross M.2.1 M.2.2)

/-- A function that solves every linear system with one solution. -/
def Solver (solve : Vec3 × Vec3 × Vec3 → Vec3 → Vec3) : Prop := ∀ M b, det M ≠ 0 → mulVec M (solve M b) = b

/-- Along a motion of the kart on a cartesian road, every component of the reported state has the reported
derivative at `t`. -/
def Follows (solve : Vec3 × Vec3 × Vec3 → Vec3 → Vec3) (c : Vehicle) (m : ℝ → Members) (t : ℝ) : Prop :=
  ∀ k, HasDerivAt (fun s => (evaluate solve c (m s) (roadCartesian (m s))).states.getD k 0)
    ((evaluate solve c (m t) (roadCartesian (m t))).dstates.getD k 0) t

/-- From the axes of the kart to fixed axes: it points in the direction `psi`. -/
noncomputable def world (psi : ℝ) (v : Vec3) : Vec3 := rotZ psi v

/-- The place on the road under the kart, in fixed axes. -/
def ground (m : Members) : Vec3 := (m.road1, m.road2, 0)

/-- The position in fixed axes of the point `x` of the road frame. -/
noncomputable def place (m : Members) (x : Vec3) : Vec3 := ground m + world m.road3 x

/-- The kart has its centre of mass a height `h` over the origin of the road frame, and the products of inertia
of a body with a plane of symmetry. -/
structure Vehicle.Regular (c : Vehicle) (h Ixx Iyy Izz Ixz : ℝ) : Prop where
  com : c.xCom = (0, 0, -h)
  inertia : c.I = ((Ixx, 0, Ixz), (0, Iyy, 0), (Ixz, 0, Izz))

/-- Attitude of the body: direction `psi`, pitch `mu`, roll `phi`. -/
def body (psi mu phi : ℝ) : Attitude := ⟨psi, mu, phi, 0⟩

/-- The angular momentum about the centre of mass, in fixed axes, of a body with the moments of inertia `Ixx`,
`Iyy`, `Izz` and the product of inertia `Ixz` (the integral of `x z`), which turns with the kart; its roll and
pitch are those of the kart times `e`. -/
noncomputable def angularMomentum (Ixx Iyy Izz Ixz : ℝ) (e : ℝ) (m : Members) : Vec3 :=
  let a := body m.road3 (e * m.mu) (e * m.phi)
  toWorld a (mulVec ((Ixx, 0, -Ixz), (0, Iyy, 0), (-Ixz, 0, Izz))
    (omegaBody a m.omega (e * m.dmu) (e * m.dphi) 0))

/-- What has to be balanced by a moment, to first order in roll, pitch and their derivatives: `r` is the value
and the derivative at 0 (`r.1 + r.2`), in the axes of the kart, of the rate of change of the angular momentum
of a body whose roll and pitch are those of the kart times `e`. -/
def FirstOrderRate (Ixx Iyy Izz Ixz : ℝ) (m : ℝ → Members) (t : ℝ) (r : Vec3) : Prop :=
  ∃ (rate : ℝ → Vec3) (d : Vec3),
    (∀ e, HasDerivAt (fun s => angularMomentum Ixx Iyy Izz Ixz e (m s)) (world (m t).road3 (rate e)) t) ∧
    HasDerivAt rate d 0 ∧ r = rate 0 + d

/-- The contact point of a tyre in the road frame: the radius less the deformation below its centre. -/
def contact (o : AxleOut) (R0 : ℝ) (w : WheelOut) : Vec3 := o.position + w.wheel.position + (0, 0, R0 - w.kin.w)

/-- The forces on the kart with their points of application: tyres at their contact points, turned with the
steered wheels, the air and the weight at the centre of mass. -/
noncomputable def applied (c : Vehicle) (m : Members) (heading : ℝ) : List (Vec3 × Vec3) :=
  let f := frontAxle c m
  let r := rearAxle c m
  [(contact f c.front.susp.R0 f.left, rotZ m.steering (f.left.Fx, f.left.Fy, -f.left.Fz)),
   (contact f c.front.susp.R0 f.right, rotZ m.steering (f.right.Fx, f.right.Fy, -f.right.Fz)),
   (contact r c.rear.susp.R0 r.left, (r.left.Fx, r.left.Fy, -r.left.Fz)),
   (contact r c.rear.susp.R0 r.right, (r.right.Fx, r.right.Fy, -r.right.Fz)),
   (comPosition c m, aeroForce c m heading),
   (comPosition c m, (0, 0, c.mass * c.g0))]

/-- The four corners of the kart. -/
inductive Corner
  | frontLeft | frontRight | rearLeft | rearRight

/-- The axle of a corner. -/
noncomputable def Corner.axle (c : Vehicle) (m : Members) : Corner → AxleOut
  | .frontLeft | .frontRight => frontAxle c m
  | .rearLeft | .rearRight => rearAxle c m

/-- The wheel of a corner. -/
noncomputable def Corner.wheel (c : Vehicle) (m : Members) : Corner → WheelOut
  | .frontLeft => (frontAxle c m).left
  | .frontRight => (frontAxle c m).right
  | .rearLeft => (rearAxle c m).left
  | .rearRight => (rearAxle c m).right

/-- The tyres of a corner. -/
def Corner.tyre (c : Vehicle) : Corner → AxleK
  | .frontLeft | .frontRight => c.front
  | .rearLeft | .rearRight => c.rear

/-- The steering angle of the wheel of a corner. -/
def Corner.angle (m : Members) : Corner → ℝ
  | .frontLeft | .frontRight => m.steering
  | .rearLeft | .rearRight => 0

/-- The centre of the wheel of a corner, in the road frame. -/
noncomputable def Corner.hub (c : Vehicle) (m : Members) (k : Corner) : Vec3 :=
  (k.axle c m).position + (k.wheel c m).wheel.position

/-- The names of the inputs of the kart, in order, as documented. -/
def documentedInputs (r : RoadKind) : List String :=
  ["rear-axle.omega", "chassis.velocity.x", "chassis.velocity.y", "chassis.omega.z", "chassis.position.z",
   "chassis.attitude.phi", "chassis.attitude.mu", "chassis.velocity.z", "chassis.omega.x", "chassis.omega.y"] ++
  match r with
  | .curvilinear => ["time", "road.lateral-displacement", "road.track-heading-angle"]
  | .cartesian => ["x", "y", "psi"]

/-- The names of the controls of the kart, in order, as documented. -/
def documentedControls : List String := ["front-axle.steering-angle", "rear-axle.throttle"]

/-- What a name stands for in a kart whose state has been set. -/
def meaning (r : RoadKind) (m : Members) (name : String) : Option ℝ :=
  ([("rear-axle.omega", m.omegaAxle), ("chassis.velocity.x", m.u), ("chassis.velocity.y", m.v),
    ("chassis.omega.z", m.omega), ("chassis.position.z", m.z), ("chassis.attitude.phi", m.phi),
    ("chassis.attitude.mu", m.mu), ("chassis.velocity.z", m.dz), ("chassis.omega.x", m.dphi),
    ("chassis.omega.y", m.dmu), ("front-axle.steering-angle", m.steering), ("rear-axle.throttle", m.throttle)] ++
   match r with
   | .curvilinear => [("time", m.road1), ("road.lateral-displacement", m.road2),
      ("road.track-heading-angle", m.road3)]
   | .cartesian => [("x", m.road1), ("y", m.road2), ("psi", m.road3)]).lookup name

/-! ### Mirror image in the vertical plane of the kart -/

/-- The mirror image of an axle: turning the steering to the left moves the left wheel as turning it to the right
moved the right wheel. -/
def mirrorAxle (a : AxleK) : AxleK := { a with susp := { a.susp with betaL := -a.susp.betaR, betaR := -a.susp.betaL } }

/-- The mirror image of the kart: lateral offsets, the products of inertia with the lateral axis and the wind across
are reversed. -/
def mirrorKart (c : Vehicle) : Vehicle :=
  { c with
    I := ((c.I.1.1, -c.I.1.2.1, c.I.1.2.2), (-c.I.2.1.1, c.I.2.1.2.1, -c.I.2.1.2.2),
      (c.I.2.2.1, -c.I.2.2.2.1, c.I.2.2.2.2))
    aero := { c.aero with northward := -c.aero.northward }
    xCom := F1.mirrorVec c.xCom
    xFront := F1.mirrorVec c.xFront
    xRear := F1.mirrorVec c.xRear
    front := mirrorAxle c.front
    rear := mirrorAxle c.rear }

/-- The mirror image of the inputs: lateral velocity, yaw rate, roll, roll rate, lateral position and direction are
reversed. -/
def mirrorInputs (q : Nat → ℝ) : Nat → ℝ
  | 2 => -q 2 | 3 => -q 3 | 5 => -q 5 | 8 => -q 8 | 11 => -q 11 | 12 => -q 12 | k => q k

/-- The mirror image of the controls: the steering is reversed. -/
def mirrorControls (u : Nat → ℝ) : Nat → ℝ
  | 0 => -u 0 | k => u k

/-- The mirror image of the states of the kart, or of their derivatives. -/
def mirrorStates : List ℝ → List ℝ
  | [axle, u, v, om, z, phi, mu, dz, dphi, dmu, r1, r2, r3] =>
    [axle, u, -v, -om, z, -phi, mu, dz, -dphi, dmu, r1, -r2, -r3]
  | l => l

/-! ### The same kart on both kinds of road -/

/-- The kart of a curvilinear road, at the point `f` of its track, as a kart of a cartesian one: position and
direction in the plane in place of time, lateral displacement and track heading angle. -/
noncomputable def inPlane (f : TrackPoint) (m : Members) : Members :=
  { m with
    road1 := (f.position + m.road2 • normal f).1
    road2 := (f.position + m.road2 • normal f).2.1
    road3 := f.yaw + m.road3 }

end Verif.Kart
