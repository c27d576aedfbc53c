import Verif.Model.Outputs
import Verif.Spec.Chassis
import Verif.Spec.Road
import Verif.Spec.F1

/-! Vocabulary for the properties of the outputs of a vehicle. -/

set_option autoImplicit false

namespace Verif.Outputs

open Verif.Road Verif.Chassis

/-- The value with a name in a table of outputs, 0 if there is none. -/
def value (m : List (String × ℝ)) (name : String) : ℝ :=
  match find m name.toList with
  | .ok x => x
  | _ => 0

/-- The three components of a vector in a table of outputs. -/
def vector (m : List (String × ℝ)) (name : String) : Vec3 :=
  (value m (name ++ ".x"), value m (name ++ ".y"), value m (name ++ ".z"))

/-- The four wheels of a vehicle. -/
inductive Corner
  | frontLeft
  | frontRight
  | rearLeft
  | rearRight

/-- The name of the tyre in the outputs. -/
def Corner.name : Corner → String
  | .frontLeft => "front-axle.left-tire"
  | .frontRight => "front-axle.right-tire"
  | .rearLeft => "rear-axle.left-tire"
  | .rearRight => "rear-axle.right-tire"

/-- The radius of a wheel of the F1 car. -/
def Corner.radius (c : F1.Car) : Corner → ℝ
  | .frontLeft => c.front.R0
  | .frontRight => c.front.R0
  | .rearLeft => c.rear.R0
  | .rearRight => c.rear.R0

/-- The point of the F1 car where a wheel has its centre: forwards, to the right, downwards. -/
noncomputable def Corner.centre (c : F1.Car) : Corner → Vec3
  | .frontLeft => c.chassis.xFront - (0, c.front.track / 2, 0)
  | .frontRight => c.chassis.xFront + (0, c.front.track / 2, 0)
  | .rearLeft => c.chassis.xRear - (0, c.rear.track / 2, 0)
  | .rearRight => c.chassis.xRear + (0, c.rear.track / 2, 0)

/-- The angle by which a wheel is turned: only the front wheels are steered. -/
def Corner.steered (steering : ℝ) : Corner → ℝ
  | .frontLeft => steering
  | .frontRight => steering
  | .rearLeft => 0
  | .rearRight => 0

/-- The radius of a wheel of the kart. -/
def Corner.kartRadius (c : Kart.Vehicle) : Corner → ℝ
  | .frontLeft => c.front.susp.R0
  | .frontRight => c.front.susp.R0
  | .rearLeft => c.rear.susp.R0
  | .rearRight => c.rear.susp.R0

/-- The sum over the four wheels. -/
def total (x : Corner → Vec3) : Vec3 := x .frontLeft + x .frontRight + x .rearLeft + x .rearRight

/-- The attitude of a car at a point of a track, turned by `alpha` with respect to the track. -/
def attitude (f : TrackPoint) (alpha : ℝ) : Attitude := ⟨f.yaw, f.pitch, f.roll, alpha⟩

/-- The first `n` numbers of the caller, as an array. -/
def entries (l : List ℝ) : Nat → ℝ := fun k => l.getD k 0

/-- A flat road. -/
def Level (f : TrackPoint) : Prop := f.pitch = 0 ∧ f.roll = 0 ∧ f.dpitch = 0 ∧ f.droll = 0

/-- The F1 car drives along the road `F`: at the time `t`, the position and the angles of the road vary along it as the
track says, the arclength advances at the rate given by the time per metre, the lateral displacement and the heading
vary at the rates of the road model, and the car is not at the centre of curvature of the road. `q` and `u` are the
inputs and controls in time. -/
structure Drives (c : F1.Car) (F : ℝ → TrackPoint) (S : ℝ → ℝ) (q u : ℝ → Nat → ℝ) (t : ℝ) : Prop where
  position : HasDerivAt (fun s => (F s).position) (tangent (F (S t))) (S t)
  yaw : HasDerivAt (fun s => (F s).yaw) (F (S t)).dyaw (S t)
  pitch : HasDerivAt (fun s => (F s).pitch) (F (S t)).dpitch (S t)
  roll : HasDerivAt (fun s => (F s).roll) (F (S t)).droll (S t)
  centre : 1 - q t 12 * (curvature (F (S t))).2.2 ≠ 0
  arclength : HasDerivAt S (1 / (F1.roadCurvilinear (F (S t)) (F1.setState c (q t) (u t))).dtimeds) t
  lateral : HasDerivAt (fun t => q t 12) (F1.roadCurvilinear (F (S t)) (F1.setState c (q t) (u t))).rates.2.1 t
  heading : HasDerivAt (fun t => q t 13) (F1.roadCurvilinear (F (S t)) (F1.setState c (q t) (u t))).rates.2.2 t

/-- At the arclength `s` of the track the states with the indices `ks` vary along it as the equations of the vehicle
say: `E` gives the equations at every arclength. -/
def Obeys (E : ℝ → F1.Equations) (ks : List Nat) (s : ℝ) : Prop :=
  ∀ k ∈ ks, HasDerivAt (fun s => (E s).states.getD k 0) ((E s).dstates.getD k 0) s

/-- The motion of the kart along a flat track, as far as the reported positions depend on it: the position and the yaw of
the road vary along it as the track says, height, roll, pitch, time, lateral displacement and track heading angle vary as
the equations of the kart say, the kart advances along the track, and it is not at the centre of curvature. -/
structure KartDrives (solve : Vec3 × Vec3 × Vec3 → Vec3 → Vec3) (c : Kart.Vehicle) (F : ℝ → TrackPoint)
    (q u : ℝ → Nat → ℝ) (s : ℝ) : Prop where
  flat : ∀ s, Level (F s)
  position : HasDerivAt (fun s => (F s).position) (tangent (F s)) s
  yaw : HasDerivAt (fun s => (F s).yaw) (F s).dyaw s
  advances : q s 1 * Real.cos (q s 12) - q s 2 * Real.sin (q s 12) ≠ 0
  centre : 1 - q s 11 * (F s).dyaw ≠ 0
  obeys : Obeys (fun s => Kart.evaluate solve c (Kart.setState (q s) (u s))
      (Kart.roadCurvilinear (F s) (Kart.setState (q s) (u s)))) [4, 5, 6, 10, 11, 12] s

/-- Along the track, at the arclength `s`: the speed of a vehicle with the velocity `(u, v)` in its own axes grows at the
rate `ax` in time, and its velocity turns to the right at the rate `ay` over the speed, when the vehicle turns at the
rate `omega`; `time` is the time of the passage. -/
def Accelerates (u v omega time : ℝ → ℝ) (ax ay s : ℝ) : Prop :=
  ∃ dt du dv, HasDerivAt time dt s ∧ HasDerivAt u du s ∧ HasDerivAt v dv s ∧
    HasDerivAt (fun s => √(u s ^ 2 + v s ^ 2)) (ax * dt) s ∧
    √(u s ^ 2 + v s ^ 2) * ((u s * dv - v s * du) / (u s ^ 2 + v s ^ 2) + omega s * dt) = ay * dt

/-- The wheel on the other side. -/
def Corner.opposite : Corner → Corner
  | .frontLeft => .frontRight
  | .frontRight => .frontLeft
  | .rearLeft => .rearRight
  | .rearRight => .rearLeft

/-- The outputs `o'` are the mirror image of `o`, except for the understeer indicator: the tyres of the two sides are
exchanged, what points sideways is reversed, and the torques and angles that turn the other way too. -/
structure Mirrored (o o' : List (String × ℝ)) : Prop where
  tyreVector : ∀ (i : Corner), ∀ v ∈ [".position", ".velocity", ".velocity.car_frame", ".force", ".force.inertial"],
    vector o' (i.name ++ v) = F1.mirrorVec (vector o (i.opposite.name ++ v))
  tyreSame : ∀ (i : Corner), ∀ n ∈ [".true_kappa", ".omega", ".dissipation"],
    value o' (i.name ++ n) = value o (i.opposite.name ++ n)
  tyreReversed : ∀ i : Corner, value o' (i.name ++ ".lambda") = -value o (i.opposite.name ++ ".lambda")
  force : vector o' "chassis.force" = F1.mirrorVec (vector o "chassis.force")
  torque : vector o' "chassis.torque" = F1.mirrorAxial (vector o "chassis.torque")
  same : ∀ n ∈ ["chassis.acceleration.x", "chassis.position.x", "chassis.aerodynamics.cd", "chassis.aerodynamics.lift",
      "chassis.aerodynamics.drag", "chassis.aerodynamics.drag.x", "chassis.aerodynamics.wind_velocity_body.x",
      "chassis.aerodynamics.aerodynamic_velocity.x"],
    value o' n = value o n
  reversed : ∀ n ∈ ["chassis.acceleration.y", "chassis.acceleration.yaw", "chassis.position.y", "chassis.attitude.yaw",
      "chassis.aerodynamics.drag.y", "chassis.aerodynamics.wind_velocity_body.y",
      "chassis.aerodynamics.aerodynamic_velocity.y"],
    value o' n = -value o n

end Verif.Outputs
