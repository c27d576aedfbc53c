import Verif.Spec.F1
import Verif.Spec.Kart
import Verif.Spec.SteadyState
import Verif.Model.SteadyCommand

/-! Vocabulary of the properties of the steady states of the two vehicles (C196..C199). The inputs of both are listed
in Spec/LapVehicles; on the road of the steady states 13 (F1 car) and 12 (kart) is the direction of the car. -/

set_option autoImplicit false

namespace Verif.SteadyVehicles

open Verif.Road Verif.Chassis

/-- A steady state of the F1 car or of the kart. -/
abbrev State := Steady.Solution ℝ (Nat → ℝ) (Nat → ℝ) (List ℝ)

/-! ### F1 car -/

/-- Wheels and chassis of the F1 car with the inputs `q` and controls `u` on a flat road. -/
noncomputable def f1Out (c : F1.Car) (q u : Nat → ℝ) : F1.CarOut :=
  F1.carUpdate c (F1.setState c q u) (F1.roadCartesian (F1.setState c q u))

/-- Inputs `q` and controls `u` of the F1 car are a steady state at the speed `v` with the accelerations `ax` along
and `ay` across the path, up to `tol`: it moves at that speed along the first axis of the ground and turns as the
lateral acceleration says, the forces give these accelerations, carry the car and do not turn it, no wheel changes its
speed, the load transfer is shared as the roll balance says and the slip angles are in the accepted range. -/
structure F1Held (tol : ℝ) (c : F1.Car) (q u : Nat → ℝ) (v ax ay : ℝ) : Prop where
  moves : (F1.roadCartesian (F1.setState c q u)).rates = (v, 0, ay / v)
  along : |longitudinalAcceleration c.chassis.mass (q 4) (q 5) (f1Out c q u).chassis.force - ax| ≤ tol * c.chassis.g0
  across : |lateralAcceleration c.chassis.mass (q 4) (q 5) (f1Out c q u).chassis.force - ay| ≤ tol * c.chassis.g0
  carried : |(f1Out c q u).chassis.force.2.2| ≤ tol * (c.chassis.g0 * c.chassis.mass)
  roll : |(f1Out c q u).chassis.torque.1| ≤ tol * (c.chassis.g0 * c.chassis.mass)
  pitch : |(f1Out c q u).chassis.torque.2.1| ≤ tol * (c.chassis.g0 * c.chassis.mass)
  yaw : |(f1Out c q u).chassis.torque.2.2| ≤ tol * (c.chassis.g0 * c.chassis.I.2.2.2.2)
  shared : |q 8 - q 7 - c.chassis.rollBalance * (q 8 + q 10 - q 7 - q 9)| ≤ tol
  wheels : ∀ w ∈ [((f1Out c q u).front.left, (f1Out c q u).front.torqueL),
      ((f1Out c q u).front.right, (f1Out c q u).front.torqueR), ((f1Out c q u).rear.left, (f1Out c q u).rear.torqueL),
      ((f1Out c q u).rear.right, (f1Out c q u).rear.torqueR)],
    |w.2 - w.1.Fx * (w.1.kin.R0 - w.1.kin.w)| ≤ tol * (c.chassis.g0 * c.chassis.mass)
  slips : ∀ x ∈ [((f1Out c q u).front.left, c.front, q 7), ((f1Out c q u).front.right, c.front, q 8),
      ((f1Out c q u).rear.left, c.rear, q 9), ((f1Out c q u).rear.right, c.rear, q 10)],
    -1 - tol ≤ x.1.kin.lambda / Tyre.maxLambda x.2.1.tyre (-x.2.2 * c.chassis.mass * c.chassis.g0) ∧
      x.1.kin.lambda / Tyre.maxLambda x.2.1.tyre (-x.2.2 * c.chassis.mass * c.chassis.g0) ≤ 12 / 10 + tol

/-- The accepted range of the variables of a steady state of the F1 car: slips of the four wheels, direction (in units
of 10 degrees), loads (in weights, negative), steering (in units of 10 degrees), throttle. -/
noncomputable def f1Range : List (ℝ × ℝ) :=
  [(-1.15, 0.25), (-1.15, 0.25), (-1.15, 1), (-1.15, 1), (0, 1.5), (-2, 0.1), (-2, 0.1), (-2, 0.1), (-2, 0.1), (0, 1.5),
   (-1, 1)]

/-- The same while braking. -/
noncomputable def f1RangeBraking : List (ℝ × ℝ) :=
  [(-1.15, 0.25), (-1.15, 0.25), (-1.3, 0.25), (-1.3, 0.25), (0, 1), (-2, 0.1), (-2, 0.1), (-2, 0.1), (-2, 0.1), (0, 1),
   (-1, 0.5)]

/-- What wheels and driver of the F1 car do, in a range up to `tol`; there is no boost and the brake bias is the
nominal one. -/
structure F1Driven (tol bias0 : ℝ) (range : List (ℝ × ℝ)) (q u : Nat → ℝ) : Prop where
  inside : List.Forall₂ (fun x r => r.1 - tol ≤ x ∧ x ≤ r.2 + tol)
    [q 0, q 1, q 2, q 3, q 13 / (10 * F1.DEG), q 7, q 8, q 9, q 10, u 0 / (10 * F1.DEG), u 2] range
  boost : u 1 = 0
  bias : u 3 = bias0

/-! ### Kart -/

/-- The members of the kart with inputs `q` and controls `u`. -/
noncomputable def kartMembers (q u : Nat → ℝ) : Kart.Members := Kart.setState q u

/-- Inputs `q` and controls `u` of the kart are a steady state at the speed `v` with the accelerations `ax` along and
`ay` across the path, up to `tol`: it moves at that speed along the first axis of the ground and turns as the
lateral acceleration says, the forces give these accelerations and carry the kart, it neither moves nor is
accelerated in height, roll and pitch, nothing turns it faster or slower, and the slips are in the accepted range. -/
structure KartHeld (solve : Vec3 × Vec3 × Vec3 → Vec3 → Vec3) (tol : ℝ) (c : Kart.Vehicle) (q u : Nat → ℝ)
    (v ax ay : ℝ) : Prop where
  moves : (Kart.roadCartesian (kartMembers q u)).rates = (v, 0, ay / v)
  along : |longitudinalAcceleration c.mass (q 1) (q 2) ((Kart.applied c (kartMembers q u) (q 12)).map Prod.snd).sum - ax|
    ≤ tol
  across : |lateralAcceleration c.mass (q 1) (q 2) ((Kart.applied c (kartMembers q u) (q 12)).map Prod.snd).sum - ay|
    ≤ tol
  carried : |((Kart.applied c (kartMembers q u) (q 12)).map Prod.snd).sum.2.2| ≤ tol * c.mass
  still : q 7 = 0 ∧ q 8 = 0 ∧ q 9 = 0
  turning : |(Kart.angularAcceleration solve c (kartMembers q u) (q 12)).1| ≤ tol ∧
    |(Kart.angularAcceleration solve c (kartMembers q u) (q 12)).2.1| ≤ tol ∧
    |(Kart.angularAcceleration solve c (kartMembers q u) (q 12)).2.2| ≤ tol
  slipRatios : ∀ w ∈ [(Kart.rearAxle c (kartMembers q u)).left, (Kart.rearAxle c (kartMembers q u)).right],
    |w.kin.kappa| ≤ 11 / 100 + tol
  slipAngles : ∀ w ∈ [(Kart.rearAxle c (kartMembers q u)).left, (Kart.rearAxle c (kartMembers q u)).right,
      (Kart.frontAxle c (kartMembers q u)).left, (Kart.frontAxle c (kartMembers q u)).right],
    |w.kin.lambda| ≤ 9 / 100 + tol

/-- The accepted range of a steady state of the kart: slip of the rear axle (radius 0.139 m), height, roll, pitch,
direction and steering. -/
noncomputable def kartRange : List (ℝ × ℝ) :=
  [(-0.5, 0.5), (1e-4, 0.04), (-10 * F1.DEG, 10 * F1.DEG), (-10 * F1.DEG, 10 * F1.DEG), (-10 * F1.DEG, 10 * F1.DEG),
   (-10 * F1.DEG, 10 * F1.DEG)]

/-- What the kart does, in the range up to `tol`; the throttle is 0. -/
structure KartDriven (tol : ℝ) (q u : Nat → ℝ) (v : ℝ) : Prop where
  inside : List.Forall₂ (fun x r => r.1 - tol ≤ x ∧ x ≤ r.2 + tol)
    [(q 0 * 0.139 - v) / v, q 4, q 5, q 6, q 12, u 0] kartRange
  throttle : u 1 = 0

/-! ### Commands -/

/-- The first entries of an array. -/
def Holds (l : List ℝ) (n : Nat) (q : Nat → ℝ) : Prop := ∀ k, k < n → l[k]? = some (q k)

end Verif.SteadyVehicles
