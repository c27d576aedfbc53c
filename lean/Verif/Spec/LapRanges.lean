import Verif.Spec.LapVehicles
import Verif.Spec.LapOptions

/-! Vocabulary of the ranges of the variables of a lap (C259). -/

set_option autoImplicit false

namespace Verif.LapVehicles

open Verif.LapOptions (CarType Given Node entries)

/-- A speed in kilometres per hour. -/
noncomputable def kmh (x : ℝ) : ℝ := x * 1000 / 3600

/-- An angle in degrees. -/
noncomputable def degrees (x : ℝ) : ℝ := x * Real.pi / 180

/-- The ranges of the inputs of the F1 car: slips between -1 and 1, 50 to 380 km/h forwards and up to 50 km/h sideways, turning at
up to 10 rad/s, wheel loads between 0.01 and 3 weights of the car (downwards), and a heading within 45 degrees of the track. -/
noncomputable def f1Ranges : List (String × ℝ × ℝ) :=
  [("front-axle.left-tire.kappa", -1, 1), ("front-axle.right-tire.kappa", -1, 1), ("rear-axle.left-tire.kappa", -1, 1),
   ("rear-axle.right-tire.kappa", -1, 1), ("chassis.velocity.x", kmh 50, kmh 380), ("chassis.velocity.y", -kmh 50, kmh 50),
   ("chassis.omega.z", -10, 10), ("chassis.force_z_fl_g", -3, -(1 / 100)), ("chassis.force_z_fr_g", -3, -(1 / 100)),
   ("chassis.force_z_rl_g", -3, -(1 / 100)), ("chassis.force_z_rr_g", -3, -(1 / 100)),
   ("road.track-heading-angle", -degrees 45, degrees 45)]

/-- The ranges of its controls: the wheels are turned by up to 20 degrees, the brake is -1 and full throttle 1. -/
noncomputable def f1ControlRanges : List (String × ℝ × ℝ) :=
  [("front-axle.steering-angle", -degrees 20, degrees 20), ("rear-axle.boost", 0, 1), ("chassis.throttle", -1, 1),
   ("chassis.brake-bias", 0, 1)]

/-- The ranges of the inputs of the kart: the rear axle turns as wheels of radius 0.139 m do at 10 to 200 km/h, 10 to 200 km/h
forwards and up to 10 km/h sideways, turning at up to 10 rad/s, a ground clearance below 0.139 m, roll and pitch below 30 degrees,
moving vertically at up to 10 m/s, and a heading within 45 degrees of the track. -/
noncomputable def kartRanges : List (String × ℝ × ℝ) :=
  [("rear-axle.omega", kmh 10 / 0.139, kmh 200 / 0.139), ("chassis.velocity.x", kmh 10, kmh 200),
   ("chassis.velocity.y", -kmh 10, kmh 10), ("chassis.omega.z", -10, 10), ("chassis.position.z", 0.00001, 0.139),
   ("chassis.attitude.phi", -degrees 30, degrees 30), ("chassis.attitude.mu", -degrees 30, degrees 30),
   ("chassis.velocity.z", -10, 10), ("chassis.omega.x", -10, 10), ("chassis.omega.y", -10, 10),
   ("road.track-heading-angle", -degrees 45, degrees 45)]

/-- The ranges of its controls. -/
noncomputable def kartControlRanges : List (String × ℝ × ℝ) :=
  [("front-axle.steering-angle", -degrees 20, degrees 20), ("rear-axle.throttle", -1, 1)]

/-- The type of the F1 car in the interface: its bounds are the ones of the vehicle, fastestlapc.cpp:1404-1407 with
optimal_laptime.h:52-55. -/
noncomputable def f1InLaps (outputs : List String) (lowest max bias0 : ℝ) (junk junkU : Nat → F1.Limits) : CarType ℝ :=
  LapOptions.f1Type outputs (fun j => (F1.inputLimits lowest max .curvilinear junk j).lb)
    (fun j => (F1.inputLimits lowest max .curvilinear junk j).ub) (fun j => (F1.controlLimits bias0 junkU j).lb)
    fun j => (F1.controlLimits bias0 junkU j).ub

/-- The type of the kart in the interface. -/
noncomputable def kartInLaps (outputs : List String) (lowest max : ℝ) (junk junkU : Nat → F1.Limits) : CarType ℝ :=
  LapOptions.kartType outputs (fun j => (Kart.inputLimits lowest max .curvilinear junk j).lb)
    (fun j => (Kart.inputLimits lowest max .curvilinear junk j).ub) (fun j => (Kart.controlLimits junkU j).lb)
    fun j => (Kart.controlLimits junkU j).ub

/-- The options give no bounds to the variable. -/
def Unbounded (o : Given) (name : String) : Prop :=
  match o with
  | .doc d => ∀ e ∈ entries d "variable_bounds", e.name ≠ name
  | _ => True

/-- The inputs and the controls of a lap are in the ranges, up to `tol`: at every node that is optimised the inputs, and the
controls that are optimised, wherever the options give no other bounds. -/
structure InRanges (ranges controlRanges : List (String × ℝ × ℝ)) (o : Given) (p : Transcription.Problem ℝ)
    (lap : Transcription.Lap ℝ) (inputs controls : List String) (tol : ℝ) : Prop where
  inputs : ∀ (j : Nat) (name : String) (lo hi : ℝ), inputs[j]? = some name → (name, lo, hi) ∈ ranges → Unbounded o name →
    ∀ (i : Nat) (row : Nat → ℝ), Transcription.Optimised p i → lap.inputs[i]? = some row → lo - tol ≤ row j ∧ row j ≤ hi + tol
  controls : ∀ (j : Nat) (name : String) (lo hi : ℝ), controls[j]? = some name → (name, lo, hi) ∈ controlRanges → Unbounded o name →
    ∀ (cv : Control.CV ℝ), lap.controls[j]? = some cv →
      (cv.kind = .fullMesh → ∀ i a, Transcription.Optimised p i → cv.controls[i]? = some a → lo - tol ≤ a ∧ a ≤ hi + tol) ∧
      (cv.kind = .constant ∨ cv.kind = .hypermesh → ∀ (i : Nat) (a : ℝ), cv.controls[i]? = some a → lo - tol ≤ a ∧ a ≤ hi + tol)

end Verif.LapVehicles
