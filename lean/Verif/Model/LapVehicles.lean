import Verif.Model.Kart
import Verif.Model.LapSolve
import Verif.Model.SteadyState

/-!
# The F1 car and the kart in the applications

What `Optimal_laptime` and `Steady_state` read from the two vehicles of the library: instances of the
vehicles of Model/Transcription and Model/SteadyState made of the models of the F1 car
(src/core/vehicles/limebeer2014f1.h) and of the kart (src/core/vehicles/lot2016kart.h). The parameters of a
vehicle may change along the track (dynamic_model_car.hpp:58-62, see Model/Parameter): a vehicle is a function
of the arclength. `junk` is what arrays hold before they are written.
-/

set_option autoImplicit false

namespace Verif.LapVehicles

open Verif.Road

/-- What is read from the track of a curvilinear road: the track point at an arclength, the length, the
distances from the centreline to the edges and `has_elevation()` (road_curvilinear.h:38-46,
limebeer2014f1.h:191). -/
structure Circuit where
  at_ : ℝ → TrackPoint
  length : ℝ
  left : ℝ → ℝ
  right : ℝ → ℝ
  elevated : Bool

/-- A `std::vector` of controls as the array that the vehicle reads, `control_array_at_s`
(optimal_laptime_control_variables.h:190, called at optimal_laptime.hpp:1310 and 1325); it has `number_of_controls` entries by type. -/
def arrayOf (u : List ℝ) : Nat → ℝ := fun k => u.getD k 0

/-- The two lists of `classify_equations`, optimal_laptime.hpp:410, 870, 1320, 1530. -/
def idsOf (r : Res (List Nat × List Nat)) : List Nat × List Nat :=
  match r with
  | .ok l => l
  | _ => ([], [])

/-! ### Laps -/

/-- One evaluation of the F1 car in a lap, dynamic_model_car.hpp:51-108 with limebeer2014f1.h:266-310;
`power` is what the engine held before, a number that only an engine without a constant maximum power
returns (engine.hpp:42). -/
noncomputable def f1Eval (car : ℝ → F1.Car) (power : ℝ) (t : Circuit) (q : Nat → ℝ) (u : List ℝ) (s : ℝ) :
    Transcription.Eqs ℝ :=
  let c := car s
  let m := F1.setState c q (arrayOf u)
  let r := F1.roadCurvilinear (t.at_ s) m
  let o := F1.carUpdate c m r
  let e := F1.evaluate c m r
  let P := Power.enginePower c.rear.torque.engine power (c.rear.torque.sp m.throttle)
  ⟨fun k => e.states.getD k 0, fun k => e.dstates.getD k 0, fun k => (F1.extraConstraints c m o).getD k 0,
   fun k => (F1.integrals m o P).getD k 0⟩

/-- The F1 car in an optimal lap, limebeer2014f1.h:180-310, dynamic_model_car.hpp:219-243: `bias0` is the
parameter of the brake bias. -/
noncomputable def f1Vehicle (car : ℝ → F1.Car) (bias0 power : ℝ) (junk : Nat → F1.Limits) (ready : Bool)
    (t : Circuit) : Transcription.Vehicle ℝ where
  nInputs := F1.nInputs
  iTime := F1.roadStart
  sTime := F1.roadStart
  nExtra := 6
  timeIds := (idsOf (F1.classify t.elevated)).1
  algIds := (idsOf (F1.classify t.elevated)).2
  controlsDef := (List.range F1.nControls).map fun k => (F1.controlLimits bias0 junk k).default
  dcontrolsLb := F1.rateBounds.1
  dcontrolsUb := F1.rateBounds.2
  extraLb := fun s k => (F1.extraBounds (car s) (t.left s) (t.right s)).1.getD k 0
  extraUb := fun s k => (F1.extraBounds (car s) (t.left s) (t.right s)).2.getD k 0
  trackLength := t.length
  leftLimit := t.left
  rightLimit := t.right
  integralNames := F1.integralNames.map String.toList
  eval := f1Eval car power t
  ready := ready

/-- One evaluation of the kart in a lap, dynamic_model_car.hpp:51-108 with lot2016kart.h:200-211. There are no
integral quantities (optimal_laptime.h:133-140 with an empty table). -/
noncomputable def kartEval (solve : Vec3 × Vec3 × Vec3 → Vec3 → Vec3) (kart : ℝ → Kart.Vehicle) (t : Circuit)
    (q : Nat → ℝ) (u : List ℝ) (s : ℝ) : Transcription.Eqs ℝ :=
  let c := kart s
  let m := Kart.setState q (arrayOf u)
  let e := Kart.evaluate solve c m (Kart.roadCurvilinear (t.at_ s) m)
  ⟨fun k => e.states.getD k 0, fun k => e.dstates.getD k 0, fun k => (Kart.extraConstraints c m).getD k 0,
   fun _ => 0⟩

/-- The kart in an optimal lap, lot2016kart.h:184-211, dynamic_model_car.h:170-188. -/
noncomputable def kartVehicle (solve : Vec3 × Vec3 × Vec3 → Vec3 → Vec3) (kart : ℝ → Kart.Vehicle)
    (directTorque : Bool) (junk : Nat → F1.Limits) (ready : Bool) (t : Circuit) : Transcription.Vehicle ℝ where
  nInputs := Kart.nInputs
  iTime := Kart.iRoad
  sTime := Kart.iRoad
  nExtra := 6
  timeIds := (idsOf (F1.classifyBase Kart.nInputs Kart.iRoad)).1
  algIds := (idsOf (F1.classifyBase Kart.nInputs Kart.iRoad)).2
  controlsDef := (List.range Kart.nControls).map fun k => (Kart.controlLimits junk k).default
  dcontrolsLb := (Kart.rateBounds directTorque).1
  dcontrolsUb := (Kart.rateBounds directTorque).2
  extraLb := fun _ k => Kart.extraBounds.1.getD k 0
  extraUb := fun _ k => Kart.extraBounds.2.getD k 0
  trackLength := t.length
  leftLimit := t.left
  rightLimit := t.right
  integralNames := []
  eval := kartEval solve kart t
  ready := ready

/-! ### Steady states -/

/-- `steady_state_initial_guess`, limebeer2014f1.h:57-60. -/
noncomputable def f1Guess : List ℝ := [0, 0, 0, 0, 0, -(1 / 4), -(1 / 4), -(1 / 4), -(1 / 4), 0, 0]

/-- `steady_state_variable_bounds` and `..._accelerate`, limebeer2014f1.h:62-71. -/
noncomputable def f1Bounds : List ℝ × List ℝ :=
  ([-(115 / 100), -(115 / 100), -(115 / 100), -(115 / 100), 0, -2, -2, -2, -2, 0, -1],
   [1 / 4, 1 / 4, 1, 1, 3 / 2, 1 / 10, 1 / 10, 1 / 10, 1 / 10, 3 / 2, 1])

/-- `steady_state_variable_bounds_brake`, limebeer2014f1.h:73-77. -/
noncomputable def f1BoundsBrake : List ℝ × List ℝ :=
  ([-(115 / 100), -(115 / 100), -(13 / 10), -(13 / 10), 0, -2, -2, -2, -2, 0, -1],
   [1 / 4, 1 / 4, 1 / 4, 1 / 4, 1, 1 / 10, 1 / 10, 1 / 10, 1 / 10, 1, 1 / 2])

/-- The F1 car in the steady-state application: limebeer2014f1.h:46-178, used at steady_state.hpp:16-61. The
rates are those of the car on a cartesian road (steady_state.hpp:60, 125). -/
noncomputable def f1Steady (c : F1.Car) (bias0 : ℝ) (junk : Nat → ℝ) (junkLimits : Nat → F1.Limits) :
    Steady.Car ℝ (Nat → ℝ) (Nat → ℝ) (List ℝ) where
  nVars := 11
  eqs := fun x ax ay V =>
    (F1.steadyEquations c bias0 junk junkLimits (arrayOf x) ax ay V,
     F1.written junk (F1.steadyInputs c.chassis.g0 (arrayOf x) ay V),
     F1.steadyControls (fun k => (F1.controlLimits bias0 junkLimits k).default) (arrayOf x))
  rate := fun q u => (F1.equationsCartesian c q u).dstates
  getX := fun q u _ => F1.getX q u
  guess := f1Guess
  bounds := f1Bounds
  boundsAcc := f1Bounds
  boundsBrake := f1BoundsBrake
  cBounds := F1.steadyBounds
  units := c.chassis.g0

/-- The kart in the steady-state application: lot2016kart.h:73-182, used at steady_state.hpp:16-61. -/
noncomputable def kartSteady (solve : Vec3 × Vec3 × Vec3 → Vec3 → Vec3) (c : Kart.Vehicle) (junkQ junkU : Nat → ℝ) :
    Steady.Car ℝ (Nat → ℝ) (Nat → ℝ) (List ℝ) where
  nVars := 6
  eqs := fun x ax ay V =>
    (Kart.steadyEquations solve c junkQ junkU (arrayOf x) ax ay V,
     F1.written junkQ (Kart.steadyInputs (arrayOf x) ay V), F1.written junkU (Kart.steadyControls (arrayOf x)))
  rate := fun q u => (Kart.evaluate solve c (Kart.setState q u) (Kart.roadCartesian (Kart.setState q u))).dstates
  getX := Kart.getX
  guess := Kart.steadyGuess
  bounds := Kart.steadyVariableBounds
  boundsAcc := Kart.steadyVariableBounds
  boundsBrake := Kart.steadyVariableBounds
  cBounds := Kart.steadyBounds
  units := 1

end Verif.LapVehicles
