import Verif.Model.LapOptions
import Verif.Model.Registry

/-!
# The names of the variables of a vehicle type

Models `vehicle_type_get_sizes` and `vehicle_type_get_names` of src/main/c/fastestlapc.cpp:696-773 and the names of
the maps returned by `get_outputs_map`. The maps are unordered in the code; here they have the order of insertion.
The values of the outputs are in `Model/Outputs`.
-/

set_option autoImplicit false

namespace Verif.VehicleNames

/-- The keys of `Tire::get_outputs_map_self`, tire.h:170-197, for a tyre with that name. -/
def tyreOutputs (name : String) : List String :=
  [name ++ ".position.x", name ++ ".position.y", name ++ ".position.z",
   name ++ ".velocity.x", name ++ ".velocity.y", name ++ ".velocity.z",
   name ++ ".velocity.car_frame.x", name ++ ".velocity.car_frame.y", name ++ ".velocity.car_frame.z",
   name ++ ".lambda", name ++ ".true_kappa", name ++ ".dissipation",
   name ++ ".force.x", name ++ ".force.y", name ++ ".force.z",
   name ++ ".force.inertial.x", name ++ ".force.inertial.y", name ++ ".force.inertial.z", name ++ ".omega"]

/-- The keys of `Chassis::get_outputs_map_self`, chassis.h:282-308. -/
def chassisOutputs : List String :=
  ["chassis.acceleration.x", "chassis.acceleration.y", "chassis.force.x", "chassis.force.y", "chassis.force.z",
   "chassis.torque.x", "chassis.torque.y", "chassis.torque.z", "chassis.acceleration.yaw", "chassis.position.x",
   "chassis.position.y", "chassis.attitude.yaw", "chassis.understeer_oversteer_indicator", "chassis.aerodynamics.cd",
   "chassis.aerodynamics.lift", "chassis.aerodynamics.drag", "chassis.aerodynamics.drag.x",
   "chassis.aerodynamics.drag.y", "chassis.aerodynamics.wind_velocity_body.x",
   "chassis.aerodynamics.wind_velocity_body.y", "chassis.aerodynamics.aerodynamic_velocity.x",
   "chassis.aerodynamics.aerodynamic_velocity.y"]

/-- `map.insert(other.cbegin(), other.cend())`, keys only: a key that is already there is not inserted again
(axle.h:125, 130, chassis.h:248-249). -/
def insertAll (m l : List String) : List String := l.foldl (fun m k => if k ∈ m then m else m ++ [k]) m

/-- The keys of `Axle::get_outputs_map`, axle.h:120-134: the map of the axle itself is empty (axle.h:142-147,
axle_car_3dof.h:350-355, axle_car_6dof.h:377-391). The tyres are named at chassis_car_3dof.hpp:6-13, 48-56 and
chassis_car_6dof.hpp:8-15, 58-66. -/
def axleOutputs (name : String) : List String :=
  insertAll (insertAll [] (tyreOutputs (name ++ ".left-tire"))) (tyreOutputs (name ++ ".right-tire"))

/-- The keys of `get_outputs_map` of both vehicles: dynamic_model_car.h:162, chassis.h:242-252; the maps of
chassis_car_3dof.h:300-305 and chassis_car_6dof.h:258-263 are empty. -/
def outputNames : List String :=
  insertAll (insertAll chassisOutputs (axleOutputs "front-axle")) (axleOutputs "rear-axle")

/-- What `get_state_and_control_names` and `get_outputs_map` give for a vehicle type (fastestlapc.cpp:726, 744). -/
structure Names where
  key : Name
  inputs : List Name
  controls : List Name
  outputs : List Name

/-- The names of the variables of the type (fastestlapc.cpp:726, 744). -/
def namesOf {K : Type*} (car : LapOptions.CarType K) : Names :=
  ⟨car.key.toList, car.inputs.map String.toList, car.controls.map String.toList, car.outputs.map String.toList⟩

/-- The vehicle type with a name, fastestlapc.cpp:702-717, 761-770; `none` when the code throws. The bounds of the
variables play no role for the names. -/
def typeNamed (type : Name) : Option Names :=
  if type = "f1-3dof".toList then
    some (namesOf (LapOptions.f1Type (K := ℚ) outputNames (fun _ => 0) (fun _ => 0) (fun _ => 0) fun _ => 0))
  else if type = "kart-6dof".toList then
    some (namesOf (LapOptions.kartType (K := ℚ) outputNames (fun _ => 0) (fun _ => 0) (fun _ => 0) fun _ => 0))
  else none

/-- `vehicle_type_get_sizes`, fastestlapc.cpp:696-720. -/
def typeSizes (type : Name) : Res (Nat × Nat × Nat) :=
  match typeNamed type with
  | none => .throw
  | some t => .ok (t.inputs.length, t.controls.length, t.outputs.length)

/-- `vehicle_type_get_names`, fastestlapc.cpp:723-773: the bytes written to the buffers of the caller. The caller
has as many buffers as `vehicle_type_get_sizes` says. -/
def typeNames (nChar : Int) (type : Name) : Res (Name × List Name × List Name × List Name) :=
  match typeNamed type with
  | none => .throw
  | some t =>
    (Buffer.copyName nChar t.key).bind fun k =>
    (mapRes (Buffer.copyName nChar) t.inputs).bind fun q =>
    (mapRes (Buffer.copyName nChar) t.controls).bind fun u =>
    (mapRes (Buffer.copyName nChar) t.outputs).bind fun o => .ok (k, q, u, o)

end Verif.VehicleNames
