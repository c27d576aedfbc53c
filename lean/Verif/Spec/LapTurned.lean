import Verif.Spec.LapVehicles
import Verif.Spec.Outputs
import Verif.Model.Track

/-! Vocabulary of a circuit that lies elsewhere and faces another direction (C255, C256). -/

set_option autoImplicit false

namespace Verif.LapVehicles

open Verif.Road Verif.Chassis Verif.Outputs Real

/-- The point turned by `θ` about the vertical and then moved by `d`. -/
noncomputable def placed (θ : ℝ) (d v : Vec3) : Vec3 :=
  (cos θ * v.1 - sin θ * v.2.1 + d.1, sin θ * v.1 + cos θ * v.2.1 + d.2.1, v.2.2 + d.2.2)

/-- The point of a track that was turned by `θ` about the vertical and moved by `d`. -/
noncomputable def turnPoint (θ : ℝ) (d : Vec3) (f : TrackPoint) : TrackPoint :=
  { f with position := placed θ d f.position, yaw := f.yaw + θ }

/-- The circuit turned by `θ` about the vertical and moved by `d`. -/
noncomputable def turnCircuit (θ : ℝ) (d : Vec3) (t : Circuit) : Circuit := { t with at_ := fun s => turnPoint θ d (t.at_ s) }

/-- The wind turned by `θ` about the vertical. Its velocity is `(eastward, -northward)` in the axes x and y of the track. -/
noncomputable def turnWind (θ : ℝ) (p : Aero) : Aero :=
  { p with eastward := cos θ * p.eastward + sin θ * p.northward, northward := cos θ * p.northward - sin θ * p.eastward }

/-- The F1 car in the turned wind. -/
noncomputable def windF1 (θ : ℝ) (c : F1.Car) : F1.Car := { c with chassis := { c.chassis with aero := turnWind θ c.chassis.aero } }

/-- The kart in the turned wind. -/
noncomputable def windKart (θ : ℝ) (c : Kart.Vehicle) : Kart.Vehicle := { c with aero := turnWind θ c.aero }

/-- Outputs that tell where the vehicle is and where it heads. -/
def TellsPlace (n : String) : Prop :=
  n ∈ ["chassis.position.x", "chassis.position.y", "chassis.attitude.yaw"] ∨
    ∃ i : Outputs.Corner, n ∈ [i.name ++ ".position.x", i.name ++ ".position.y", i.name ++ ".position.z",
      i.name ++ ".force.inertial.x", i.name ++ ".force.inertial.y"]

/-- The outputs `o'` are the outputs `o` of a vehicle that is turned by `θ` about the vertical and moved by `d`: positions, the
heading, and the forces in fixed axes are turned and moved, and all other outputs are the same. -/
structure TurnedOutputs (θ : ℝ) (d : Vec3) (o o' : List (String × ℝ)) : Prop where
  chassis : value o' "chassis.position.x" =
      cos θ * value o "chassis.position.x" - sin θ * value o "chassis.position.y" + d.1 ∧
    value o' "chassis.position.y" = sin θ * value o "chassis.position.x" + cos θ * value o "chassis.position.y" + d.2.1
  heading : value o' "chassis.attitude.yaw" = value o "chassis.attitude.yaw" + θ
  tyres : ∀ i : Outputs.Corner, vector o' (i.name ++ ".position") = placed θ d (vector o (i.name ++ ".position"))
  forces : ∀ i : Outputs.Corner, vector o' (i.name ++ ".force.inertial") = placed θ 0 (vector o (i.name ++ ".force.inertial"))
  others : ∀ n ∈ VehicleNames.outputNames, ¬ TellsPlace n → value o' n = value o n

/-- A point of a circuit that was turned by `θ` about the vertical and moved by `d`. -/
noncomputable def turnNode (θ : ℝ) (d : Vec3) (p : Preprocessor.Point ℝ) : Preprocessor.Point ℝ :=
  { p with x := cos θ * p.x - sin θ * p.y + d.1, y := sin θ * p.x + cos θ * p.y + d.2.1, z := p.z + d.2.2, yaw := p.yaw + θ }

/-- The data of a circuit, turned by `θ` about the vertical and moved by `d`. -/
noncomputable def turnData (θ : ℝ) (d : Vec3) (c : Track.Circuit) : Track.Circuit := { c with pts := c.pts.map (turnNode θ d) }

end Verif.LapVehicles
