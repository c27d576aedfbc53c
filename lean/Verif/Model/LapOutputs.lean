import Verif.Model.LapOptions
import Verif.Model.Outputs

/-! The outputs of the vehicle that `optimal_laptime` saves. -/

set_option autoImplicit false

namespace Verif.LapOutputs

open Verif.Road Verif.Outputs Verif.Transcription

/-- `outputs_map.at(variable_name)`, fastestlapc.cpp:1677: nothing if it throws. -/
def lookUp (m : List (String × ℝ)) (v : String) : Option ℝ :=
  match find m v.toList with
  | .ok x => some x
  | _ => none

/-- `car_curv_sc(inputs[i], controls_i, s[i])` and its map of outputs, fastestlapc.cpp:1649-1651, for an F1 car that has
the parameters `c` along the track `t`. -/
noncomputable def f1Outputs (c : ℝ → F1.Car) (t : ℝ → TrackPoint) (q : Row ℝ) (u : List ℝ) (s : ℝ) (v : String) : Option ℝ :=
  lookUp (values (f1Track (c s) (t s) q fun k => u.getD k 0)) v

/-- The same for a kart, fastestlapc.cpp:1649-1651. -/
noncomputable def kartOutputs (solve : Vec3 × Vec3 × Vec3 → Vec3 → Vec3) (c : ℝ → Kart.Vehicle) (t : ℝ → TrackPoint)
    (q : Row ℝ) (u : List ℝ) (s : ℝ) (v : String) : Option ℝ :=
  lookUp (values (kartTrack solve (c s) (t s) q fun k => u.getD k 0)) v

end Verif.LapOutputs
