import Verif.Model.Python
import Verif.Model.Outputs

/-!
# An output of a vehicle, asked for from Python

`vehicle_get_output` of src/main/python/fastest_lap.py on top of the function of the library of the same name.
-/

set_option autoImplicit false

namespace Verif.Python

/-- `vehicle_get_output`, fastest_lap.py:196-209: the states and controls are copied to arrays of their lengths, the library
is called, and `return;` gives `None` (`none`) and not the result of the call. -/
noncomputable def vehicleGetOutput (l : Outputs.Library) (vehicle : Name) (q u : List ℝ) (s : ℝ) (key : Name) :
    Py (Option ℝ) :=
  (ofC (Outputs.getOutput l (cstr vehicle) q u s (cstr key))).bind fun _ => .ret none

end Verif.Python
