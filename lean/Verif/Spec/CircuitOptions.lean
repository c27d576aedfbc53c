import Verif.Model.CircuitOptions
import Verif.Spec.LapOptions

/-! Vocabulary for the properties of the options of the circuit preprocessor. -/

set_option autoImplicit false

namespace Verif.CircuitOptions

open Verif.LapOptions (Node find? Texts Readable)
open Verif.CircuitFile (Circuit)

variable {K : Type*}

/-- The text of the element of a path. -/
def textOf (d : Node) (path : List String) : Option String := (find? d path).map Node.text

/-- The documents that are accepted. -/
structure Acceptable (T : Texts K) (d : Node) : Prop where
  /-- both files are named -/
  left : textOf d ["kml_files", "left"] ≠ none
  right : textOf d ["kml_files", "right"] ≠ none
  /-- closed or open is given, and a mode; an open circuit cannot be refined -/
  mode : ∃ t b, textOf d ["is_closed"] = some t ∧ T.bool t = .ok b ∧
    (textOf d ["mode"] = some "equally-spaced" ∧
        (∃ t n, textOf d ["number_of_elements"] = some t ∧ T.int t = .ok n) ∨
      b = true ∧ textOf d ["mode"] = some "refined" ∧
        (∃ t l, textOf d ["mesh_refinement", "s"] = some t ∧ T.nums t = .ok l) ∧
        ∃ t l, textOf d ["mesh_refinement", "ds"] = some t ∧ T.nums t = .ok l)
  /-- the options that are given can be read -/
  weights : ∀ p ∈ ["cost_curvature", "cost_track_limits_smoothness", "cost_track_limits_errors", "cost_centerline",
    "maximum_yaw_dot", "maximum_dyaw_dot"], Readable (find? d ["optimization", p]) T.num
  print : Readable (find? d ["print_level"]) T.num
  /-- output variables have a prefix -/
  pre : find? d ["output_variables"] ≠ none → find? d ["output_variables", "prefix"] ≠ none

/-- The vectors a caller expects from a circuit. -/
def circuitVectors (c : Circuit K) : List (String × List K) :=
  [("arclength", c.s), ("centerline/x", c.rCenterline.map (·.1)), ("centerline/y", c.rCenterline.map (·.2.1)),
   ("left/x", c.rLeft.map (·.1)), ("left/y", c.rLeft.map (·.2.1)),
   ("right/x", c.rRight.map (·.1)), ("right/y", c.rRight.map (·.2.1)),
   ("left_measured/x", c.rLeftMeasured.map (·.1)), ("left_measured/y", c.rLeftMeasured.map (·.2.1)),
   ("right_measured/x", c.rRightMeasured.map (·.1)), ("right_measured/y", c.rRightMeasured.map (·.2.1)),
   ("yaw_dot", c.yawDot), ("nl", c.nl), ("nr", c.nr)]

end Verif.CircuitOptions
