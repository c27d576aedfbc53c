import Verif.Model.CircuitOptions

/-! Vocabulary for the order and the names of the options (C262, C263). -/

set_option autoImplicit false

namespace Verif.LapOptions.Spec

/-- The options of an optimal lap. -/
def lapOptionNames : List String :=
  ["warm_start", "save_warm_start", "write_xml", "xml_file_name", "print_level", "output_variables", "steady_state_speed",
    "initial_speed", "closed_simulation", "initial_condition", "sigma", "compute_sensitivity", "control_variables",
    "integral_constraints", "variable_bounds"]

/-- The options of the circuit preprocessor. -/
def circuitOptionNames : List String :=
  ["kml_files", "mode", "is_closed", "number_of_elements", "mesh_refinement", "optimization", "print_level", "output_variables",
    "xml_file_name", "insert_table_name"]

/-- The options of a propagation. -/
def stepOptionNames : List String := ["sigma", "max_iter", "error_tolerance", "relaxation_factor"]

/-- The same elements in another order, with no name twice. -/
def Reordered (l l' : List Node) : Prop := l.Perm l' ∧ (l.map Node.name).Nodup

/-- The same options in another order; the entries of the control variables and of the bounds may be in another order too. -/
def SameOptions : Node → Node → Prop
  | .mk n t a l, .mk n' t' a' l' => n = n' ∧ t = t' ∧ a = a' ∧ ∃ m, Reordered l m ∧ List.Forall₂ (fun e e' => e = e' ∨
      ∃ n ∈ ["control_variables", "variable_bounds"], ∃ t a s s', e = .mk n t a s ∧ e' = .mk n t a s' ∧ Reordered s s') m l'

end Verif.LapOptions.Spec
