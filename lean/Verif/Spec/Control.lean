import Verif.Model.Control

/-! Vocabulary of the control-variable properties (C19..C22); uses only the data of a control
variable, not the functions of the model. -/

set_option autoImplicit false

namespace Verif.Control

variable {K : Type*} [Zero K] [LinearOrder K]

/-- The definition of a control is consistent with its kind. -/
inductive Consistent (c : CV K) : Prop
  | dontOptimize (k : c.kind = .dontOptimize) (h1 : c.sHypermesh = []) (h2 : c.controls = [])
      (h3 : c.dcontrolsDt = [])
  | constant (k : c.kind = .constant) (h1 : c.sHypermesh = []) (h2 : c.controls.length = 1)
      (h3 : c.dcontrolsDt = [])
  | hypermesh (k : c.kind = .hypermesh) (h1 : c.sHypermesh.length = c.controls.length)
      (h3 : c.dcontrolsDt = [])
  | fullMesh (k : c.kind = .fullMesh) (h1 : c.sHypermesh = [])
      (h2 : c.dcontrolsDt = [] ∨ c.dcontrolsDt.length = c.controls.length) (h3 : 0 ≤ c.dissipation)

/-- The control with the dissipation that is meaningful for its kind. -/
def meaningful (c : CV K) : CV K :=
  { c with dissipation := if c.kind = .fullMesh then c.dissipation else 0 }

/-- `v` is the value of a piecewise-constant function given by checkpoints `mesh` and `values`:
the value at the last checkpoint not after `s`. -/
def PiecewiseConstantAt (mesh values : List K) (s v : K) : Prop :=
  ∃ (i : Nat) (x : K), mesh[i]? = some x ∧ x ≤ s ∧ (∀ (j : Nat) (y : K), i < j → mesh[j]? = some y → s < y) ∧ values[i]? = some v

/-- `v` is the value the user expects of control `c` (vehicle default `d`) at node `i`,
arclength `s`. -/
def ExpectedControl (c : CV K) (d : K) (i : Nat) (s v : K) : Prop :=
  match c.kind with
  | .dontOptimize => v = d
  | .constant => c.controls = [v]
  | .hypermesh => PiecewiseConstantAt c.sHypermesh c.controls s v
  | .fullMesh => c.controls[i]? = some v
  | .unknown => False

/-- Expected time derivative: zero for all but full-mesh controls. -/
def ExpectedDerivative (c : CV K) (i : Nat) (dv : K) : Prop :=
  match c.kind with
  | .fullMesh => c.dcontrolsDt[i]? = some dv
  | _ => dv = 0

end Verif.Control
