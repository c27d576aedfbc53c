import Verif.Model.Arcs

/-! Vocabulary for the properties of tracks made of arcs. -/

set_option autoImplicit false

namespace Verif.Arcs

/-- Length declared by a node. -/
noncomputable def declaredLength (scale : ℝ) : Node → ℝ
  | .straight length => scale * length
  | .corner _ radius sweep => scale * radius * sweep
  | .other => 0

/-- Signed curvature declared by a node: negative to the left. -/
noncomputable def declaredCurvature (scale : ℝ) : Node → ℝ
  | .corner true radius _ => -(1 / (scale * radius))
  | .corner false radius _ => 1 / (scale * radius)
  | _ => 0

/-- A straight of positive length, or a corner of positive radius (at most 1e10, the bound under
which the evaluation still sees a corner) and positive sweep. -/
def Sensible (scale : ℝ) : Node → Prop
  | .straight length => 0 < scale * length
  | .corner _ radius sweep => 0 < scale * radius ∧ scale * radius ≤ 10 ^ 10 ∧ 0 < sweep
  | .other => False

end Verif.Arcs
