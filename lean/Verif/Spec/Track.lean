import Verif.Model.Track

/-! Vocabulary for the properties of the track built from a preprocessed circuit. -/

set_option autoImplicit false

namespace Verif.Track

open Verif.Preprocessor (Point)

/-- A preprocessed circuit as the preprocessor leaves it: one value per arclength, arclengths that
increase strictly, below the length of the track when it is closed; at least one element. -/
structure Meshed (c : Circuit) : Prop where
  sizes : c.s.length = c.pts.length
  increasing : c.s.Pairwise (· < ·)
  below : c.closed = true → ∀ v ∈ c.s, v < c.trackLength
  elements : if c.closed then 1 ≤ c.s.length else 2 ≤ c.s.length

/-- The states of the circuit follow their rates by the trapezoidal rule from node `i` to the next one
(property C116). -/
def Consistent (state rate : Point ℝ → ℝ) (c : Circuit) : Prop :=
  ∀ (i : Nat) (a b : ℝ) (p q : Point ℝ), c.s[i]? = some a → c.s[i + 1]? = some b →
    c.pts[i]? = some p → c.pts[i + 1]? = some q →
    state q - state p = (b - a) / 2 * (rate p + rate q)

end Verif.Track
