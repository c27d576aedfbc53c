import Verif.Model.TrackPlanar
import Mathlib.Analysis.SpecialFunctions.Trigonometric.Deriv

/-! # Vocabulary of the properties of tracks built from a planar curve -/

set_option autoImplicit false

namespace Verif.Track

open Verif.Road (Vec3)

/-- A planar curve travelled with the speed `v > 0` in the direction `θ`: derivatives of the position, and
`θ'` the change of the direction. -/
structure Travels (dp d2p : ℝ → Vec3) (v θ θ' : ℝ → ℝ) : Prop where
  first : ∀ t, dp t = (v t * Real.cos (θ t), v t * Real.sin (θ t), 0)
  speed : ∀ t, 0 < v t
  smooth : ∀ t, DifferentiableAt ℝ v t
  turn : ∀ t, HasDerivAt θ (θ' t) t
  second : ∀ t, HasDerivAt (fun u => v u * Real.cos (θ u)) (d2p t).1 t ∧
    HasDerivAt (fun u => v u * Real.sin (θ u)) (d2p t).2.1 t ∧ (d2p t).2.2 = 0

end Verif.Track
