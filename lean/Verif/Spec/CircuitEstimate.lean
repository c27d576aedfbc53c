import Verif.Spec.CircuitMoves

/-! Vocabulary for the estimate of the centreline of circuits that are moved or turned (C270). -/

set_option autoImplicit false

namespace Verif.Fit

open Verif.Road (Vec3)
open Verif.Path (turnPoint)

/-- What is assumed of `find_closest_point` and of `Polynomial` of degree one: when the line and the point are turned about the vertical
and moved, so is the point that is found, on the same segment and at the same distance; and so are the points of the line between its
vertices. -/
structure Turns (lib : Library) : Prop where
  find : ∀ (angle : ℝ) (d : Vec3) (line : List Vec3) (p : Vec3) (closed : Bool) (i : Nat) (dmax : ℝ), line ≠ [] →
    lib.find (turnLine angle d line) (turnPoint angle d p) closed i dmax
      = (turnPoint angle d (lib.find line p closed i dmax).1, (lib.find line p closed i dmax).2)
  linear : ∀ (angle : ℝ) (d : Vec3) (s : List ℝ) (line : List Vec3) (x : ℝ), line ≠ [] →
    lib.linear s (turnLine angle d line) x = turnPoint angle d (lib.linear s line x)

/-- The sizes asked for, with the places at which they are asked for turned and moved. -/
noncomputable def Meshing.turned (angle : ℝ) (d : Vec3) : Meshing → Meshing
  | .breakpoints sizes => .breakpoints (sizes.map fun b => (turnPoint angle d b.1, b.2))
  | how => how

end Verif.Fit
