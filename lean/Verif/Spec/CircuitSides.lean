import Verif.Spec.CircuitMirror

/-! Vocabulary for the estimate of the centreline of the mirror image of a circuit (C272). -/

set_option autoImplicit false

namespace Verif.Fit

open Verif.Road (Vec3)

/-- What is assumed of `find_closest_point` and of `Polynomial` of degree one: when the line and the point are mirrored, so is the point that
is found, on the same segment and at the same distance, and so are the points of the line between its vertices; and between opposite
vectors the polynomial takes opposite values. -/
structure Mirrors (lib : Library) : Prop where
  find : ∀ (line : List Vec3) (p : Vec3) (closed : Bool) (i : Nat) (dmax : ℝ), line ≠ [] →
    lib.find (mirrorLine line) (mirrorPoint p) closed i dmax
      = (mirrorPoint (lib.find line p closed i dmax).1, (lib.find line p closed i dmax).2)
  linear : ∀ (s : List ℝ) (line : List Vec3) (x : ℝ), line ≠ [] →
    lib.linear s (mirrorLine line) x = mirrorPoint (lib.linear s line x)
  opposite : ∀ (s : List ℝ) (line : List Vec3) (x : ℝ), line ≠ [] → lib.linear s (line.map fun v => -v) x = -lib.linear s line x

/-- The sizes asked for, with the places at which they are asked for mirrored. -/
def Meshing.mirrored : Meshing → Meshing
  | .breakpoints sizes => .breakpoints (sizes.map fun b => (mirrorPoint b.1, b.2))
  | how => how

/-- A cross-section, given by its points on the right and on the left boundary, in the mirror image. -/
def mirrorSection (a : Vec3 × Vec3) : Vec3 × Vec3 := (mirrorPoint a.2, mirrorPoint a.1)

end Verif.Fit
