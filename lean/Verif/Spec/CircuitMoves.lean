import Verif.Spec.CircuitFit
import Verif.Spec.PathMoves

/-! Vocabulary for the fit of circuits whose measured boundaries are moved or turned (C266, C267). -/

set_option autoImplicit false

namespace Verif.Fit

open Verif.Road (Vec3)
open Verif.Path (turnPoint)
open Verif.Preprocessor

/-- A line turned about the vertical and then moved. -/
noncomputable def turnLine (angle : ℝ) (d : Vec3) (line : List Vec3) : List Vec3 := line.map (turnPoint angle d)

/-- An estimate of the centreline turned about the vertical and then moved. -/
noncomputable def Centerline.turned (angle : ℝ) (d : Vec3) (c : Centerline) : Centerline :=
  { c with r := turnLine angle d c.r, toRight := turnLine angle 0 c.toRight }

/-- A point of a track turned about the vertical and then moved: its position and its heading. -/
noncomputable def turnTrack (angle : ℝ) (d : Vec3) (p : Point ℝ) : Point ℝ :=
  { p with
    x := (turnPoint angle d (position p)).1
    y := (turnPoint angle d (position p)).2.1
    z := (turnPoint angle d (position p)).2.2
    yaw := p.yaw + angle }

/-- Every point of the track is within 100 m of its point of the estimate, seen from above. -/
def Close (r : List Vec3) (pts : List (Point ℝ)) : Prop :=
  ∀ (i : Nat) (a : Vec3) (p : Point ℝ), r[i]? = some a → pts[i]? = some p →
    (p.x - a.1) ^ 2 + (p.y - a.2.1) ^ 2 ≤ 100 ^ 2

/-- Seen from above, no point of the line is at the place of the next one; after the last point of a closed line comes the first. -/
def Apart (closed : Bool) (r : List Vec3) : Prop :=
  ∀ (i : Nat) (a b : Vec3), r[i]? = some a → Next closed r i b → (a.1, a.2.1) ≠ (b.1, b.2.1)

/-- What is assumed of `wrap_to_pi`: angles that differ by whole turns give the same result. -/
def WrapsTurns (wrap : ℝ → ℝ) : Prop := ∀ (a : ℝ) (m : ℤ), wrap (a + 2 * Real.pi * m) = wrap a

end Verif.Fit
