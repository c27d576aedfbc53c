import Verif.Spec.CircuitMoves

/-! Vocabulary for the fit of the mirror image of a circuit (C268, C269). -/

set_option autoImplicit false

namespace Verif.Fit

open Verif.Road (Vec3)
open Verif.Preprocessor

/-- The mirror image of a point: the second coordinate changes its sign. -/
def mirrorPoint (p : Vec3) : Vec3 := (p.1, -p.2.1, p.2.2)

/-- The mirror image of a line. -/
def mirrorLine (line : List Vec3) : List Vec3 := line.map mirrorPoint

/-- The mirror image of an estimate of the centreline: what pointed to the left boundary now points to the right one. -/
def Centerline.mirrored (c : Centerline) : Centerline :=
  { c with r := mirrorLine c.r, toRight := c.toRight.map fun v => mirrorPoint (-v) }

/-- The mirror image of a point of a track: it turns and banks the other way and the distances to the boundaries are exchanged. The
heading may be counted from any number of whole turns. -/
noncomputable def mirrorTrack (turns : ℤ) (p : Point ℝ) : Point ℝ :=
  { p with
    y := -p.y
    yaw := 2 * Real.pi * turns - p.yaw
    roll := -p.roll
    yawDot := -p.yawDot
    rollDot := -p.rollDot
    nl := p.nr
    nr := p.nl
    dyawDot := -p.dyawDot
    drollDot := -p.drollDot
    dnl := p.dnr
    dnr := p.dnl }

/-- Seen from above, the way from `b` to `c` is exactly opposite to the way from `a` to `b`. -/
def Reverses (a b c : Vec3) : Prop :=
  (b.1 - a.1) * (c.2.1 - b.2.1) = (b.2.1 - a.2.1) * (c.1 - b.1) ∧
  (b.1 - a.1) * (c.1 - b.1) + (b.2.1 - a.2.1) * (c.2.1 - b.2.1) < 0

/-- Nowhere does the line turn straight back. -/
def NoReversal (closed : Bool) (r : List Vec3) : Prop :=
  ∀ (i : Nat) (a b c : Vec3), r[i]? = some a → Next closed r i b → Next closed r (i + 1) c → ¬Reverses a b c

end Verif.Fit
