import Verif.Spec.PathSolve

/-! Vocabulary for minimum curvature paths on circuits that are moved, turned or mirrored (C264, C265). -/

set_option autoImplicit false

namespace Verif.Path

open Verif.Road (Vec3)

/-- A point turned about the vertical and then moved. -/
noncomputable def turnPoint (angle : ℝ) (d p : Vec3) : Vec3 :=
  (Real.cos angle * p.1 - Real.sin angle * p.2.1 + d.1, Real.sin angle * p.1 + Real.cos angle * p.2.1 + d.2.1, p.2.2 + d.2.2)

/-- A circuit turned and moved: its points and its heading. -/
noncomputable def Circuit.turned (angle : ℝ) (d : Vec3) (k : Circuit) : Circuit :=
  { k with
    centre := fun a => turnPoint angle d (k.centre a)
    table := fun a => { k.table a with yaw := (k.table a).yaw + angle } }

/-- A path turned and moved: its points and its heading. -/
noncomputable def Course.turned (angle : ℝ) (d : Vec3) (c : Course) : Course :=
  { c with node := fun i => ⟨turnPoint angle d (c.node i).pos, { (c.node i).v with yaw := (c.node i).v.yaw + angle }⟩ }

/-- A point with the second coordinate reversed. -/
def flip (p : Vec3) : Vec3 := (p.1, -p.2.1, p.2.2)

/-- The mirror image of a circuit: it turns and banks the other way, left and right are exchanged, and it is travelled in the other
direction. -/
def Circuit.mirrored (k : Circuit) : Circuit where
  length := k.length
  direction := -k.direction
  centre := fun a => flip (k.centre a)
  table := fun a =>
    { yaw := -(k.table a).yaw, pitch := (k.table a).pitch, roll := -(k.table a).roll, yawDot := -(k.table a).yawDot,
      pitchDot := (k.table a).pitchDot, rollDot := -(k.table a).rollDot, nl := (k.table a).nr, nr := (k.table a).nl }

/-- The mirror image of a path. -/
def Course.mirrored (c : Course) : Course :=
  { c with node := fun i => ⟨flip (c.node i).pos,
      { n := -(c.node i).v.n, yaw := -(c.node i).v.yaw, pitch := (c.node i).v.pitch, roll := -(c.node i).v.roll,
        yawDot := -(c.node i).v.yawDot, pitchDot := (c.node i).v.pitchDot, rollDot := -(c.node i).v.rollDot }⟩ }

/-- A path at the stations of a circuit, within its edges and the other limits, that is a curve. -/
def Course.Allowed (closed : Bool) (deg : ℝ) (k : Circuit) (s : List ℝ) (c : Course) : Prop :=
  c.OnSections k s ∧ c.InRange 0 closed deg k s ∧ c.Continuous 0 closed k

/-- What is minimised (C137): on an open path the integral of the squared curvature, on a closed one this less the part of pitch and
roll of the last element. -/
noncomputable def Course.minimised (closed : Bool) (c : Course) : ℝ :=
  bif closed then c.lapCost - c.ds (c.n - 1) / 2 * ((turn2 (c.node (c.n - 1)).v - (c.node (c.n - 1)).v.yawDot ^ 2)
    + (turn2 (c.node 0).v - (c.node 0).v.yawDot ^ 2)) else c.openCost

end Verif.Path
