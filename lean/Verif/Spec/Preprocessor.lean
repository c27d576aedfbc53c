import Verif.Model.Preprocessor
import Verif.Spec.Road
import Mathlib.Algebra.BigOperators.Group.List.Basic
import Mathlib.Algebra.Order.Field.Basic

/-! Vocabulary for the properties of the track preprocessor. -/

set_option autoImplicit false

namespace Verif.Preprocessor

open Verif.Road (Vec3)

variable {K : Type*}

/-- What a computation keeps of a point: everything with elevation; without it height, pitch and roll
are zero. -/
def keep [Zero K] : Kind → Point K → Point K
  | .elevated, p => p
  | .flat, p =>
    { p with z := 0, pitch := 0, roll := 0, pitchDot := 0, rollDot := 0, dpitchDot := 0, drollDot := 0 }

/-- The quantities of a point the optimisation works on, by name. -/
inductive Quantity where
  | x | y | z | yaw | pitch | roll | yawDot | pitchDot | rollDot | nl | nr
  | dyawDot | dpitchDot | drollDot | dnl | dnr
  deriving DecidableEq

/-- Value of a quantity. -/
def Point.get (p : Point K) : Quantity → K
  | .x => p.x | .y => p.y | .z => p.z | .yaw => p.yaw | .pitch => p.pitch | .roll => p.roll
  | .yawDot => p.yawDot | .pitchDot => p.pitchDot | .rollDot => p.rollDot | .nl => p.nl | .nr => p.nr
  | .dyawDot => p.dyawDot | .dpitchDot => p.dpitchDot | .drollDot => p.drollDot
  | .dnl => p.dnl | .dnr => p.dnr

/-- Quantities a computation optimises. -/
def Quantity.used : Kind → Quantity → Bool
  | .elevated, _ => true
  | .flat, .z | .flat, .pitch | .flat, .roll | .flat, .pitchDot | .flat, .rollDot | .flat, .dpitchDot
  | .flat, .drollDot => false
  | .flat, _ => true

/-- Range allowed for a quantity around the starting point `p`. -/
def allowed [Field K] (deg : K) (o : Limits K) (p : Point K) : Quantity → K × K
  | .x => (p.x - 100, p.x + 100)
  | .y => (p.y - 100, p.y + 100)
  | .z => (p.z - 10, p.z + 10)
  | .yaw => (p.yaw - 30 * deg, p.yaw + 30 * deg)
  | .pitch => (p.pitch - 10 * deg, p.pitch + 10 * deg)
  | .roll => (p.roll - 10 * deg, p.roll + 10 * deg)
  | .yawDot | .pitchDot | .rollDot => (-o.maxYawDot, o.maxYawDot)
  | .nl | .nr => (1, p.nl + p.nr)
  | .dyawDot | .dpitchDot | .drollDot => (-o.maxDyawDot, o.maxDyawDot)
  | .dnl | .dnr => (-o.maxDn, o.maxDn)

/-- The quantities that are states; the others are the controls. -/
def Quantity.isState : Quantity → Bool
  | .dyawDot | .dpitchDot | .drollDot | .dnl | .dnr => false
  | _ => true

/-- Rate of change of a state along the centreline; a control has none. -/
noncomputable def rate (p : Point ℝ) : Quantity → ℝ
  | .x => Real.cos p.yaw * Real.cos p.pitch
  | .y => Real.sin p.yaw * Real.cos p.pitch
  | .z => -Real.sin p.pitch
  | .yaw => p.yawDot | .pitch => p.pitchDot | .roll => p.rollDot
  | .yawDot => p.dyawDot | .pitchDot => p.dpitchDot | .rollDot => p.drollDot
  | .nl => p.dnl | .nr => p.dnr
  | .dyawDot | .dpitchDot | .drollDot | .dnl | .dnr => 0

/-- Length of a vector. -/
noncomputable def len (a : Vec3) : ℝ := Real.sqrt (Road.dot a a)

/-- Direction of travel along the centreline: the derivative of the position with respect to the
arclength. -/
noncomputable def travel : Kind → (Nat → ℝ) → Vec3
  | .flat, q => (Real.cos (q FlatState.yaw.val), Real.sin (q FlatState.yaw.val), 0)
  | .elevated, q =>
    (Real.cos (q ElevState.yaw.val) * Real.cos (q ElevState.pitch.val),
     Real.sin (q ElevState.yaw.val) * Real.cos (q ElevState.pitch.val), -Real.sin (q ElevState.pitch.val))

/-- The two angles are the same direction. -/
def SameAngle (a b : ℝ) : Prop := ∃ k : ℤ, a = b + 2 * Real.pi * k

/-- What is assumed of `wrap_to_pi` of the lion library: the same angle, within half a turn. -/
structure WrapsToPi (wrap : ℝ → ℝ) : Prop where
  within : ∀ a, |wrap a| ≤ Real.pi
  same : ∀ a, SameAngle (wrap a) a

/-- The numbers of a list of points, one after the other. -/
def interleave (cs : List (Coord K)) : List K :=
  cs.flatMap fun c => [c.longitude, c.latitude, c.altitude]

/-- The numbers that a document holds: those of its placemark, or if there is none those of the placemark of its
folder. -/
def Kml.Holds (d : Kml K) (l : List K) : Prop :=
  d.placemark = some l ∨ d.placemark = none ∧ d.folder = some l

end Verif.Preprocessor

namespace Verif.Preprocessor

open Verif.Road (Vec3)

/-- A circuit given by `n` nodes and element lengths, as the lists the code works on. -/
structure Circuit where
  n : Nat
  node : Nat → Node
  /-- Length of the element from node `i` to the next one, before scaling. -/
  ds : Nat → ℝ

/-- The nodes in order. -/
def Circuit.nodes (c : Circuit) : List Node := (List.range c.n).map c.node

/-- The element lengths: a closed circuit has as many elements as nodes, an open one has one less. -/
def Circuit.lengths (c : Circuit) (closed : Bool) : List ℝ :=
  (List.range (if closed then c.n else c.n - 1)).map c.ds

/-- Derivative of state `j` at node `i`. -/
noncomputable def Circuit.slope (c : Circuit) (k : Kind) (i j : Nat) : ℝ :=
  (equations k (c.node i).q (c.node i).u).getD j 0

/-- Change of state `j` over the element from node `i` to node `i'` by the trapezoidal rule. -/
noncomputable def Circuit.change (c : Circuit) (k : Kind) (f : ℝ) (i i' j : Nat) : ℝ :=
  f * c.ds i / 2 * (c.slope k i j + c.slope k i' j)

/-- Cost of the element from node `i` to node `i'`: trapezoidal rule on the weighted squares of the
distances and of the controls. -/
noncomputable def Circuit.elementCost (c : Circuit) (k : Kind) (w : Weights) (f : ℝ) (i i' : Nat) : ℝ :=
  let density := fun m =>
    w.d * ((c.node m).d2Left + (c.node m).d2Right) + w.c * (c.node m).d2Centre
    + w.k * ((c.node m).u (cDyawDot k)) ^ 2
    + w.n * (((c.node m).u (cDnl k)) ^ 2 + ((c.node m).u (cDnr k)) ^ 2)
    + (if k = .elevated then w.pitch * ((c.node m).u cDpitchDot) ^ 2
        + w.roll * ((c.node m).u cDrollDot) ^ 2 else 0)
  f * c.ds i / 2 * (density i + density i')

/-- The same closed circuit started one node later. -/
def Circuit.rotate (c : Circuit) : Circuit :=
  ⟨c.n, fun i => c.node ((i + 1) % c.n), fun i => c.ds ((i + 1) % c.n)⟩

end Verif.Preprocessor
