import Verif.Model.PathSolve
import Verif.Spec.Path
import Mathlib.Data.List.Forall2

/-! # Vocabulary of the properties of computed minimum curvature paths -/

set_option autoImplicit false

namespace Verif.Path

open Verif.Road (Vec3)

/-- Every entry is between its bounds, up to a tolerance. -/
def Within (tol : ℝ) (lo x hi : List ℝ) : Prop :=
  List.Forall₂ (fun l a => l - tol ≤ a) lo x ∧ List.Forall₂ (fun a u => a ≤ u + tol) x hi

/-- Bounds and constraints of a problem are satisfied; the cost is `f`. -/
def Feasible (tol : ℝ) (p : Nlp) (x : List ℝ) (f : ℝ) : Prop :=
  Within tol p.lower x p.upper ∧ ∃ g, p.fg x = .ok (f :: g) ∧ Within tol p.cl g p.cu

/-- When the solver reports success, bounds and constraints are satisfied up to the tolerance. -/
def Accurate (tol : ℝ) (S : Solver) : Prop :=
  ∀ p, (S p).success = true → ∃ f, Feasible tol p (S p).x f

/-- When the solver reports success, bounds and constraints are satisfied, and nothing that satisfies
them costs less. -/
def Exact (S : Solver) : Prop :=
  ∀ p, (S p).success = true → ∃ f, Feasible 0 p (S p).x f ∧ ∀ y f', Feasible 0 p y f' → f ≤ f'

/-- The solver returns at most as many numbers as it gets. -/
def Sized (S : Solver) : Prop := ∀ p, (S p).x.length ≤ p.start.length

/-- `Follows` up to a tolerance: from `a` to `b` in a distance `ds` the position advances along the mean
of the directions of travel at both ends, and heading, pitch and roll by the mean of their rates. -/
def FollowsWithin (tol : ℝ) (dir : ℝ → ℝ → Vec3) (turn ds : ℝ) (a b : Node) : Prop :=
  |b.pos.1 - (a.pos.1 + ds / 2 * ((dir a.v.yaw a.v.pitch).1 + (dir b.v.yaw b.v.pitch).1))| ≤ tol ∧
  |b.pos.2.1 - (a.pos.2.1 + ds / 2 * ((dir a.v.yaw a.v.pitch).2.1 + (dir b.v.yaw b.v.pitch).2.1))| ≤ tol ∧
  |b.pos.2.2 - (a.pos.2.2 + ds / 2 * ((dir a.v.yaw a.v.pitch).2.2 + (dir b.v.yaw b.v.pitch).2.2))| ≤ tol ∧
  |b.v.yaw + turn - (a.v.yaw + ds / 2 * (a.v.yawDot + b.v.yawDot))| ≤ tol ∧
  |b.v.pitch - (a.v.pitch + ds / 2 * (a.v.pitchDot + b.v.pitchDot))| ≤ tol ∧
  |b.v.roll - (a.v.roll + ds / 2 * (a.v.rollDot + b.v.rollDot))| ≤ tol

/-- The variables of a point are between those of two others, up to a tolerance. -/
structure Vars.Between (tol : ℝ) (lo v hi : Vars ℝ) : Prop where
  n : lo.n - tol ≤ v.n ∧ v.n ≤ hi.n + tol
  yaw : lo.yaw - tol ≤ v.yaw ∧ v.yaw ≤ hi.yaw + tol
  pitch : lo.pitch - tol ≤ v.pitch ∧ v.pitch ≤ hi.pitch + tol
  roll : lo.roll - tol ≤ v.roll ∧ v.roll ≤ hi.roll + tol
  yawDot : lo.yawDot - tol ≤ v.yawDot ∧ v.yawDot ≤ hi.yawDot + tol
  pitchDot : lo.pitchDot - tol ≤ v.pitchDot ∧ v.pitchDot ≤ hi.pitchDot + tol
  rollDot : lo.rollDot - tol ≤ v.rollDot ∧ v.rollDot ≤ hi.rollDot + tol

/-- The points of the path are on the cross sections of the circuit at the stations: at the distance `n`
from the centreline, along the normal. -/
def Course.OnSections (k : Circuit) (s : List ℝ) (c : Course) : Prop :=
  c.n = s.length ∧ ∀ (i : Nat) (a : ℝ), s[i]? = some a →
    (c.node i).pos = place (k.centre a)
      (normalVector (k.table a).yaw (k.table a).pitch (k.table a).roll) (c.node i).v.n

/-- The points are between the edges of the circuit, with angles and rates in their ranges; elements are
between a twentieth and five times those of the circuit. -/
def Course.InRange (tol : ℝ) (closed : Bool) (deg : ℝ) (k : Circuit) (s : List ℝ) (c : Course) : Prop :=
  (∀ (i : Nat) (a : ℝ), s[i]? = some a →
    Vars.Between tol (least deg (k.table a)) (c.node i).v (most deg (k.table a))) ∧
  ∀ (i : Nat) (d : ℝ), (steps closed k.length s)[i]? = some d →
    1 / 20 * d - tol ≤ c.ds i ∧ c.ds i ≤ 5 * d + tol

/-- The path is a curve: position and angles follow from one point to the next and, on a closed circuit,
from the last one to the first after a full turn. The pitch has the opposite sign to the one of the circuit
(C136). -/
def Course.Continuous (tol : ℝ) (closed : Bool) (k : Circuit) (c : Course) : Prop :=
  (∀ i, i + 1 < c.n →
    FollowsWithin tol (fun yaw pitch => heading yaw (-pitch)) 0 (c.ds i) (c.node i) (c.node (i + 1))) ∧
  (closed = true →
    FollowsWithin tol (fun yaw pitch => heading yaw (-pitch)) (2 * Real.pi * k.direction) (c.ds (c.n - 1))
      (c.node (c.n - 1)) (c.node 0))

/-- The path in the members of the object. -/
def Result.course (r : Result) : Course :=
  ⟨r.s.length,
   fun i => ⟨(r.x.getD i 0, r.y.getD i 0, r.z.getD i 0),
     ⟨r.n.getD i 0, r.yaw.getD i 0, r.pitch.getD i 0, r.roll.getD i 0, r.yawDot.getD i 0,
      r.pitchDot.getD i 0, r.rollDot.getD i 0⟩⟩,
   fun i => r.ds.getD i 0⟩

/-- The ten lists with one number per point. -/
def Result.lists (r : Result) : List (List ℝ) :=
  [r.n, r.x, r.y, r.z, r.yaw, r.pitch, r.roll, r.yawDot, r.pitchDot, r.rollDot]

/-- The integral along an open path of the squared curvature, by the trapezoidal rule. -/
noncomputable def Course.openCost (c : Course) : ℝ :=
  ∑ i ∈ Finset.range (c.n - 1), c.ds i / 2 * (turn2 (c.node i).v + turn2 (c.node (i + 1)).v)

/-- A flat path: neither pitch nor changes of pitch and roll. -/
def Course.Flat (c : Course) : Prop :=
  ∀ i < c.n, (c.node i).v.pitch = 0 ∧ (c.node i).v.pitchDot = 0 ∧ (c.node i).v.rollDot = 0

end Verif.Path
