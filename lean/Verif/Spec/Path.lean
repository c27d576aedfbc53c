import Verif.Model.Path
import Mathlib.Algebra.BigOperators.Group.Finset.Basic

/-! # Vocabulary of the properties of the minimum curvature path -/

set_option autoImplicit false

namespace Verif.Path

open Verif.Road (Vec3)

variable {K : Type*}

/-- The lengths along the centreline of the elements between the stations; in a closed circuit the last
one goes to the finish line. -/
def steps [Sub K] (closed : Bool) (length : K) (s : List K) : List K :=
  List.zipWith (fun a b => b - a) s (if closed then s.tail ++ [length] else s.tail)

/-- Values of the circuit itself, on its centreline. -/
def onCentreline [Zero K] (p : Station K) : Vars K :=
  ⟨0, p.yaw, p.pitch, p.roll, p.yawDot, p.pitchDot, p.rollDot⟩

/-- Smallest values allowed: up to the left edge, 60 degrees of heading, 30 of pitch and roll, and one
radian per metre of each rate. -/
def least [Field K] (deg : K) (p : Station K) : Vars K :=
  ⟨-p.nl, p.yaw - 60 * deg, p.pitch - 30 * deg, p.roll - 30 * deg, p.yawDot - 1, p.pitchDot - 1,
    p.rollDot - 1⟩

/-- Largest values allowed. -/
def most [Field K] (deg : K) (p : Station K) : Vars K :=
  ⟨p.nr, p.yaw + 60 * deg, p.pitch + 30 * deg, p.roll + 30 * deg, p.yawDot + 1, p.pitchDot + 1,
    p.rollDot + 1⟩

/-- A path given by `n` points and the lengths of the elements that follow them. -/
structure Course where
  n : Nat
  node : Nat → Node
  ds : Nat → ℝ

/-- The points in order. -/
def Course.nodes (c : Course) : List Node := (List.range c.n).map c.node

/-- The lengths of the elements: as many as points on a closed path, one less on an open one. -/
def Course.lengths (c : Course) (closed : Bool) : List ℝ :=
  (List.range (nElements closed c.n)).map c.ds

/-- The same closed path started one point later. -/
def Course.rotate (c : Course) : Course :=
  ⟨c.n, fun i => c.node ((i + 1) % c.n), fun i => c.ds ((i + 1) % c.n)⟩

/-- The direction of travel of a circuit at given heading and pitch, as everywhere else in the library
(`Circuit_preprocessor`, `Road_curvilinear`): with positive pitch it points down. -/
noncomputable def heading (yaw pitch : ℝ) : Vec3 :=
  (Real.cos yaw * Real.cos pitch, Real.sin yaw * Real.cos pitch, -Real.sin pitch)

/-- From `a` to `b` in a distance `ds` the position advances along the mean of the directions of travel
at both ends, and heading, pitch and roll by the mean of their rates. -/
def Follows (dir : ℝ → ℝ → Vec3) (turn ds : ℝ) (a b : Node) : Prop :=
  b.pos = (a.pos.1 + ds / 2 * ((dir a.v.yaw a.v.pitch).1 + (dir b.v.yaw b.v.pitch).1),
    a.pos.2.1 + ds / 2 * ((dir a.v.yaw a.v.pitch).2.1 + (dir b.v.yaw b.v.pitch).2.1),
    a.pos.2.2 + ds / 2 * ((dir a.v.yaw a.v.pitch).2.2 + (dir b.v.yaw b.v.pitch).2.2)) ∧
  b.v.yaw + turn = a.v.yaw + ds / 2 * (a.v.yawDot + b.v.yawDot) ∧
  b.v.pitch = a.v.pitch + ds / 2 * (a.v.pitchDot + b.v.pitchDot) ∧
  b.v.roll = a.v.roll + ds / 2 * (a.v.rollDot + b.v.rollDot)

/-- Squared rate of rotation per unit length of a frame with these Euler angles and rates. -/
noncomputable def turn2 (v : Vars ℝ) : ℝ :=
  v.yawDot ^ 2 + v.pitchDot ^ 2 + v.rollDot ^ 2 - 2 * Real.sin v.pitch * v.yawDot * v.rollDot

/-- The integral over the whole closed path of the squared curvature, by the trapezoidal rule. -/
noncomputable def Course.lapCost (c : Course) : ℝ :=
  ∑ i ∈ Finset.range c.n,
    c.ds i / 2 * (turn2 (c.node i).v + turn2 (c.node ((i + 1) % c.n)).v)

/-- Squared curvature of a plane curve with the given velocity and acceleration. -/
noncomputable def planeCurvature2 (v a : Arcs.Vec) : ℝ :=
  (v.1 * a.2 - v.2 * a.1) ^ 2 / (v.1 ^ 2 + v.2 ^ 2) ^ 3

end Verif.Path
