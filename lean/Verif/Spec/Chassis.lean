import Verif.Model.Chassis
import Mathlib.Analysis.Calculus.Deriv.Basic

/-! Vocabulary for the properties of the chassis. -/

set_option autoImplicit false

namespace Verif.Chassis

open Verif.Road

/-- From the axes of the car to fixed axes: the rotations of the road frame one after the other, the
innermost first. -/
noncomputable def toWorld (a : Attitude) (v : Vec3) : Vec3 :=
  rotZ a.yaw (rotY a.pitch (rotX a.roll (rotZ a.heading v)))

/-- Product of a matrix, given by its rows, and a vector. -/
def mulVec (M : Vec3 × Vec3 × Vec3) (v : Vec3) : Vec3 := (dot M.1 v, dot M.2.1 v, dot M.2.2 v)

/-- A curve of attitudes whose four angles have the given derivatives at `t`. -/
structure Turns (a : ℝ → Attitude) (dyaw dpitch droll dheading t : ℝ) : Prop where
  yaw : HasDerivAt (fun s => (a s).yaw) dyaw t
  pitch : HasDerivAt (fun s => (a s).pitch) dpitch t
  roll : HasDerivAt (fun s => (a s).roll) droll t
  heading : HasDerivAt (fun s => (a s).heading) dheading t

/-- Along a motion of the car, every component of the reported state has the reported derivative at `t`.
For the roll balance, whose state is constant, this says that its equation holds. -/
def Follows (p : Params) (i : ℝ → Input) (front rear : ℝ → Vec3 × Vec3) (t : ℝ) : Prop :=
  ∀ k, HasDerivAt (fun s => ((state p (i s) (update p (i s) (front s) (rear s))).getD k (0, 0)).1)
    ((state p (i t) (update p (i t) (front t) (rear t))).getD k (0, 0)).2 t

/-- Moment about the point `o` of forces given by point of application and force. -/
def moment (o : Vec3) : List (Vec3 × Vec3) → Vec3
  | [] => 0
  | (x, F) :: rest => cross (x - o) F + moment o rest

/-- A tyre whose torque is the moment of its force, applied at the contact point a distance `r` below
the centre of the wheel. -/
def ContactAt (w : Wheel) (r : ℝ) : Prop := w.torque = cross (0, 0, r) w.force

/-- A wheel at `(x, y)` steered by `d`, less than a right angle, rolls around the point `(cx, cy)`: its
direction is perpendicular to the line to that point. -/
def RollsAround (x y cx cy d : ℝ) : Prop :=
  -(Real.pi / 2) < d ∧ d < Real.pi / 2 ∧ (cx - x) * Real.cos d + (cy - y) * Real.sin d = 0

end Verif.Chassis
