import Verif.Model.Centreline
import Verif.Spec.Preprocessor

/-! Vocabulary of the properties of the centreline estimate (C200, C201): lines through points, the point
of a line at a given arclength, and what is assumed of the lion library. -/

set_option autoImplicit false

namespace Verif.Fit

open Verif.Road (Vec3)
open Verif.Preprocessor (len)

/-- The vertices of a line, the first one repeated at the end when the line is closed. -/
def vertices {V : Type*} (closed : Bool) (line : List V) : List V :=
  if closed then line ++ line.take 1 else line

/-- Length of the line through the vertices. -/
noncomputable def perimeter : List Vec3 → ℝ
  | a :: b :: l => len (b - a) + perimeter (b :: l)
  | _ => 0

/-- No two consecutive vertices are the same point. -/
def Moving (line : List Vec3) : Prop :=
  ∀ (j : Nat) (a b : Vec3), line[j]? = some a → line[j + 1]? = some b → a ≠ b

/-- `p` divides segment `j` of the line in proportion `t`. -/
def Divides (line : List Vec3) (j : Nat) (t : ℝ) (p : Vec3) : Prop :=
  ∃ a b, line[j]? = some a ∧ line[j + 1]? = some b ∧ p = a + t • (b - a)

/-- Arclength of the point that divides segment `j` in proportion `t`. -/
def Arclength (line : List Vec3) (j : Nat) (t s : ℝ) : Prop :=
  ∃ a b, line[j]? = some a ∧ line[j + 1]? = some b ∧ s = perimeter (line.take (j + 1)) + t * len (b - a)

/-- `p` is on the line. -/
def OnLine (line : List Vec3) (p : Vec3) : Prop :=
  ∃ (j : Nat) (t : ℝ), 0 ≤ t ∧ t ≤ 1 ∧ Divides line j t p

/-- `p` is the point of the line at arclength `s`. -/
def PointAt (line : List Vec3) (s : ℝ) (p : Vec3) : Prop :=
  ∃ (j : Nat) (t : ℝ), 0 ≤ t ∧ t ≤ 1 ∧ Divides line j t p ∧ Arclength line j t s

/-- What is assumed of `Polynomial` of degree one: with increasing abscissae it is the straight line
between consecutive values. -/
def Interpolates (linear : List ℝ → List Vec3 → ℝ → Vec3) : Prop :=
  ∀ (s : List ℝ) (r : List Vec3), s.length = r.length → s.Pairwise (· < ·) →
    ∀ (j : Nat) (a b : ℝ) (p q : Vec3), s[j]? = some a → s[j + 1]? = some b → r[j]? = some p →
      r[j + 1]? = some q → ∀ x, a ≤ x → x ≤ b → linear s r x = p + ((x - a) / (b - a)) • (q - p)

/-- What is assumed of `find_closest_point`: it returns a point of the line and the square of its
distance. Nothing is assumed about which one, or about the indices. -/
def FindsOnLine (find : List Vec3 → Vec3 → Bool → Nat → ℝ → Vec3 × ℝ × Nat × Nat) : Prop :=
  ∀ (line : List Vec3) (p : Vec3) (closed : Bool) (i : Nat) (d : ℝ), 2 ≤ line.length →
    OnLine (vertices closed line) (find line p closed i d).1 ∧
      (find line p closed i d).2.1 = len ((find line p closed i d).1 - p) ^ 2

/-- The sizes asked for are positive and small against the length `L` of the line: the mesh has at least
seven nodes. -/
def Suits (how : Meshing) (ratio L : ℝ) : Prop :=
  match how with
  | .equispaced n => 0 < n
  | .breakpoints sizes => sizes ≠ [] ∧ 1 ≤ ratio ∧ ∃ small large, 0 < small ∧
      (∀ b ∈ sizes, small ≤ b.2 ∧ b.2 ≤ large) ∧ 5 * large < L
  | .distribution f sEnd dsEnd => 1 ≤ ratio ∧ ∃ small large, 0 < small ∧
      (∀ s, 0 ≤ s → s < sEnd ∨ s = 0 → small ≤ f s ∧ f s ≤ large) ∧ small ≤ dsEnd ∧ dsEnd ≤ large ∧
      5 * large < L

end Verif.Fit
