import Verif.Model.Mesh

/-! Vocabulary for the properties of the mesh. -/

set_option autoImplicit false

namespace Verif.Mesh

variable {K V : Type*}

/-- Sizes asked for within `[lo, hi]` everywhere along a curve of length `L`. -/
def Asks [Field K] [LinearOrder K] (request : K → K) (L lo hi : K) : Prop :=
  ∀ b, 0 ≤ b → b < L → lo ≤ request b ∧ request b ≤ hi

/-- Position along the curve, with one unit per segment, that the search reports: the segment of a
point is the one that contains its position. -/
def Locates [Field K] [LinearOrder K] (find : V → Closest V) (pos : V → K) : Prop :=
  ∀ v, ((find v).front : K) ≤ pos v ∧ pos v < (find v).front + 1

/-- The size that should be used at position `p`: that of the last breakpoint reached. -/
def sizeReached [LE K] [DecidableLE K] (pos : V → K) (p : K) : K → List (V × K) → K
  | size, [] => size
  | size, (b, d) :: rest => if pos b ≤ p then sizeReached pos p d rest else size

/-- Twice the position of a point of a boundary: even on a vertex, odd between two of them. -/
def Closest.twice (c : Closest V) : Nat := 2 * c.front + (if c.front = c.back then 0 else 1)

end Verif.Mesh
