import Verif.Spec.CircuitFit

/-! Vocabulary of circuits that lie further east (C257) and of the ends of a trimmed circuit on the ground (C258). -/

set_option autoImplicit false

namespace Verif.Fit

open Verif.Preprocessor

/-- The coordinate `Δ` degrees further east. -/
def east (Δ : ℝ) (c : Coord ℝ) : Coord ℝ := { c with longitude := c.longitude + Δ }

/-- The point of the map `Δ` degrees further east. -/
def eastFlat (Δ : ℝ) (p : Mesh.Flat ℝ) : Mesh.Flat ℝ := (p.1 + Δ, p.2)

/-- The request for a circuit whose coordinates are `Δ` degrees further east: those of the breakpoints, or of start and finish, are
as well. -/
def eastRequest (Δ : ℝ) : Request → Request
  | .elements n => .elements n
  | .breakpoints sizes => .breakpoints (sizes.map fun b => (east Δ b.1, b.2))
  | .distribution f sEnd dsEnd => .distribution f sEnd dsEnd
  | .openElements start finish n => .openElements (eastFlat Δ start) (eastFlat Δ finish) n

/-- The search for the closest point of a boundary looks at differences of coordinates only: further east, the closest point is
as much further east, on the same segment. -/
def LooksAtDifferences (find : List (Coord ℝ) → Mesh.Flat ℝ → Mesh.Closest (Mesh.Flat ℝ)) : Prop :=
  ∀ (Δ : ℝ) (coords : List (Coord ℝ)) (p : Mesh.Flat ℝ), find (coords.map (east Δ)) (eastFlat Δ p) =
    ⟨eastFlat Δ (find coords p).point, (find coords p).front, (find coords p).back⟩

/-- The point of the map is on the segment from `a` to `b`. -/
def Between (a b : Coord ℝ) (q : Mesh.Flat ℝ) : Prop :=
  ∃ t : ℝ, 0 ≤ t ∧ t ≤ 1 ∧ q = (a.longitude + t * (b.longitude - a.longitude), a.latitude + t * (b.latitude - a.latitude))

/-- The point of the map is on the boundary with these coordinates. -/
def OnBoundary (coords : List (Coord ℝ)) (q : Mesh.Flat ℝ) : Prop :=
  ∃ (i : Nat) (a b : Coord ℝ), coords[i]? = some a ∧ coords[i + 1]? = some b ∧ Between a b q

/-- The square of the distance of two points of the map, as long as a degree of longitude is `κ` times as long as one of latitude.
For the distance on the ground `κ` is the cosine of the latitude (C120); on the map it is 1. -/
def apart2 (κ : ℝ) (p q : Mesh.Flat ℝ) : ℝ := (κ * (p.1 - q.1)) ^ 2 + (p.2 - q.2) ^ 2

/-- The point `q` of the boundary is the closest one to `p`. -/
def Nearest (κ : ℝ) (coords : List (Coord ℝ)) (p q : Mesh.Flat ℝ) : Prop :=
  OnBoundary coords q ∧ ∀ q', OnBoundary coords q' → apart2 κ p q ≤ apart2 κ p q'

/-- What is assumed of `find_closest_point` as it is called (circuit_preprocessor.hpp:1417-1433, with longitude and latitude as
coordinates x and y): it gives the closest point of the boundary on the map, and the coordinate or the segment that it is on. -/
def SearchesMap (find : List (Coord ℝ) → Mesh.Flat ℝ → Mesh.Closest (Mesh.Flat ℝ)) : Prop :=
  ∀ (coords : List (Coord ℝ)) (p : Mesh.Flat ℝ), 2 ≤ coords.length → Nearest 1 coords p (find coords p).point ∧
    ((find coords p).back = (find coords p).front ∧
        (∃ a, coords[(find coords p).front]? = some a ∧ (find coords p).point = (a.longitude, a.latitude)) ∨
      (find coords p).back = (find coords p).front + 1 ∧
        ∃ a b, coords[(find coords p).front]? = some a ∧ coords[(find coords p).back]? = some b ∧
          Between a b (find coords p).point)

/-- The boundary made of `out` begins at the closest point to `start` and ends at the closest point to `finish` of the boundary
made of `coords`. -/
def EndsNearest (κ : ℝ) (coords out : List (Coord ℝ)) (start finish : Mesh.Flat ℝ) : Prop :=
  (∀ a, out.head? = some a → Nearest κ coords start (a.longitude, a.latitude)) ∧
    ∀ a, out.getLast? = some a → Nearest κ coords finish (a.longitude, a.latitude)

end Verif.Fit
