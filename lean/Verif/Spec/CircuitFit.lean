import Verif.Model.CircuitFit
import Verif.Spec.Centreline

/-! Vocabulary of the properties of the fit of a circuit (C202..C206): what is assumed of the optimiser,
what it means that points obey the equations of a track, and the misfit that is minimised. -/

set_option autoImplicit false

namespace Verif.Fit

open Verif.Road (Vec3)
open Verif.Preprocessor

/-! ### The optimiser -/

/-- The optimiser returns a vector of the size of the starting point. -/
def RightSize (opt : Optimiser) : Prop := ∀ nlp, (opt nlp).x.length = nlp.start.length

/-- Every entry is within its bounds, up to `tol`. -/
def Within (tol : ℝ) (x lower upper : List ℝ) : Prop :=
  ∀ (k : Nat) (a l u : ℝ), x[k]? = some a → lower[k]? = some l → upper[k]? = some u →
    l - tol ≤ a ∧ a ≤ u + tol

/-- When the optimiser reports success, its variables are within their bounds up to `tolB` and the
constraints there are zero up to `tolC`. -/
def Reliable (tolB tolC : ℝ) (opt : Optimiser) : Prop :=
  ∀ nlp cost rs, (opt nlp).success = true → nlp.value (opt nlp).x = .ok (cost :: rs) →
    Within tolB (opt nlp).x nlp.lower nlp.upper ∧ ∀ r ∈ rs, |r| ≤ tolC

/-- When the optimiser reports success, no vector within the bounds that meets the constraints has a
lower cost. -/
def Minimises (opt : Optimiser) : Prop :=
  ∀ nlp cost rs y cost' rs', (opt nlp).success = true → nlp.value (opt nlp).x = .ok (cost :: rs) →
    y.length = nlp.start.length → Within 0 y nlp.lower nlp.upper → nlp.value y = .ok (cost' :: rs') →
    (∀ r ∈ rs', r = 0) → cost ≤ cost'

/-! ### The estimate -/

/-- An estimate of the centreline with as many points as arclengths, from 0 to its length if it is open,
and measured boundaries with at least one point. C200 says that this is what is computed. -/
structure Usable (closed : Bool) (left right : List Vec3) (c : Centerline) : Prop where
  points : c.r.length = c.s.length
  halves : c.toRight.length = c.s.length
  first : c.s.head? = some 0
  last : closed = false → c.s.getLast? = some c.length
  many : closed = false → 2 ≤ c.s.length
  left : left ≠ []
  right : right ≠ []

/-- Circuits are closed unless start and finish are given. -/
def Closes : Request → Bool → Prop
  | .openElements .., closed => closed = false
  | _, closed => closed = true

/-- The coordinates that are used: all of them, or those from start to finish (C131) when these are given. -/
def Uses (find : List (Coord ℝ) → Mesh.Flat ℝ → Mesh.Closest (Mesh.Flat ℝ)) (left right : List (Coord ℝ)) :
    Request → List (Coord ℝ) → List (Coord ℝ) → Prop
  | .openElements start finish _, cl, cr => Mesh.trim (find left) (find right) left right start finish = .ok (cl, cr)
  | _, cl, cr => cl = left ∧ cr = right

/-- Where a coordinate is on the map: metres east and south of `origin`, on a sphere of radius `R`, the circles of
latitude measured at that of `origin`; `deg` is a degree. -/
noncomputable def onMap (deg R : ℝ) (origin c : Coord ℝ) : ℝ × ℝ :=
  (R * Real.cos (origin.latitude * deg) * ((c.longitude - origin.longitude) * deg),
   -(R * ((c.latitude - origin.latitude) * deg)))

/-- The mesh that is asked for: a number of elements, or the sizes at places of the map, or sizes along the track. -/
def Asks (deg R : ℝ) (origin : Coord ℝ) : Request → Meshing → Prop
  | .elements n, how | .openElements _ _ n, how => how = .equispaced n
  | .breakpoints sizes, how => ∃ l, how = .breakpoints l ∧ l.length = sizes.length ∧
      ∀ (i : Nat) (c : Coord ℝ) (size : ℝ), sizes[i]? = some (c, size) →
        l[i]? = some (((onMap deg R origin c).1, (onMap deg R origin c).2, 0), size)
  | .distribution f sEnd dsEnd, how => how = .distribution f sEnd dsEnd

/-! ### Tracks -/

/-- Position of a point of the track. -/
def position (p : Point ℝ) : Vec3 := (p.x, p.y, p.z)

/-- Direction of travel at a point of the track. -/
noncomputable def heading (p : Point ℝ) : Vec3 :=
  (Real.cos p.yaw * Real.cos p.pitch, Real.sin p.yaw * Real.cos p.pitch, -Real.sin p.pitch)

/-- Change of a quantity over one turn of the circuit in direction `dir`. -/
noncomputable def turn (dir : ℤ) (Q : Quantity) : ℝ := if Q = .yaw then 2 * Real.pi * dir else 0

/-- Signed offset of `p` from the line through `a` and `b` seen from above, in units of their
distance. -/
noncomputable def offset (a b p : Vec3) : ℝ :=
  ((a.1 - b.1) * (p.2.1 - b.2.1) - (a.2.1 - b.2.1) * (p.1 - b.1)) / Road.dot (a - b) (a - b)

/-- The points obey the equations of a track by the trapezoidal rule, up to `tol`, over every element and
over the closing one, and begin on the start line (and end on the finish line) of the measured
boundaries. -/
structure Obeys (k : Kind) (closed : Bool) (dir : ℤ) (left right : List Vec3) (tol : ℝ) (s : List ℝ)
    (length : ℝ) (pts : List (Point ℝ)) : Prop where
  inner : ∀ (Q : Quantity) (i : Nat) (a b : Point ℝ) (s₀ s₁ : ℝ), Q.used k = true → Q.isState = true →
    pts[i]? = some a → pts[i + 1]? = some b → s[i]? = some s₀ → s[i + 1]? = some s₁ →
    |b.get Q - a.get Q - (s₁ - s₀) / 2 * (rate a Q + rate b Q)| ≤ tol
  closing : closed = true → ∀ (Q : Quantity) (a b : Point ℝ) (s₁ : ℝ), Q.used k = true →
    Q.isState = true → pts.head? = some a → pts.getLast? = some b → s.getLast? = some s₁ →
    |a.get Q + turn dir Q - b.get Q - (length - s₁) / 2 * (rate b Q + rate a Q)| ≤ tol
  start : ∀ (a : Point ℝ) (l r : Vec3), pts.head? = some a → left.head? = some l → right.head? = some r →
    |offset l r (position a)| ≤ tol
  finish : closed = false → ∀ (a : Point ℝ) (l r : Vec3), pts.getLast? = some a →
    left.getLast? = some l → right.getLast? = some r → |offset l r (position a)| ≤ tol

/-- The points are within the ranges allowed around the starting guess, up to `tol`. -/
def Near (k : Kind) (deg : ℝ) (o : Limits ℝ) (tol : ℝ) (guess pts : List (Point ℝ)) : Prop :=
  ∀ (Q : Quantity) (i : Nat) (p g : Point ℝ), Q.used k = true → pts[i]? = some p → guess[i]? = some g →
    (allowed deg o g Q).1 - tol ≤ p.get Q ∧ p.get Q ≤ (allowed deg o g Q).2 + tol

/-- Direction across the road at a point of the track, to the right: the lateral axis turned by roll,
pitch and yaw. -/
noncomputable def side (p : Point ℝ) : Vec3 :=
  (Real.cos p.yaw * Real.sin p.pitch * Real.sin p.roll - Real.sin p.yaw * Real.cos p.roll,
   Real.sin p.yaw * Real.sin p.pitch * Real.sin p.roll + Real.cos p.yaw * Real.cos p.roll,
   Real.cos p.pitch * Real.sin p.roll)

/-- The left boundary at a point of the track. -/
noncomputable def leftEdge (p : Point ℝ) : Vec3 := position p - p.nl • side p

/-- The right boundary at a point of the track. -/
noncomputable def rightEdge (p : Point ℝ) : Vec3 := position p + p.nr • side p

/-! ### The misfit -/

/-- `d` is the square of the distance from `p` to the line. -/
def SquaredDistance (line : List Vec3) (p : Vec3) (d : ℝ) : Prop :=
  (∃ q, OnLine line q ∧ d = len (q - p) ^ 2) ∧ ∀ q, OnLine line q → d ≤ len (q - p) ^ 2

/-- `find_closest_point` finds the closest point of the line. -/
def FindsClosest (find : List Vec3 → Vec3 → Bool → Nat → ℝ → Vec3 × ℝ × Nat × Nat) : Prop :=
  ∀ (line : List Vec3) (p : Vec3) (closed : Bool) (i : Nat) (d : ℝ), 2 ≤ line.length →
    SquaredDistance (vertices closed line) p (find line p closed i d).2.1

/-- What is integrated along the track: squared distances from its boundaries and its centreline to the
measured boundaries and to the estimate (given as `dl`, `dr` and `dc`), and squares of the controls. -/
def density (k : Kind) (w : Weights) (p : Point ℝ) (dl dr dc : ℝ) : ℝ :=
  w.d * (dl + dr) + w.c * dc + w.k * p.dyawDot ^ 2 + w.n * (p.dnl ^ 2 + p.dnr ^ 2)
    + (if k = .elevated then w.pitch * p.dpitchDot ^ 2 + w.roll * p.drollDot ^ 2 else 0)

/-- The trapezoidal rule on abscissae and values. -/
noncomputable def trapezoid : List (ℝ × ℝ) → ℝ
  | a :: b :: l => (b.1 - a.1) / 2 * (a.2 + b.2) + trapezoid (b :: l)
  | _ => 0

/-- The integral along the track by the trapezoidal rule, the closing element included if the track is
closed. -/
noncomputable def integral (closed : Bool) (length : ℝ) (l : List (ℝ × ℝ)) : ℝ :=
  trapezoid l + (match closed, l.head?, l.getLast? with
    | true, some a, some b => (length - b.1) / 2 * (b.2 + a.2)
    | _, _, _ => 0)

/-- The misfit of a track with the measured boundaries and the estimate `centreline`: `D` gives the squared
distance of a point to a line. -/
noncomputable def misfit (D : List Vec3 → Vec3 → ℝ) (k : Kind) (closed : Bool) (w : Weights)
    (left right centreline : List Vec3) (s : List ℝ) (length : ℝ) (pts : List (Point ℝ)) : ℝ :=
  integral closed length (s.zip (pts.map fun p =>
    density k w p (D left (leftEdge p)) (D right (rightEdge p)) (D centreline (position p))))

/-- Squared distances to lines, closed ones if `closed`. -/
def Measures (closed : Bool) (D : List Vec3 → Vec3 → ℝ) : Prop :=
  ∀ (line : List Vec3) (p : Vec3), 2 ≤ line.length → SquaredDistance (vertices closed line) p (D line p)

end Verif.Fit

namespace Verif.Fit

open Verif.Road (Vec3)
open Verif.Preprocessor

/-! ### The starting guess -/

/-- The quantity that is the rate of change of another one. -/
def rateOf : Quantity → Option Quantity
  | .yaw => some .yawDot | .pitch => some .pitchDot | .roll => some .rollDot
  | .yawDot => some .dyawDot | .pitchDot => some .dpitchDot | .rollDot => some .drollDot
  | .nl => some .dnl | .nr => some .dnr
  | _ => none

/-- Every rate in the guess is the difference of its quantity over the element that follows, divided by
its length; the closing element of a closed circuit has the length `chord`, the last rate of an open one
is the one before. -/
structure Consistent (closed : Bool) (dir : ℤ) (chord : ℝ) (s : List ℝ) (pts : List (Point ℝ)) : Prop where
  inner : ∀ (Q Q' : Quantity) (i : Nat) (a b : Point ℝ) (s₀ s₁ : ℝ), rateOf Q = some Q' →
    pts[i]? = some a → pts[i + 1]? = some b → s[i]? = some s₀ → s[i + 1]? = some s₁ →
    a.get Q' = (b.get Q - a.get Q) / (s₁ - s₀)
  closing : closed = true → ∀ (Q Q' : Quantity) (a b : Point ℝ), rateOf Q = some Q' →
    pts.head? = some a → pts.getLast? = some b → b.get Q' = (a.get Q + turn dir Q - b.get Q) / chord
  last : closed = false → ∀ (Q Q' : Quantity) (i : Nat) (a b : Point ℝ), rateOf Q = some Q' →
    pts[i]? = some a → pts[i + 1]? = some b → i + 2 = pts.length → b.get Q' = a.get Q'

/-- What is assumed of `rotmat2ea`: the angles of an orthonormal right-handed frame turn the first axis
into its first vector and the second axis into its second one. -/
def Recovers (euler : Vec3 × Vec3 × Vec3 → ℝ × ℝ × ℝ) : Prop :=
  ∀ t n b : Vec3, Road.dot t t = 1 → Road.dot n n = 1 → Road.dot t n = 0 → Road.cross t n = b →
    ∀ p : Point ℝ, (p.yaw, p.pitch, p.roll) = euler (t, n, b) → heading p = t ∧ side p = n

/-- The point after point `i`: the first one after the last one of a closed circuit. -/
def Next (closed : Bool) (r : List Vec3) (i : Nat) (b : Vec3) : Prop :=
  if closed then r[(i + 1) % r.length]? = some b else r[i + 1]? = some b

end Verif.Fit
