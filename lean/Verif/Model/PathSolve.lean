import Verif.Model.Path

/-!
# Computing and saving a minimum curvature path

Models what `Minimum_curvature_path` does around the solver (src/core/applications/minimum_curvature_path.h,
.hpp): the problem that is handed to it, what is made of its answer, and `xml()`. The solver is a parameter.
Of its options only `throw_if_fail` is modelled. Numbers printed with 17 digits are read back exactly.
-/

set_option autoImplicit false

namespace Verif.Path

open Verif.Road (Vec3)

/-- A problem handed to the solver: starting point, bounds of variables and constraints, and the functor
that fills `fg`, minimum_curvature_path.hpp:43-46, 203. -/
structure Nlp where
  start : List ℝ
  lower : List ℝ
  upper : List ℝ
  cl : List ℝ
  cu : List ℝ
  fg : List ℝ → Res (List ℝ)

/-- The members `status` (whether it is `success`), `iter_count` and `x` of the result of the solver,
minimum_curvature_path.hpp:48-49, 206-207, 216. -/
structure Answer where
  success : Bool
  iterations : Nat
  x : List ℝ

/-- The solver: `CppAD::ipopt::solve` (minimum_curvature_path.hpp:44) and `ipopt_cppad_solve` (203). -/
abbrev Solver := Nlp → Answer

/-- The public members of `Minimum_curvature_path`, minimum_curvature_path.h:119-139, among them the
`_x` behind `get_x()`. `iter_count` is not initialised by the constructor from a track made of arcs. Left
out: `options`, `num_points`, `num_elements`. -/
structure Result where
  success : Bool
  iterations : Option Nat
  s : List ℝ
  ds : List ℝ
  n : List ℝ
  x : List ℝ
  y : List ℝ
  z : List ℝ
  yaw : List ℝ
  pitch : List ℝ
  roll : List ℝ
  yawDot : List ℝ
  pitchDot : List ℝ
  rollDot : List ℝ
  arcs : List ℝ

/-- A circuit: length and direction of travel, position of the centreline and the other interpolants,
minimum_curvature_path.hpp:90-118. -/
structure Circuit where
  length : ℝ
  direction : ℤ
  centre : ℝ → Vec3
  table : ℝ → Station ℝ

/-- The points `_x, _y, _z` with their variables, minimum_curvature_path.hpp:402-412, with `centerline` and
`normal_vector` of 104-119. -/
noncomputable def nodesAt (c : Circuit) (s : List ℝ) (pts : List (Vars ℝ)) : List Node :=
  List.zipWith (fun a v => ⟨place (c.centre a)
    (normalVector (c.table a).yaw (c.table a).pitch (c.table a).roll) v.n, v⟩) s pts

/-- `Fitness_fcn_by_polynomial::operator()`, minimum_curvature_path.hpp:378-443: the vector `fg`, and the
members that it leaves filled. -/
noncomputable def fitness (closed : Bool) (c : Circuit) (s x : List ℝ) :
    Res (List ℝ × List Node × List ℝ) :=
  (load s.length (nElements closed s.length) x).bind fun r =>
    (fgVector closed c.direction r.2 (nodesAt c s r.1)).bind fun f =>
      .ok (f.1, nodesAt c s r.1, r.2)

/-- `std::copy(result.x.cbegin(), result.x.cend(), x_cppad.begin())` into a vector of `n` zeros, undefined
if the source is longer; minimum_curvature_path.hpp:215-216. -/
def copyOver (n : Nat) (x : List ℝ) : Res (List ℝ) :=
  if x.length ≤ n then .ok (x ++ List.replicate (n - x.length) 0) else .ub

/-- The export of the members, minimum_curvature_path.hpp:219-250. -/
def exported (a : Answer) (s : List ℝ) (nodes : List Node) (ds : List ℝ) : Result where
  success := a.success
  iterations := some a.iterations
  s := s
  ds := ds
  n := nodes.map fun p => p.v.n
  x := nodes.map fun p => p.pos.1
  y := nodes.map fun p => p.pos.2.1
  z := nodes.map fun p => p.pos.2.2
  yaw := nodes.map fun p => p.v.yaw
  pitch := nodes.map fun p => p.v.pitch
  roll := nodes.map fun p => p.v.roll
  yawDot := nodes.map fun p => p.v.yawDot
  pitchDot := nodes.map fun p => p.v.pitchDot
  rollDot := nodes.map fun p => p.v.rollDot
  arcs := []

/-- The problem of a circuit, minimum_curvature_path.hpp:56-185. -/
noncomputable def nlp (closed : Bool) (deg : ℝ) (c : Circuit) (s : List ℝ) : Res (List ℝ × Nlp) :=
  (problem closed deg c.length c.table s).bind fun q =>
    let zeros := List.replicate (nConstraints (nElements closed q.1.length)) 0
    .ok (q.1, ⟨q.2.1, q.2.2.1, q.2.2.2, zeros, zeros, fun x => (fitness closed c q.1 x).map Prod.fst⟩)

/-- The constructor from a circuit, minimum_curvature_path.h:25-34, hpp:54-251. -/
noncomputable def compute (S : Solver) (throwIfFail closed : Bool) (deg : ℝ) (c : Circuit) (s : List ℝ) :
    Res Result :=
  (nlp closed deg c s).bind fun q =>
    let a := S q.2
    if !a.success && throwIfFail then .throw
    else
      (copyOver (nVariables q.1.length (nElements closed q.1.length)) a.x).bind fun x =>
        (fitness closed c q.1 x).bind fun f => .ok (exported a q.1 f.2.1 f.2.2)

/-- The problem of a track made of arcs, minimum_curvature_path.hpp:10-19. -/
noncomputable def arcsNlp (t : Arcs.Track) (n : Nat) : Nlp :=
  ⟨List.replicate n 0, (arcsBounds n).1, (arcsBounds n).2, [], [], fun w => (arcsFitness t w).map fun v => [v]⟩

/-- The constructor from a track made of arcs, minimum_curvature_path.h:23, hpp:8-50. The solver evaluates
the cost at the starting point; the status of its answer is stored and nothing is thrown. -/
noncomputable def computeArcs (S : Solver) (t : Arcs.Track) (n : Nat) : Res Result :=
  (arcsFitness t (arcsNlp t n).start).bind fun _ =>
    let a := S (arcsNlp t n)
    .ok ⟨a.success, none, [], [], [], [], [], [], [], [], [], [], [], [], a.x⟩

/-- A list printed with commas, e.g. minimum_curvature_path.hpp:264-268: with an empty vector `size()-1`
wraps around and the loop reads past its end. -/
def commas (l : List ℝ) : Res (List ℝ) :=
  match l with
  | [] => .ub
  | _ :: _ => .ok l

/-- A child of the root for each of the lists, in this order, minimum_curvature_path.hpp:264-332. -/
def children : List (String × List ℝ) → Res (List (String × List ℝ))
  | [] => .ok []
  | e :: es => (commas e.2).bind fun v => (children es).bind fun r => .ok ((e.1, v) :: r)

/-- `Minimum_curvature_path::xml`, minimum_curvature_path.hpp:253-335: the children of `minimum_curvature`
with the numbers of their texts. -/
def xml (r : Result) : Res (List (String × List ℝ)) :=
  children [("x", r.x), ("y", r.y), ("z", r.z), ("lateral_displacement", r.n), ("yaw", r.yaw),
    ("pitch", r.pitch), ("roll", r.roll), ("yaw_dot", r.yawDot), ("pitch_dot", r.pitchDot),
    ("roll_dot", r.rollDot)]

end Verif.Path
