import Verif.Model.Preprocessor
import Mathlib.Algebra.Order.Field.Basic

/-!
# The mesh of the track preprocessor

Model of `compute_averaged_centerline`, `compute_ds_for_coordinates`, `who_is_ahead` and
`trim_coordinates` of src/core/applications/circuit_preprocessor.hpp. `find_closest_point` and the
polynomials of the lion library are parameters.
-/

set_option autoImplicit false

namespace Verif.Mesh

variable {K V : Type*}

section grow

variable [Field K] [LinearOrder K]

/-- The restriction of the ratio of adjacent elements, circuit_preprocessor.hpp:1188-1192 (also
1251-1255, 1319-1323 and 1382-1386). -/
def limit (ratio prev ds : K) : K :=
  if ds > ratio * prev then ratio * prev
  else if ds < prev / ratio then prev / ratio
  else ds

/-- The loop that adds nodes until the length `L` is reached, circuit_preprocessor.hpp:1183-1198 (also
1246-1262, 1314-1329 and 1377-1393): `b` is the last node, `prev` the last element, `request` the size
asked for at a node. The result is the list of the nodes added, or `none` if the loop has not ended
after `fuel` rounds. The size asked for depends on the position of the last node, which is a function
of its arclength. -/
def grow (request : K → K) (ratio L : K) : Nat → K → K → Option (List K)
  | fuel, b, prev =>
    if b < L then
      match fuel with
      | 0 => none
      | fuel + 1 =>
        let ds := limit ratio prev (request b)
        (grow request ratio L fuel (b + ds) ds).map fun l => (b + ds) :: l
    else some []

/-- The nodes with their positions after the loop: the position of an added node is evaluated at most
at the end of the curve, circuit_preprocessor.hpp:1179-1180, 1195. -/
def place (curve : K → V) (L : K) (init added : List K) : List (K × V) :=
  init.map (fun s => (s, curve s)) ++ added.map fun s => (s, curve (min s L))

/-- The last six elements are made equal, circuit_preprocessor.hpp:1200-1207 (also 1264-1272, 1331-1338
and 1395-1403). With fewer than seven nodes `size() - 7` wraps around and the access is undefined. -/
def squash (curve : K → V) (L : K) (mesh : List (K × V)) : Res (List (K × V)) :=
  if mesh.length < 7 then .ub
  else
    match mesh[mesh.length - 7]? with
    | none => .ub
    | some (a, _) =>
      .ok (mesh.take (mesh.length - 6) ++ (List.range 6).map fun (i : Nat) =>
        (a + ((i : K) + 1) * ((L - a) / 6), curve (a + ((i : K) + 1) * ((L - a) / 6))))

/-- Start of a mesh: from breakpoints it has the node 0 and the one at the first size asked for
(circuit_preprocessor.hpp:1179), from a distribution only the node 0 (1310). -/
inductive Start where
  | breakpoints
  | distribution
  deriving DecidableEq

/-- The first nodes of a mesh; `d` is the first size (circuit_preprocessor.hpp:1179, 1310). -/
def Start.nodes (d : K) : Start → List K
  | .breakpoints => [0, d]
  | .distribution => [0]

/-- The last of the first nodes (circuit_preprocessor.hpp:1179, 1310). -/
def Start.back (d : K) : Start → K
  | .breakpoints => d
  | .distribution => 0

/-- The mesh along a curve of length `L`, before the closing point is removed:
circuit_preprocessor.hpp:1178-1207 and 1240-1272 from breakpoints (`d` is the size of the first
breakpoint), 1309-1338 and 1371-1403 from a distribution (`d` is the size at 0). -/
def mesh (start : Start) (request : K → K) (ratio d L : K) (curve : K → V) (fuel : Nat) :
    Option (Res (List (K × V))) :=
  (grow request ratio L fuel (start.back d) d).map fun added =>
    squash curve L (place curve L (start.nodes d) added)

/-- The size asked for by a distribution, circuit_preprocessor.hpp:1316 and 1379: `f` is the polynomial
through the distribution, which is followed up to its last arclength. -/
def distributionRequest (f : K → K) (sEnd dsEnd b : K) : K := if b < sEnd then f b else dsEnd

/-- `linspace(0, L, n + 1)` of the lion library. Used at circuit_preprocessor.hpp:1104, 1138. -/
def linspace (L : K) (n : Nat) : List K := (List.range (n + 1)).map fun (i : Nat) => L * (i : K) / (n : K)

end grow

/-- Arclengths of a polygonal line, circuit_preprocessor.hpp:1099-1102, 1133-1136, with the distance
`dist` between points. -/
def arclengthsFrom [Add K] (dist : V → V → K) : K → List V → List K
  | _, [] => []
  | s, [_] => [s]
  | s, a :: b :: l => s :: arclengthsFrom dist (s + dist a b) (b :: l)

/-! ### Breakpoints -/

/-- What `find_closest_point` returns: the point and the indices of the ends of its segment, which are
the same when the point is a vertex (circuit_preprocessor.hpp:1429-1433, 1590-1593). -/
structure Closest (V : Type*) where
  point : V
  front : Nat
  back : Nat

/-- `who_is_ahead`, circuit_preprocessor.hpp:1613-1628, with the distance between points. -/
def whoIsAhead [LT K] [DecidableLT K] (dist : V → V → K) (p1 p2 : Closest V) (ref : V) : Nat :=
  if p1.front = p2.front ∧ p1.back = p2.back then
    if p1.front = p1.back then 1
    else if dist p1.point ref > dist p2.point ref then 1 else 2
  else if p1.front < p2.front then 2 else 1

/-- The loop over the breakpoints, circuit_preprocessor.hpp:1596-1608: `size` is the one of the
breakpoint before the ones left. `find` is the search along the curve. -/
def sizeLoop [LT K] [DecidableLT K] (dist : V → V → K) (find : V → Closest V) (p : Closest V) :
    K → List (V × K) → K
  | size, [] => size
  | size, (b, d) :: rest =>
    if whoIsAhead dist (find b) p b = 1 then size else sizeLoop dist find p d rest

/-- `compute_ds_for_coordinates`, circuit_preprocessor.hpp:1586-1611; `size() - 1` and the access are
undefined without breakpoints. -/
def sizeAt [LT K] [DecidableLT K] (dist : V → V → K) (find : V → Closest V) (point : V) :
    List (V × K) → Res K
  | [] => .ub
  | (_, d) :: rest => .ok (sizeLoop dist find (find point) d rest)

/-! ### Trimming -/

open Verif.Preprocessor (Coord)

/-- A point of a boundary on the map, with the third component zero
(circuit_preprocessor.hpp:1419-1425). -/
abbrev Flat (K : Type*) := K × K

/-- The coordinates copied when a boundary is trimmed, circuit_preprocessor.hpp:1452-1459 (left) and
1461-1470 (right). `i_finish` is a `size_t`: if the finish is the first vertex, it wraps around and the
loop leaves the vector. The coordinates made from a point of the map have altitude 0, the value of the
member that is not given. -/
def trimSide [Zero K] (coords : List (Coord K)) (start finish : Closest (Flat K)) :
    Res (List (Coord K)) :=
  let iStart := if start.front = start.back then start.back + 1 else start.back
  if finish.front = finish.back ∧ finish.front = 0 then .ub
  else
    let iFinish := if finish.front = finish.back then finish.front - 1 else finish.front
    (mapRes (fun i => idx coords i) (List.range' iStart (iFinish + 1 - iStart))).bind fun middle =>
      .ok (⟨start.point.1, start.point.2, 0⟩ :: middle ++ [⟨finish.point.1, finish.point.2, 0⟩])

/-- Scalar product and norm on the map (circuit_preprocessor.hpp:1438-1443). -/
def dot2 [Add K] [Mul K] (a b : Flat K) : K := a.1 * b.1 + a.2 * b.2

/-- The check that a point is between its closest points on both sides,
circuit_preprocessor.hpp:1438-1443: true when the point is rejected. -/
noncomputable def outside (p left right : Flat ℝ) : Prop :=
  let a : Flat ℝ := (p.1 - left.1, p.2 - left.2)
  let b : Flat ℝ := (p.1 - right.1, p.2 - right.2)
  dot2 a b > -(8 / 10) * Real.sqrt (dot2 a a) * Real.sqrt (dot2 b b)

/-- `trim_coordinates`, circuit_preprocessor.hpp:1410-1472: `findLeft` and `findRight` are
`find_closest_point` on each side. -/
noncomputable def trim (findLeft findRight : Flat ℝ → Closest (Flat ℝ)) (left right : List (Coord ℝ))
    (start finish : Flat ℝ) : Res (List (Coord ℝ) × List (Coord ℝ)) :=
  open Classical in
  if outside start (findLeft start).point (findRight start).point then .throw
  else if outside finish (findLeft finish).point (findRight finish).point then .throw
  else if (findLeft finish).front < (findLeft start).front then .throw
  else if (findRight finish).front < (findRight start).front then .throw
  else
    (trimSide left (findLeft start) (findLeft finish)).bind fun l =>
      (trimSide right (findRight start) (findRight finish)).bind fun r => .ok (l, r)

end Verif.Mesh
