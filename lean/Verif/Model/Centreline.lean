import Verif.Model.Mesh
import Mathlib.Algebra.Module.Prod

/-!
# The first estimate of the centreline

Model of the three overloads of `compute_averaged_centerline`
(src/core/applications/circuit_preprocessor.hpp:1088-1406). They differ only in how the nodes along a
line are placed, which is the argument `Meshing` here. `find_closest_point` and `Polynomial` of the lion
library are parameters.
-/

set_option autoImplicit false

namespace Verif.Fit

open Verif.Road (Vec3)
open Verif.Preprocessor (normV)

/-- The functions of the lion library that the preprocessor calls at circuit_preprocessor.hpp:344, 368,
1108 and 1117 (the library is not part of the repository). -/
structure Library where
  /-- `find_closest_point(line, point, closed, first index, maximum distance)`: the point of the line,
  its squared distance and the indices of the ends of its segment (circuit_preprocessor.hpp:1117-1118). -/
  find : List Vec3 → Vec3 → Bool → Nat → ℝ → Vec3 × ℝ × Nat × Nat
  /-- `Polynomial<sVector3d>(s, r, 1)` and its evaluation (circuit_preprocessor.hpp:1108, 1112). -/
  linear : List ℝ → List Vec3 → ℝ → Vec3
  /-- `wrap_to_pi` (circuit_preprocessor.hpp:368). -/
  wrap : ℝ → ℝ
  /-- `rotmat2ea` of the transposed matrix with the rows tangent, normal and binormal: yaw, pitch and
  roll (circuit_preprocessor.hpp:344). -/
  euler : Vec3 × Vec3 × Vec3 → ℝ × ℝ × ℝ

/-- `norm(b - a)`, circuit_preprocessor.hpp:1102. -/
noncomputable def distance (a b : Vec3) : ℝ := normV (b - a)

/-- The loops that look for the closest point to each point, starting every search at the smallest index
of the last one, circuit_preprocessor.hpp:1115-1118 (also 1220-1223, 1350-1353, 411-421, 692-698 and
1505-1528): the points found and their squared distances. -/
def follow (search : Vec3 → Nat → Vec3 × ℝ × Nat × Nat) : Nat → List Vec3 → List (Vec3 × ℝ)
  | _, [] => []
  | i, p :: l =>
    let r := search p i
    (r.1, r.2.1) :: follow search (min r.2.2.1 r.2.2.2) l

/-- How the nodes are placed: the arguments of the three overloads, circuit_preprocessor.hpp:1090, 1164,
1283. A distribution is given by the polynomial through it (1286), its last arclength and its last
size. -/
inductive Meshing where
  | equispaced (nElements : Nat)
  | breakpoints (sizes : List (Vec3 × ℝ))
  | distribution (f : ℝ → ℝ) (sEnd dsEnd : ℝ)

/-- `push_back(front())` for closed circuits, circuit_preprocessor.hpp:1095-1096, 1123-1127;
`front()` of an empty vector is undefined. -/
def closeLine {V : Type*} (closed : Bool) (line : List V) : Res (List V) :=
  if closed then
    match line with
    | [] => .ub
    | a :: l => .ok (a :: l ++ [a])
  else .ok line

/-- `pop_back()` for closed circuits, circuit_preprocessor.hpp:1105-1106, 1151-1152, 1209-1213. -/
def dropClosing {V : Type*} (closed : Bool) (l : List V) : List V := if closed then l.dropLast else l

/-- The nodes along a line of length `L`, with the values of `curve` there: equally spaced
(circuit_preprocessor.hpp:1104, 1109-1112, 1138-1148), from breakpoints (1178-1207, 1240-1272) or from a
distribution (1309-1338, 1371-1403). `point` is the position in the value of the curve, `line` the
vertices searched for the breakpoints. `linspace` with no elements divides by zero; it is undefined
here. Without breakpoints `front()` is undefined (1179). The closing node is still there. -/
noncomputable def along {V : Type*} (lib : Library) (closed : Bool) (ratio : ℝ) (how : Meshing)
    (line : List Vec3) (point : V → Vec3) (L : ℝ) (curve : ℝ → V) (fuel : Nat) :
    Option (Res (List (ℝ × V))) :=
  match how with
  | .equispaced n =>
    some (if n = 0 then .ub else .ok ((Mesh.linspace L n).map fun s => (s, curve s)))
  | .breakpoints [] => some .ub
  | .breakpoints ((v, d) :: rest) =>
    let find : Vec3 → Mesh.Closest Vec3 := fun p =>
      let r := lib.find line p closed 0 1000000000000000000
      ⟨r.1, r.2.2.1, r.2.2.2⟩
    let request : ℝ → ℝ := fun s =>
      match Mesh.sizeAt distance find (point (curve s)) ((v, d) :: rest) with
      | .ok size => size
      | _ => 0
    Mesh.mesh .breakpoints request ratio d L curve fuel
  | .distribution f sEnd dsEnd =>
    Mesh.mesh .distribution (Mesh.distributionRequest f sEnd dsEnd) ratio (f 0) L curve fuel

/-- `Centerline`, circuit_preprocessor.h:370-377, filled at circuit_preprocessor.hpp:1154, 1276. -/
structure Centerline where
  s : List ℝ
  r : List Vec3
  toRight : List Vec3
  length : ℝ

/-- Sequencing of loops that may not have ended (`none`) and of outcomes (statement after
statement in circuit_preprocessor.hpp:1088-1406). -/
def andThen {α β : Type*} (x : Option (Res α)) (f : α → Option (Res β)) : Option (Res β) :=
  match x with
  | none => none
  | some (.ok a) => f a
  | some .throw => some .throw
  | some .ub => some .ub

/-- The last entry of the arclengths: `s_right.back()`, `s_center.back()`
(circuit_preprocessor.hpp:1104, 1135). -/
noncomputable def lengthOf (s : List ℝ) : ℝ := s.getLastD 0

/-- (2)-(5): the nodes along the right boundary with the closest points of the left one,
circuit_preprocessor.hpp:1094-1118 (also 1169-1223, 1288-1353): pairs of a right and a left point. -/
noncomputable def sampled (lib : Library) (closed : Bool) (ratio dmax : ℝ) (how : Meshing)
    (left right : List Vec3) (fuel : Nat) : Option (Res (List (Vec3 × Vec3))) :=
  match right with
  | [] => some .ub
  | _ =>
    andThen (some (closeLine closed right)) fun line =>
      let s := Mesh.arclengthsFrom distance 0 line
      andThen (along lib closed ratio how line id (lengthOf s) (lib.linear s line) fuel) fun m =>
        let nodes := (dropClosing closed m).map Prod.snd
        let found := follow (fun p i => lib.find left p closed i dmax) 0 nodes
        some (.ok (nodes.zip (found.map Prod.fst)))

/-- (6): `0.5*(left + right)`, circuit_preprocessor.hpp:1121, 1226, 1356. -/
noncomputable def middle (a : Vec3 × Vec3) : Vec3 := (1 / 2 : ℝ) • (a.2 + a.1)

/-- (6): `0.5*(right - left)`, circuit_preprocessor.hpp:1122, 1227, 1357. -/
noncomputable def half (a : Vec3 × Vec3) : Vec3 := (1 / 2 : ℝ) • (a.1 - a.2)

/-- (6) and (7): the nodes along the line through the midpoints, circuit_preprocessor.hpp:1120-1154 (also
1225-1279, 1355-1405). The length is `s_center.back()` with equally spaced nodes (1135) and
`s_center_mesh.back()` otherwise (1274). -/
noncomputable def recentred (lib : Library) (closed : Bool) (ratio : ℝ) (how : Meshing)
    (pairs : List (Vec3 × Vec3)) (fuel : Nat) : Option (Res Centerline) :=
  andThen (some (closeLine closed (pairs.map middle))) fun mids =>
    andThen (some (closeLine closed (pairs.map half))) fun halves =>
      let s := Mesh.arclengthsFrom distance 0 mids
      andThen (along lib closed ratio how mids Prod.fst (lengthOf s)
          (fun x => (lib.linear s mids x, lib.linear s halves x)) fuel) fun m =>
        let length := match how with
          | .equispaced _ => lengthOf s
          | _ => lengthOf (m.map Prod.fst)
        let m' := dropClosing closed m
        some (.ok ⟨m'.map Prod.fst, m'.map fun p => p.2.1, m'.map fun p => p.2.2, length⟩)

/-- `compute_averaged_centerline`, circuit_preprocessor.hpp:1088-1406. -/
noncomputable def averaged (lib : Library) (closed : Bool) (ratio dmax : ℝ) (how : Meshing)
    (left right : List Vec3) (fuel : Nat) : Option (Res Centerline) :=
  andThen (sampled lib closed ratio dmax how left right fuel) fun pairs =>
    recentred lib closed ratio how pairs fuel

end Verif.Fit
