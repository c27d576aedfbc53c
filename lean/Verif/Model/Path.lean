import Verif.Model.Arcs
import Verif.Model.Road
import Verif.Model.Transcription

/-!
# Minimum curvature path

Model of `Minimum_curvature_path` (src/core/applications/minimum_curvature_path.h, .hpp): the check of
the arclengths, the layout of starting point and bounds, the cost and the constraints on a circuit given
by its geometry, and the cost on a track made of arcs. Scalars are real numbers or any field (no
rounding). The solver (Ipopt through CppAD) is not modelled: its result is an argument. The piecewise
linear interpolants of the circuit geometry (minimum_curvature_path.hpp:90-102) are an argument as well:
the values they return at an arclength.
-/

set_option autoImplicit false

namespace Verif.Path

open Verif.Road (Vec3)

variable {K : Type*}

/-- The enumerators of `input_names`, minimum_curvature_path.h:65-68. -/
inductive Name where
  | n | yaw | pitch | roll | yawDot | pitchDot | rollDot | delta
  deriving DecidableEq, Repr

/-- Value of an enumerator, minimum_curvature_path.h:67. -/
def Name.val : Name → Nat
  | .n => 0 | .yaw => 1 | .pitch => 2 | .roll => 3 | .yawDot => 4 | .pitchDot => 5 | .rollDot => 6
  | .delta => 7

/-- `input_names::end`, minimum_curvature_path.h:67. -/
def nameEnd : Nat := 8

/-- `num_elements`, minimum_curvature_path.hpp:60. Used for `nPoints > 0` (else the checks of the
arclengths, 67-80, are undefined before it is used). -/
def nElements (closed : Bool) (nPoints : Nat) : Nat := if closed then nPoints else nPoints - 1

/-- `_num_variables`, minimum_curvature_path.h:74. -/
def nVariables (nPoints nElements : Nat) : Nat := (nameEnd - 1) * nPoints + nElements

/-- `_num_constraints`, minimum_curvature_path.h:74. -/
def nConstraints (nElements : Nat) : Nat := nElements * 6

/-- The values of the interpolants at an arclength, minimum_curvature_path.hpp:133-139, 142-143. The
interpolants of empty vectors (a flat circuit) return zero. -/
structure Station (K : Type*) where
  yaw : K
  pitch : K
  roll : K
  yawDot : K
  pitchDot : K
  rollDot : K
  nl : K
  nr : K

/-- Verification and correction of the arclengths, minimum_curvature_path.hpp:62-86: `front()` and
`back()` of an empty vector are undefined. -/
def checkStations [Field K] [LinearOrder K] (closed : Bool) (length : K) :
    List K → Res (List K)
  | [] => .ub
  | first :: rest =>
    let back := (first :: rest).getLast (by simp)
    if closed then
      if |first| > 1 / 10 ^ 12 then .throw
      else if back > length - 1 / 10 ^ 10 then .throw
      else .ok (0 :: rest)
    else
      if first < -(1 / 10 ^ 12) then .throw
      else if back > length then .throw
      else .ok (first :: rest)

/-- The three values written for a variable: `x_start`, `x_lb`, `x_ub`
(minimum_curvature_path.hpp:126-128). -/
structure Range (K : Type*) where
  start : K
  lower : K
  upper : K

/-- The writes for a point, minimum_curvature_path.hpp:141-167. `deg` is the constant `DEG` of the lion
library. -/
def pointEntries [Field K] (deg : K) (p : Station K) : List (Name × Range K) :=
  [(.n, ⟨0, -p.nl, p.nr⟩),
   (.yaw, ⟨p.yaw, p.yaw - 60 * deg, p.yaw + 60 * deg⟩),
   (.pitch, ⟨p.pitch, p.pitch - 30 * deg, p.pitch + 30 * deg⟩),
   (.roll, ⟨p.roll, p.roll - 30 * deg, p.roll + 30 * deg⟩),
   (.yawDot, ⟨p.yawDot, p.yawDot - 1, p.yawDot + 1⟩),
   (.pitchDot, ⟨p.pitchDot, p.pitchDot - 1, p.pitchDot + 1⟩),
   (.rollDot, ⟨p.rollDot, p.rollDot - 1, p.rollDot + 1⟩)]

/-- The writes for an element of length `d`, minimum_curvature_path.hpp:172-174, 179-181. -/
def stepEntry [Field K] (d : K) : Range K := ⟨d, 1 / 20 * d, 5 * d⟩

/-- The three loops over the points and elements, minimum_curvature_path.hpp:131-182: index in the
vectors and values, in the order of the writes. -/
def entries [Field K] (closed : Bool) (deg length : K) (table : K → Station K) (s : List K) :
    List (Nat × Range K) :=
  (s.zipIdx.flatMap fun p =>
      (pointEntries deg (table p.1)).map fun e => (nameEnd * p.2 + e.1.val, e.2))
    ++ ((s.zip s.tail).zipIdx.map fun p =>
      (nameEnd * p.2 + Name.delta.val, stepEntry (p.1.2 - p.1.1)))
    ++ (if closed then
        match s.getLast? with
        | some b => [(nameEnd * (s.length - 1) + Name.delta.val, stepEntry (length - b))]
        | none => []
      else [])

/-- `x[i] = v`: undefined when out of range (minimum_curvature_path.hpp:141-181). -/
def writeAt (x : List K) (i : Nat) (v : K) : Res (List K) :=
  if i < x.length then .ok (x.set i v) else .ub

/-- Successive writes, minimum_curvature_path.hpp:131-182. -/
def writeAll : List (Nat × K) → List K → Res (List K)
  | [], x => .ok x
  | w :: ws, x => (writeAt x w.1 w.2).bind fun x' => writeAll ws x'

/-- Starting point and bounds, minimum_curvature_path.hpp:58-86, 126-182: the accepted arclengths and the
vectors `x_start`, `x_lb`, `x_ub`. -/
def problem [Field K] [LinearOrder K] (closed : Bool) (deg length : K) (table : K → Station K)
    (s : List K) : Res (List K × List K × List K × List K) :=
  (checkStations closed length s).bind fun s' =>
    let zeros := List.replicate (nVariables s'.length (nElements closed s'.length)) 0
    let es := entries closed deg length table s'
    (writeAll (es.map fun e => (e.1, e.2.start)) zeros).bind fun xs =>
      (writeAll (es.map fun e => (e.1, e.2.lower)) zeros).bind fun xl =>
        (writeAll (es.map fun e => (e.1, e.2.upper)) zeros).bind fun xu =>
          .ok (s', xs, xl, xu)

/-- The variables of a point (minimum_curvature_path.h:67). -/
structure Vars (K : Type*) where
  n : K
  yaw : K
  pitch : K
  roll : K
  yawDot : K
  pitchDot : K
  rollDot : K

/-- The variables of point `i`, minimum_curvature_path.hpp:388-394. -/
def loadPoint (x : List K) (i : Nat) : Res (Vars K) :=
  (idx x (nameEnd * i + Name.n.val)).bind fun n =>
  (idx x (nameEnd * i + Name.yaw.val)).bind fun yaw =>
  (idx x (nameEnd * i + Name.pitch.val)).bind fun pitch =>
  (idx x (nameEnd * i + Name.roll.val)).bind fun roll =>
  (idx x (nameEnd * i + Name.yawDot.val)).bind fun yawDot =>
  (idx x (nameEnd * i + Name.pitchDot.val)).bind fun pitchDot =>
  (idx x (nameEnd * i + Name.rollDot.val)).bind fun rollDot =>
    .ok ⟨n, yaw, pitch, roll, yawDot, pitchDot, rollDot⟩

/-- (2) of `Fitness_fcn_by_polynomial::operator()`, minimum_curvature_path.hpp:385-400. The members
filled here are the ones exported after the optimisation (219-250). -/
def load (nPoints nElements : Nat) (x : List K) : Res (List (Vars K) × List K) :=
  (mapRes (loadPoint x) (List.range nPoints)).bind fun pts =>
    (mapRes (fun i => idx x (nameEnd * i + Name.delta.val)) (List.range nElements)).bind fun ds =>
      .ok (pts, ds)

/-! ### The path -/

/-- `normal_vector[i]`, minimum_curvature_path.hpp:116-118. -/
noncomputable def normalVector (yaw pitch roll : ℝ) : Vec3 :=
  (Real.cos yaw * Real.sin pitch * Real.sin roll - Real.sin yaw * Real.cos roll,
   Real.sin yaw * Real.sin pitch * Real.sin roll + Real.cos yaw * Real.cos roll,
   Real.cos pitch * Real.sin roll)

/-- `_x`, `_y`, `_z`, minimum_curvature_path.hpp:405-407. -/
def place (centre normal : Vec3) (n : ℝ) : Vec3 :=
  (centre.1 + n * normal.1, centre.2.1 + n * normal.2.1, centre.2.2 + n * normal.2.2)

/-- `_curvature_x`, `_curvature_y`, `_curvature_z`, minimum_curvature_path.hpp:409-411. -/
noncomputable def curvature (v : Vars ℝ) : Vec3 :=
  (v.rollDot - Real.sin v.pitch * v.yawDot,
   Real.cos v.roll * v.pitchDot + Real.cos v.pitch * Real.sin v.roll * v.yawDot,
   -Real.sin v.roll * v.pitchDot + Real.cos v.pitch * Real.cos v.roll * v.yawDot)

/-- The sum of squares of the three curvatures, minimum_curvature_path.hpp:420-421. -/
noncomputable def curvature2 (v : Vars ℝ) : ℝ :=
  (curvature v).1 * (curvature v).1 + (curvature v).2.1 * (curvature v).2.1
    + (curvature v).2.2 * (curvature v).2.2

/-- A point of the path: its position and its variables (minimum_curvature_path.h:101-115). -/
structure Node where
  pos : Vec3
  v : Vars ℝ

/-- The six rows of the element from `a` to `b`, minimum_curvature_path.hpp:423-428. -/
noncomputable def rows (ds : ℝ) (a b : Node) : List ℝ :=
  [b.pos.1 - a.pos.1
      - 1 / 2 * ds * (Real.cos b.v.yaw * Real.cos b.v.pitch + Real.cos a.v.yaw * Real.cos a.v.pitch),
   b.pos.2.1 - a.pos.2.1
      - 1 / 2 * ds * (Real.sin b.v.yaw * Real.cos b.v.pitch + Real.sin a.v.yaw * Real.cos a.v.pitch),
   b.pos.2.2 - a.pos.2.2 - 1 / 2 * ds * (Real.sin b.v.pitch + Real.sin a.v.pitch),
   b.v.yaw - a.v.yaw - 1 / 2 * ds * (b.v.yawDot + a.v.yawDot),
   b.v.pitch - a.v.pitch - 1 / 2 * ds * (b.v.pitchDot + a.v.pitchDot),
   b.v.roll - a.v.roll - 1 / 2 * ds * (b.v.rollDot + a.v.rollDot)]

/-- The six rows of the closing element, minimum_curvature_path.hpp:435-440. -/
noncomputable def closingRows (direction : ℤ) (ds : ℝ) (last first : Node) : List ℝ :=
  [first.pos.1 - last.pos.1
      - 1 / 2 * ds * (Real.cos first.v.yaw * Real.cos first.v.pitch
        + Real.cos last.v.yaw * Real.cos last.v.pitch),
   first.pos.2.1 - last.pos.2.1
      - 1 / 2 * ds * (Real.sin first.v.yaw * Real.cos first.v.pitch
        + Real.sin last.v.yaw * Real.cos last.v.pitch),
   first.pos.2.2 - last.pos.2.2 - 1 / 2 * ds * (Real.sin first.v.pitch + Real.sin last.v.pitch),
   first.v.yaw - last.v.yaw - 1 / 2 * ds * (first.v.yawDot + last.v.yawDot)
      + 2 * Real.pi * direction,
   first.v.pitch - last.v.pitch - 1 / 2 * ds * (first.v.pitchDot + last.v.pitchDot),
   first.v.roll - last.v.roll - 1 / 2 * ds * (first.v.rollDot + last.v.rollDot)]

/-- The cost of an inner element, minimum_curvature_path.hpp:420-421. -/
noncomputable def elementCost (ds : ℝ) (a b : Node) : ℝ :=
  1 / 2 * ds * (curvature2 b.v + curvature2 a.v)

/-- The cost of the closing element, minimum_curvature_path.hpp:434. -/
noncomputable def closingCost (ds : ℝ) (last first : Node) : ℝ :=
  1 / 2 * ds * (last.v.yawDot * last.v.yawDot + first.v.yawDot * first.v.yawDot)

/-- The loop over the inner elements, minimum_curvature_path.hpp:417-429.
`_delta_path_arclength[i-1]` past the end is undefined. -/
noncomputable def inner : List ℝ → Node → List Node → ℝ → Res (ℝ × List ℝ)
  | _, _, [], cost => .ok (cost, [])
  | [], _, _ :: _, _ => .ub
  | d :: ds, a, b :: rest, cost =>
    (inner ds b rest (cost + elementCost d a b)).map fun r => (r.1, rows d a b ++ r.2)

/-- (4) of `Fitness_fcn_by_polynomial::operator()`, minimum_curvature_path.hpp:414-441: the cost and
the rows in the order in which they are written. -/
noncomputable def evaluate (closed : Bool) (direction : ℤ) (ds : List ℝ) (nodes : List Node) :
    Res (ℝ × List ℝ) :=
  match nodes, nodes.getLast? with
  | first :: rest, some last =>
    (inner ds first rest 0).bind fun r =>
      if closed then
        match ds.getLast? with
        | none => .ub
        | some d => .ok (r.1 + closingCost d last first, r.2 ++ closingRows direction d last first)
      else .ok r
  | _, _ => .ub

/-- The vector `fg`, of `1 + n_constraints` entries with the rows written from index 1 on,
minimum_curvature_path.hpp:215, 415-416, 423-440. -/
noncomputable def fgVector (closed : Bool) (direction : ℤ) (ds : List ℝ) (nodes : List Node) :
    Res (List ℝ × Nat) :=
  (evaluate closed direction ds nodes).bind fun r =>
    Transcription.storeAll
      (r.1 :: List.replicate (nConstraints (nElements closed nodes.length)) 0) 1 r.2

/-! ### Tracks made of arcs -/

/-- `Track_by_arcs::pseudo_curvature2_at`, track_by_arcs.hpp:96-104, at a point `p` of the track. -/
noncomputable def pseudoCurvature2 (p : Arcs.Point) (w dw d2w : ℝ) : ℝ :=
  let drc0 := (Arcs.positionAt p 0 0 0).2.1
  let d2rc := (Arcs.positionAt p w dw d2w).2.2
  let c := drc0.1 * d2rc.2 - drc0.2 * d2rc.1
  let d := drc0.1 * drc0.1 + drc0.2 * drc0.2
  c * c / (d * d * d)

/-- The derivatives of the lateral displacement at point `i` of `n`, minimum_curvature_path.hpp:352-364:
the entries before and after it, of the first point the last entry, of the last one the first. With
less than two points an entry out of range is read. -/
noncomputable def lateralDerivatives (w : List ℝ) (ds : ℝ) (i : Nat) : Res (ℝ × ℝ) :=
  let n := w.length
  let prev := if i = 0 then n - 1 else i - 1
  let next := if i = 0 then 1 else if i = n - 1 then 0 else i + 1
  (idx w next).bind fun a => (idx w prev).bind fun b => (idx w i).bind fun c =>
    .ok ((a - b) * (1 / 2) * (1 / ds), (a + b - 2 * c) * (1 / ds) * (1 / ds))

/-- The sum over the points from `i` on, minimum_curvature_path.hpp:366-372; the first argument counts
the points left. -/
noncomputable def arcsSum (t : Arcs.Track) (w : List ℝ) (ds : ℝ) : Nat → Nat → ℝ → Res ℝ
  | 0, _, total => .ok total
  | m + 1, i, total =>
    (lateralDerivatives w ds i).bind fun d => (idx w i).bind fun wi =>
      (Arcs.at' t ((i : ℝ) * ds)).bind fun p =>
        arcsSum t w ds m (i + 1) (total + pseudoCurvature2 p wi d.1 d.2 * ds)

/-- `Fitness_fcn::operator()`, minimum_curvature_path.hpp:338-375, on a vector of the advertised size
(the `assert` at 341). No point at all: `_n-1` wraps and the loop at 353 writes past the end. -/
noncomputable def arcsFitness (t : Arcs.Track) (w : List ℝ) : Res ℝ :=
  if w.length = 0 then .ub
  else arcsSum t w (t.total / w.length) w.length 0 0

/-- `xl` and `xu` of the problem on a track made of arcs, minimum_curvature_path.hpp:16. -/
def arcsBounds [Field K] (n : Nat) : List K × List K := (List.replicate n (-10), List.replicate n 10)

end Verif.Path
