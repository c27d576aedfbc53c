import Verif.Model.Transcription
import Verif.Model.Road
import Mathlib.Analysis.SpecialFunctions.Complex.Arg

/-!
# Track preprocessor

Model of `Circuit_preprocessor` (src/core/applications/circuit_preprocessor.h, .hpp): the layout of
the optimisation vector, the reconstruction of the boundaries, the equations and the cost of the
fitting problem, the reader of coordinates and the continuous heading. Scalars are real numbers or any
field (no rounding). The solver (Ipopt through CppAD) and `find_closest_point` of the lion library are
not modelled: their results are arguments.
-/

set_option autoImplicit false

namespace Verif.Preprocessor

open Verif.Road (Vec3)

/-- `flat_computation_names` and `elevation_computation_names`, circuit_preprocessor.h:239-263. -/
inductive Kind where
  | flat
  | elevated
  deriving DecidableEq, Repr

/-- `state_names::end`, circuit_preprocessor.h:243, 256. -/
def nStates : Kind → Nat
  | .flat => 6
  | .elevated => 11

/-- `control_names::end`, circuit_preprocessor.h:248, 261. -/
def nControls : Kind → Nat
  | .flat => 3
  | .elevated => 5

/-- The enumerators of `flat_computation_names::state_names`, circuit_preprocessor.h:243. -/
inductive FlatState where
  | x | y | yaw | yawDot | nl | nr

/-- The enumerators of `elevation_computation_names::state_names`, circuit_preprocessor.h:256. -/
inductive ElevState where
  | x | y | z | yaw | pitch | roll | yawDot | pitchDot | rollDot | nl | nr

/-- Value of an enumerator, circuit_preprocessor.h:243. -/
def FlatState.val : FlatState → Nat
  | .x => 0 | .y => 1 | .yaw => 2 | .yawDot => 3 | .nl => 4 | .nr => 5

/-- Value of an enumerator, circuit_preprocessor.h:256. -/
def ElevState.val : ElevState → Nat
  | .x => 0 | .y => 1 | .z => 2 | .yaw => 3 | .pitch => 4 | .roll => 5 | .yawDot => 6
  | .pitchDot => 7 | .rollDot => 8 | .nl => 9 | .nr => 10

/-- `state_names::yaw` of either layout (circuit_preprocessor.h:243, 256). -/
def iYaw : Kind → Nat
  | .flat => FlatState.yaw.val
  | .elevated => ElevState.yaw.val

/-- `state_names::nl` of either layout (circuit_preprocessor.h:243, 256). -/
def iNl : Kind → Nat
  | .flat => FlatState.nl.val
  | .elevated => ElevState.nl.val

/-- `state_names::nr` of either layout (circuit_preprocessor.h:243, 256). -/
def iNr : Kind → Nat
  | .flat => FlatState.nr.val
  | .elevated => ElevState.nr.val

/-- `control_names::dyaw_dot` of either layout, circuit_preprocessor.h:248, 261. -/
def cDyawDot : Kind → Nat
  | _ => 0

/-- `control_names::dnl` of either layout, circuit_preprocessor.h:248, 261. -/
def cDnl : Kind → Nat
  | .flat => 1
  | .elevated => 3

/-- `control_names::dnr` of either layout, circuit_preprocessor.h:248, 261. -/
def cDnr : Kind → Nat
  | .flat => 2
  | .elevated => 4

/-- `control_names::dpitch_dot` of the elevated layout, circuit_preprocessor.h:261. -/
def cDpitchDot : Nat := 1

/-- `control_names::droll_dot` of the elevated layout, circuit_preprocessor.h:261. -/
def cDrollDot : Nat := 2

/-- The values of one point of the track: entry `i` of the sixteen vectors `*_init` of `compute`
(circuit_preprocessor.hpp:291-307) and of the result (625-641). The C++ keeps them as parallel
vectors of size `n_points`. -/
structure Point (K : Type*) where
  x : K
  y : K
  z : K
  yaw : K
  pitch : K
  roll : K
  yawDot : K
  pitchDot : K
  rollDot : K
  nl : K
  nr : K
  dyawDot : K
  dpitchDot : K
  drollDot : K
  dnl : K
  dnr : K

variable {K : Type*}

/-- The writes into `x` for one point, circuit_preprocessor.hpp:491-525. -/
def writes : Kind → Point K → List K
  | .flat, p =>
    [p.x, p.y, p.yaw, p.yawDot, p.nl, p.nr, p.dyawDot, p.dnl, p.dnr]
  | .elevated, p =>
    [p.x, p.y, p.z, p.yaw, p.pitch, p.roll, p.yawDot, p.pitchDot, p.rollDot, p.nl, p.nr,
      p.dyawDot, p.dpitchDot, p.drollDot, p.dnl, p.dnr]

/-- The limits among the options that bound the variables, circuit_preprocessor.h:40-42. -/
structure Limits (K : Type*) where
  maxYawDot : K
  maxDyawDot : K
  maxDn : K

/-- The writes into `x_lb` for one point, circuit_preprocessor.hpp:526-559. `deg` is the constant
`DEG` of the lion library. -/
def lowerWrites [Field K] (deg : K) (o : Limits K) : Kind → Point K → List K
  | .flat, p =>
    [p.x - 100, p.y - 100, p.yaw - 30 * deg, -o.maxYawDot, 1, 1, -o.maxDyawDot, -o.maxDn, -o.maxDn]
  | .elevated, p =>
    [p.x - 100, p.y - 100, p.z - 10, p.yaw - 30 * deg, p.pitch - 10 * deg, p.roll - 10 * deg,
      -o.maxYawDot, -o.maxYawDot, -o.maxYawDot, 1, 1, -o.maxDyawDot, -o.maxDyawDot, -o.maxDyawDot,
      -o.maxDn, -o.maxDn]

/-- The writes into `x_ub` for one point, circuit_preprocessor.hpp:561-593. -/
def upperWrites [Field K] (deg : K) (o : Limits K) : Kind → Point K → List K
  | .flat, p =>
    [p.x + 100, p.y + 100, p.yaw + 30 * deg, o.maxYawDot, p.nl + p.nr, p.nl + p.nr, o.maxDyawDot,
      o.maxDn, o.maxDn]
  | .elevated, p =>
    [p.x + 100, p.y + 100, p.z + 10, p.yaw + 30 * deg, p.pitch + 10 * deg, p.roll + 10 * deg,
      o.maxYawDot, o.maxYawDot, o.maxYawDot, p.nl + p.nr, p.nl + p.nr, o.maxDyawDot, o.maxDyawDot,
      o.maxDyawDot, o.maxDn, o.maxDn]

/-- `_n_variables`, circuit_preprocessor.h:282. -/
def nVariables (k : Kind) (nPoints : Nat) : Nat := 1 + (nStates k + nControls k) * nPoints

/-- `_n_constraints`, circuit_preprocessor.h:283. -/
def nConstraints (k : Kind) (closed : Bool) (nElements : Nat) : Nat :=
  1 + nStates k * nElements + (if closed then 0 else 1)

/-- A vector of `n_variables` entries filled by `first` and then the writes of every point, with the
counter `k`, circuit_preprocessor.hpp:480-599: a write past the end is undefined (the `assert` on the
counter, 597-599, is not compiled in a release). Returns the vector and the counter. -/
def fill [Zero K] (k : Kind) (first : K) (w : Point K → List K) (pts : List (Point K)) :
    Res (List K × Nat) :=
  Transcription.storeAll (List.replicate (nVariables k pts.length) 0) 0 (first :: pts.flatMap w)

/-- The starting point `x`, circuit_preprocessor.hpp:480, 486, 491-525. -/
def pack [Field K] (k : Kind) (pts : List (Point K)) : Res (List K × Nat) :=
  fill k 1 (writes k) pts

/-- The lower bounds `x_lb`, circuit_preprocessor.hpp:481, 487, 526-559. -/
def packLower [Field K] (deg : K) (o : Limits K) (k : Kind) (pts : List (Point K)) :
    Res (List K × Nat) :=
  fill k (9 / 10) (lowerWrites deg o k) pts

/-- The upper bounds `x_ub`, circuit_preprocessor.hpp:482, 488, 561-593. -/
def packUpper [Field K] (deg : K) (o : Limits K) (k : Kind) (pts : List (Point K)) :
    Res (List K × Nat) :=
  fill k (111 / 100) (upperWrites deg o k) pts

/-- `std::copy_n(x.cbegin() + start, n, ..)`: reading past the end is undefined
(circuit_preprocessor.hpp:650-654). -/
def copyN (x : List K) (start n : Nat) : Res (List K) :=
  if start + n ≤ x.length then .ok ((x.drop start).take n) else .ub

/-- A `std::array` as a function of the index. The indices used are enumerators below the size
(circuit_preprocessor.hpp:650-654). -/
def asArray [Zero K] (l : List K) : Nat → K := fun j => l.getD j 0

/-- The states and controls of point `i` copied from the solution, circuit_preprocessor.hpp:650-654. -/
def unpackArrays [Zero K] (k : Kind) (x : List K) (i : Nat) : Res ((Nat → K) × (Nat → K)) :=
  (copyN x (1 + (nStates k + nControls k) * i) (nStates k)).bind fun states =>
    (copyN x (1 + (nStates k + nControls k) * i + nStates k) (nControls k)).bind fun controls =>
      .ok (asArray states, asArray controls)

/-- The values stored for a point of the solution, circuit_preprocessor.hpp:661-677. In a flat
computation the vectors of pitch, roll and their derivatives keep the zeros of their construction
(625-641). The position (x, y, z) is the one `get_coordinates(states, 0.0)` returns (659), written out
here so that the definition does not depend on the trigonometric functions; `Preprocessor.centre_eq`
states the agreement. -/
def store [Zero K] (k : Kind) (q u : Nat → K) : Point K :=
  match k with
  | .flat =>
    { x := q FlatState.x.val, y := q FlatState.y.val, z := 0
      yaw := q FlatState.yaw.val, pitch := 0, roll := 0
      yawDot := q FlatState.yawDot.val, pitchDot := 0, rollDot := 0
      nl := q FlatState.nl.val, nr := q FlatState.nr.val
      dyawDot := u (cDyawDot .flat), dpitchDot := 0, drollDot := 0
      dnl := u (cDnl .flat), dnr := u (cDnr .flat) }
  | .elevated =>
    { x := q ElevState.x.val, y := q ElevState.y.val, z := q ElevState.z.val
      yaw := q ElevState.yaw.val, pitch := q ElevState.pitch.val, roll := q ElevState.roll.val
      yawDot := q ElevState.yawDot.val, pitchDot := q ElevState.pitchDot.val
      rollDot := q ElevState.rollDot.val
      nl := q ElevState.nl.val, nr := q ElevState.nr.val
      dyawDot := u (cDyawDot .elevated), dpitchDot := u cDpitchDot, drollDot := u cDrollDot
      dnl := u (cDnl .elevated), dnr := u (cDnr .elevated) }

/-- The loop that stores the solution, circuit_preprocessor.hpp:648-678. -/
def unpack [Zero K] (k : Kind) (nPoints : Nat) (x : List K) : Res (List (Point K)) :=
  mapRes (fun i => (unpackArrays k x i).map fun qu => store k qu.1 qu.2) (List.range nPoints)

/-- `for j < n: .. = x[k++]`, circuit_preprocessor.hpp:1491-1496. -/
def readN (x : List K) : Nat → Nat → Res (List K × Nat)
  | k, 0 => .ok ([], k)
  | k, n + 1 => (idx x k).bind fun a => (readN x (k + 1) n).bind fun r => .ok (a :: r.1, r.2)

/-- (2a) of `FG::operator()`: states and controls of every point, read with a running counter,
circuit_preprocessor.hpp:1488-1497. The argument counts the points left. -/
def loadPoints [Zero K] (kd : Kind) (x : List K) :
    Nat → Nat → Res (List ((Nat → K) × (Nat → K)) × Nat)
  | k, 0 => .ok ([], k)
  | k, n + 1 =>
    (readN x k (nStates kd)).bind fun q => (readN x q.2 (nControls kd)).bind fun u =>
      (loadPoints kd x u.2 n).bind fun r => .ok ((asArray q.1, asArray u.1) :: r.1, r.2)

/-- (1) and (2a) of `FG::operator()`, circuit_preprocessor.hpp:1481-1500: the scale of the arclength,
the points, and the final value of the counter. -/
def load [Zero K] (kd : Kind) (nPoints : Nat) (x : List K) :
    Res (K × List ((Nat → K) × (Nat → K)) × Nat) :=
  (idx x 0).bind fun f => (loadPoints kd x 1 nPoints).bind fun r => .ok (f, r.1, r.2)

/-! ### Geometry -/

/-- `FG::get_coordinates`, circuit_preprocessor.h:315-337: the point at lateral distance `n`. -/
noncomputable def coordinates (k : Kind) (q : Nat → ℝ) (n : ℝ) : Vec3 :=
  match k with
  | .flat =>
    (q FlatState.x.val - Real.sin (q FlatState.yaw.val) * n,
     q FlatState.y.val + Real.cos (q FlatState.yaw.val) * n, 0)
  | .elevated =>
    let yaw := q ElevState.yaw.val
    let pitch := q ElevState.pitch.val
    let roll := q ElevState.roll.val
    (q ElevState.x.val
        + (Real.cos yaw * Real.sin pitch * Real.sin roll - Real.sin yaw * Real.cos roll) * n,
     q ElevState.y.val
        + (Real.sin yaw * Real.sin pitch * Real.sin roll + Real.cos yaw * Real.cos roll) * n,
     q ElevState.z.val + (Real.cos pitch * Real.sin roll) * n)

/-- `r_left[i]`, circuit_preprocessor.hpp:657. -/
noncomputable def leftBoundary (k : Kind) (q : Nat → ℝ) : Vec3 := coordinates k q (-(q (iNl k)))

/-- `r_right[i]`, circuit_preprocessor.hpp:658. -/
noncomputable def rightBoundary (k : Kind) (q : Nat → ℝ) : Vec3 := coordinates k q (q (iNr k))

/-- `r_centerline[i]`, circuit_preprocessor.hpp:659. -/
noncomputable def centre (k : Kind) (q : Nat → ℝ) : Vec3 := coordinates k q 0

/-- `FG::equations`, circuit_preprocessor.h:291-313: the derivative of every state with respect to
the arclength. -/
noncomputable def equations (k : Kind) (q u : Nat → ℝ) : List ℝ :=
  match k with
  | .flat =>
    [Real.cos (q FlatState.yaw.val), Real.sin (q FlatState.yaw.val), q FlatState.yawDot.val,
      u (cDyawDot .flat), u (cDnl .flat), u (cDnr .flat)]
  | .elevated =>
    [Real.cos (q ElevState.yaw.val) * Real.cos (q ElevState.pitch.val),
      Real.sin (q ElevState.yaw.val) * Real.cos (q ElevState.pitch.val),
      -Real.sin (q ElevState.pitch.val),
      q ElevState.yawDot.val, q ElevState.pitchDot.val, q ElevState.rollDot.val,
      u (cDyawDot .elevated), u cDpitchDot, u cDrollDot, u (cDnl .elevated), u (cDnr .elevated)]

/-! ### The fitting problem -/

/-- The weights among the options, circuit_preprocessor.h:32-38. -/
structure Weights where
  d : ℝ
  k : ℝ
  n : ℝ
  c : ℝ
  pitch : ℝ
  roll : ℝ

/-- What `FG::operator()` knows of a point: states, controls, and the squared distances to the
measured left and right boundaries and to the centreline estimate returned by `find_closest_point`
(circuit_preprocessor.hpp:1505-1515, 1521-1528). -/
structure Node where
  q : Nat → ℝ
  u : Nat → ℝ
  d2Left : ℝ
  d2Right : ℝ
  d2Centre : ℝ

/-- The terms of the cost common to both layouts for the element from `a` to `b`,
circuit_preprocessor.hpp:1532-1537 (`b` is node `i`, `a` node `i-1`) and 1556-1561 (`b` is node 0). -/
noncomputable def commonCost (k : Kind) (w : Weights) (ds : ℝ) (a b : Node) : ℝ :=
  1 / 2 * ds * w.d * (b.d2Left + a.d2Left)
  + 1 / 2 * ds * w.d * (b.d2Right + a.d2Right)
  + 1 / 2 * ds * w.c * (b.d2Centre + a.d2Centre)
  + 1 / 2 * ds * w.k * (b.u (cDyawDot k) * b.u (cDyawDot k) + a.u (cDyawDot k) * a.u (cDyawDot k))
  + 1 / 2 * ds * w.n * (b.u (cDnl k) * b.u (cDnl k) + a.u (cDnl k) * a.u (cDnl k))
  + 1 / 2 * ds * w.n * (b.u (cDnr k) * b.u (cDnr k) + a.u (cDnr k) * a.u (cDnr k))

/-- The terms added in an elevated computation, circuit_preprocessor.hpp:1539-1543. -/
noncomputable def elevationCost (k : Kind) (w : Weights) (ds : ℝ) (a b : Node) : ℝ :=
  match k with
  | .flat => 0
  | .elevated =>
    1 / 2 * ds * w.pitch * (b.u cDpitchDot * b.u cDpitchDot + a.u cDpitchDot * a.u cDpitchDot)
    + 1 / 2 * ds * w.roll * (b.u cDrollDot * b.u cDrollDot + a.u cDrollDot * a.u cDrollDot)

/-- The rows of an inner element, circuit_preprocessor.hpp:1546-1547. -/
noncomputable def rows (k : Kind) (ds : ℝ) (a b : Node) : List ℝ :=
  (List.range (nStates k)).map fun j =>
    b.q j - a.q j
      - 1 / 2 * ds * ((equations k a.q a.u).getD j 0 + (equations k b.q b.u).getD j 0)

/-- The rows of the closing element, circuit_preprocessor.hpp:1563-1566. -/
noncomputable def closingRows (k : Kind) (direction : ℤ) (ds : ℝ) (last first : Node) : List ℝ :=
  (List.range (nStates k)).map fun j =>
    first.q j - last.q j
      - 1 / 2 * ds * ((equations k last.q last.u).getD j 0 + (equations k first.q first.u).getD j 0)
      + (if j = iYaw k then 2 * Real.pi * direction else 0)

/-- (5) of `FG::operator()`, circuit_preprocessor.hpp:1517-1548: cost and rows of the inner elements.
`_ds[i-1]` past the end is undefined. -/
noncomputable def inner (k : Kind) (w : Weights) (f : ℝ) :
    List ℝ → Node → List Node → ℝ → Res (ℝ × List ℝ)
  | _, _, [], cost => .ok (cost, [])
  | [], _, _ :: _, _ => .ub
  | d :: ds, a, b :: rest, cost =>
    (inner k w f ds b rest (cost + (commonCost k w (f * d) a b + elevationCost k w (f * d) a b))).map
      fun r => (r.1, rows k (f * d) a b ++ r.2)

/-- `cross(p, c - right).z()/dot(p,p)` with `p = left - right`, circuit_preprocessor.hpp:1570-1572,
1577-1579: zero when `c` is on the line through `left` and `right` seen from above. -/
noncomputable def offLine (left right c : Vec3) : ℝ :=
  let p : Vec3 := (left.1 - right.1, left.2.1 - right.2.1, left.2.2 - right.2.2)
  (p.1 * (c.2.1 - right.2.1) - p.2.1 * (c.1 - right.1))
    / (p.1 * p.1 + p.2.1 * p.2.1 + p.2.2 * p.2.2)

/-- The data of the fitting problem: members of `FG`, circuit_preprocessor.h:347-360. The first and
last measured points of each side are the only ones used outside `find_closest_point`. -/
structure Problem where
  kind : Kind
  closed : Bool
  ds : List ℝ
  direction : ℤ
  weights : Weights
  leftFirst : Vec3
  rightFirst : Vec3
  leftLast : Vec3
  rightLast : Vec3

/-- (3)-(7) of `FG::operator()`, circuit_preprocessor.hpp:1502-1583, on the loaded nodes: the cost
`fg[0]` and the rows in the order in which they are written. In a closed circuit `n_elements` is
`n_points`, so that `_n_elements-1` is the last node (circuit_preprocessor.h:76-77, 132-133). -/
noncomputable def evaluate (p : Problem) (f : ℝ) (nodes : List Node) : Res (ℝ × List ℝ) :=
  match nodes, p.ds.getLast?, nodes.getLast? with
  | first :: rest, dLast, some last =>
    (inner p.kind p.weights f p.ds first rest 0).bind fun r =>
      let start := offLine p.leftFirst p.rightFirst (centre p.kind first.q)
      if p.closed then
        match dLast with
        | none => .ub
        | some d =>
          .ok (r.1 + commonCost p.kind p.weights (f * d) last first,
            r.2 ++ closingRows p.kind p.direction (f * d) last first ++ [start])
      else
        .ok (r.1, r.2 ++ [start] ++ [offLine p.leftLast p.rightLast (centre p.kind last.q)])
  | _, _, _ => .ub

/-- The vector `fg`: `1 + n_constraints` entries, the rows written from index 1 on,
circuit_preprocessor.hpp:1479, 1518, 1547, 1566, 1572, 1579. -/
noncomputable def fgVector (p : Problem) (nElements : Nat) (f : ℝ) (nodes : List Node) :
    Res (List ℝ × Nat) :=
  (evaluate p f nodes).bind fun r =>
    Transcription.storeAll (r.1 :: List.replicate (nConstraints p.kind p.closed nElements) 0) 1 r.2

/-! ### Arclength and errors -/

/-- Differences of consecutive entries, circuit_preprocessor.hpp:470-471. -/
def differences [Sub K] : List K → List K
  | a :: b :: l => (b - a) :: differences (b :: l)
  | _ => []

/-- `element_ds`, circuit_preprocessor.hpp:467-474; `back()` of an empty vector is undefined. -/
def elementDs [Sub K] (closed : Bool) (s : List K) (length : K) : Res (List K) :=
  match s.getLast? with
  | none => .ub
  | some b => .ok (differences s ++ if closed then [length - b] else [])

/-- `s[i] = s[i-1] + element_ds[i-1]*x[0]` for `i < n_points`, circuit_preprocessor.hpp:643-644. The
first argument counts the entries left, the value is `s[i-1]`. -/
def arclengthLoop [Add K] [Mul K] (f : K) : Nat → K → List K → Res (List K)
  | 0, s, _ => .ok [s]
  | _ + 1, _, [] => .ub
  | n + 1, s, d :: ds => (arclengthLoop f n (s + d * f) ds).map fun r => s :: r

/-- `s` and `track_length`, circuit_preprocessor.hpp:625, 643-646, for `nPoints > 0`. -/
def arclengths [Field K] (closed : Bool) (f : K) (nPoints : Nat) (ds : List K) : Res (List K × K) :=
  match nPoints with
  | 0 => .ub
  | n + 1 =>
    (arclengthLoop f n 0 ds).bind fun s =>
      match s.getLast?, ds.getLast? with
      | some b, some d => .ok (s, b + if closed then d * f else 0)
      | some b, none => if closed then .ub else .ok (s, b + 0)
      | none, _ => .ub

/-- The loop of the errors of one boundary, circuit_preprocessor.hpp:691-714: pairs of `s[i]` and the
distance of boundary point `i` to the measured boundary. Returns the maximum, the integral, and the
last error. -/
noncomputable def errorLoop : List (ℝ × ℝ) → ℝ → ℝ → ℝ → ℝ → ℝ × ℝ × ℝ
  | [], _, prev, mx, l2 => (mx, l2, prev)
  | (s, e) :: rest, s', prev, mx, l2 =>
    errorLoop rest s e (max e mx) (l2 + 1 / 2 * (s - s') * (prev * prev + e * e))

/-- `*_boundary_max_error` and `*_boundary_L2_error`, circuit_preprocessor.hpp:680-728. The first
entry is `s[0]` with the distance of the first point, which is computed again for the closing
element (719-720). -/
noncomputable def errors (closed : Bool) (length : ℝ) (first : ℝ × ℝ) (rest : List (ℝ × ℝ)) : ℝ × ℝ :=
  let r := errorLoop rest first.1 first.2 first.2 0
  let sLast := (rest.getLast?.getD first).1
  let l2 := if closed then
      r.2.1 + 1 / 2 * (length - sLast) * (r.2.2 * r.2.2 + first.2 * first.2)
    else r.2.1
  (r.1, Real.sqrt (l2 / length))

/-! ### Reading coordinates -/

/-- `Circuit_preprocessor::Coordinates`, circuit_preprocessor.h:19-24. -/
structure Coord (K : Type*) where
  longitude : K
  latitude : K
  altitude : K
  deriving DecidableEq

/-- What `read_kml` looks for in a document: the numbers in `coordinates` of
`kml/Document/Placemark` and of `kml/Document/Folder/Placemark`, when the element exists,
circuit_preprocessor.hpp:17-29. -/
structure Kml (K : Type*) where
  placemark : Option (List K)
  folder : Option (List K)

/-- The numbers of a document, circuit_preprocessor.hpp:17-22 (left) and 24-29 (right). -/
def Kml.numbers (d : Kml K) : Res (List K) :=
  match d.placemark with
  | some l => .ok l
  | none =>
    match d.folder with
    | some l => .ok l
    | none => .throw

/-- The loops that take the numbers three by three, circuit_preprocessor.hpp:37-58; the altitude is
zero without elevation. -/
def triples [Zero K] (elevation : Bool) (raw : List K) : Res (List (Coord K)) :=
  mapRes (fun i =>
    (idx raw (3 * i)).bind fun lon => (idx raw (3 * i + 1)).bind fun lat =>
      if elevation then (idx raw (3 * i + 2)).bind fun alt => .ok ⟨lon, lat, alt⟩
      else .ok ⟨lon, lat, 0⟩) (List.range (raw.length / 3))

/-- `read_kml`, circuit_preprocessor.hpp:12-61. The parsing of the numbers of an element by the lion
library is not modelled. -/
def readKml [Zero K] (elevation : Bool) (left right : Kml K) :
    Res (List (Coord K) × List (Coord K)) :=
  left.numbers.bind fun l => right.numbers.bind fun r =>
    if l.length % 3 ≠ 0 then .throw
    else if r.length % 3 ≠ 0 then .throw
    else (triples elevation l).bind fun cl => (triples elevation r).bind fun cr => .ok (cl, cr)

/-- The conversion of a point to Cartesian coordinates, circuit_preprocessor.hpp:274, 278: `deg` is
`DEG`, `R` the earth radius, the origin is `(lon0, lat0)` in radians and `latRef` the reference
latitude. -/
noncomputable def toCartesian (deg R lon0 lat0 latRef : ℝ) (c : Coord ℝ) : Vec3 :=
  ((c.longitude * deg - lon0) * R * Real.cos latRef, -(c.latitude * deg - lat0) * R, -c.altitude)

/-- `transform_coordinates`, circuit_preprocessor.hpp:260-279: the origin is the first right point;
`front()` of an empty vector is undefined. -/
noncomputable def transformCoordinates (deg R : ℝ) (left right : List (Coord ℝ)) :
    Res (List Vec3 × List Vec3) :=
  match right with
  | [] => .ub
  | o :: _ =>
    let t := toCartesian deg R (o.longitude * deg) (o.latitude * deg) (o.latitude * deg)
    .ok (left.map t, right.map t)

/-! ### Heading of the initial guess -/

/-- `atan2(y, x)`. Used at circuit_preprocessor.hpp:357, 360. -/
noncomputable def atan2 (y x : ℝ) : ℝ := Complex.arg ⟨x, y⟩

/-- Headings of the chords between consecutive points, circuit_preprocessor.hpp:356-357. -/
noncomputable def chords : List (ℝ × ℝ) → List ℝ
  | a :: b :: l => atan2 (b.2 - a.2) (b.1 - a.1) :: chords (b :: l)
  | _ => []

/-- `yaw_init` in a flat computation before unwrapping, circuit_preprocessor.hpp:356-363. With fewer
than two points an open track reads `yaw_init[n_elements - 1]` out of range. -/
noncomputable def rawHeadings (closed : Bool) (pts : List (ℝ × ℝ)) : Res (List ℝ) :=
  match pts.head?, pts.getLast? with
  | some a, some b =>
    if closed then .ok (chords pts ++ [atan2 (a.2 - b.2) (a.1 - b.1)])
    else
      match (chords pts).getLast? with
      | none => .ub
      | some y => .ok (chords pts ++ [y])
  | _, _ => .ub

/-- `yaw_init[i] = yaw_init[i-1] + wrap_to_pi(yaw_init[i] - yaw_init[i-1])`,
circuit_preprocessor.hpp:367-368: the first argument after `wrap` is the continued `yaw_init[i-1]`. -/
def unwrapFrom [Add K] [Sub K] (wrap : K → K) : K → List K → List K
  | _, [] => []
  | prev, y :: l => (prev + wrap (y - prev)) :: unwrapFrom wrap (prev + wrap (y - prev)) l

/-- (1.3.1) of `compute`, circuit_preprocessor.hpp:366-368. -/
def unwrap [Add K] [Sub K] (wrap : K → K) : List K → List K
  | [] => []
  | y :: l => y :: unwrapFrom wrap y l

/-- `direction` of a closed circuit, circuit_preprocessor.hpp:371-372: the constants are at
circuit_preprocessor.h:16-17. -/
def direction [LT K] [DecidableLT K] (first last : K) : ℤ := if last > first then 1 else -1

/-- The change of heading over the closing element, circuit_preprocessor.hpp:388. -/
noncomputable def closingTurn (first last : ℝ) : ℝ :=
  first + 2 * Real.pi * (direction first last : ℤ) - last

/-! ### Frame of the initial guess -/

/-- `cross`. Used at circuit_preprocessor.hpp:336-339. -/
def crossV (a b : Vec3) : Vec3 :=
  (a.2.1 * b.2.2 - a.2.2 * b.2.1, a.2.2 * b.1 - a.1 * b.2.2, a.1 * b.2.1 - a.2.1 * b.1)

/-- `norm`. Used at circuit_preprocessor.hpp:325-339. -/
noncomputable def normV (a : Vec3) : ℝ := Real.sqrt (a.1 * a.1 + a.2.1 * a.2.1 + a.2.2 * a.2.2)

/-- `normalize()` of the lion library: division by the norm (a NaN in C++ and 0 in the model for the
null vector; theorems exclude it). Used at circuit_preprocessor.hpp:328-339. -/
noncomputable def normalizeV (a : Vec3) : Vec3 := (a.1 / normV a, a.2.1 / normV a, a.2.2 / normV a)

/-- The frame at a point of an elevated track: tangent, normal and binormal,
circuit_preprocessor.hpp:325-339; `step` is the vector to the next point and `toRight` the vector to
the right boundary. -/
noncomputable def guessFrame (step toRight : Vec3) : Vec3 × Vec3 × Vec3 :=
  let t := normalizeV step
  let b := normalizeV (crossV t toRight)
  (t, normalizeV (crossV b t), b)

end Verif.Preprocessor
