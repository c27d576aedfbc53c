import Verif.Model.Centreline

/-!
# The fit of a circuit

Model of `Circuit_preprocessor::compute` (src/core/applications/circuit_preprocessor.hpp:282-757) from
the centreline estimate to the circuit, and of the constructors that call it
(circuit_preprocessor.h:76-213). The optimiser (`CppAD::ipopt_cppad_solve`) is a parameter: any function.
Left out: the options passed to Ipopt as text (603-613) and the kerbs (730-757, see Model/Kerb and
Model/Path).
-/

set_option autoImplicit false

namespace Verif.Fit

open Verif.Road (Vec3)
open Verif.Preprocessor

/-! ### Starting guess -/

/-- The vectors from every point to the next one, circuit_preprocessor.hpp:325-330: the closing one in a
closed circuit, the last one again in an open one (`tangent_dir_init[n_elements - 1]` is out of range
with a single point). The code normalises them first. -/
noncomputable def steps (closed : Bool) (r : List Vec3) : Res (List Vec3) :=
  match r.head?, r.getLast? with
  | some a, some b =>
    if closed then .ok (differences r ++ [a - b])
    else
      match (differences r).getLast? with
      | none => .ub
      | some d => .ok (differences r ++ [d])
  | _, _ => .ub

/-- `yaw_init`, `pitch_init`, `roll_init` before unwrapping, circuit_preprocessor.hpp:319-364: with
elevation the Euler angles of the frame, without it the heading of the chord and zeros. -/
noncomputable def angles (lib : Library) (k : Kind) (closed : Bool) (c : Centerline) :
    Res (List (ℝ × ℝ × ℝ)) :=
  match k with
  | .elevated =>
    (steps closed c.r).map fun ts => (ts.zip c.toRight).map fun p => lib.euler (guessFrame p.1 p.2)
  | .flat =>
    (rawHeadings closed (c.r.map fun p => (p.1, p.2.1))).map fun l => l.map fun y => (y, 0, 0)

/-- A derivative by differences, circuit_preprocessor.hpp:375-404 and 432-465: divided by the difference
of the arclengths; over the closing element the value is changed by `turn` and divided by the distance
of the two points, in an open circuit the last one is repeated. -/
noncomputable def slopes (closed : Bool) (s v : List ℝ) (turn chord : ℝ) : Res (List ℝ) :=
  let inner := List.zipWith (· / ·) (differences v) (differences s)
  match v.head?, v.getLast? with
  | some a, some b =>
    if closed then .ok (inner ++ [(a + turn - b) / chord])
    else
      match inner.getLast? with
      | none => .ub
      | some d => .ok (inner ++ [d])
  | _, _ => .ub

/-- `nl_init` and `nr_init`, circuit_preprocessor.hpp:406-429: distances to the measured boundaries
without elevation, the half-width of the estimate with it. -/
noncomputable def widths (lib : Library) (k : Kind) (closed : Bool) (dmax : ℝ) (left right : List Vec3)
    (c : Centerline) : List ℝ × List ℝ :=
  match k with
  | .flat =>
    ((follow (fun p i => lib.find left p closed i dmax) 0 c.r).map fun f => Real.sqrt f.2,
     (follow (fun p i => lib.find right p closed i dmax) 0 c.r).map fun f => Real.sqrt f.2)
  | .elevated => (c.toRight.map normV, c.toRight.map normV)

/-- The sixteen vectors `*_init` and `direction`, circuit_preprocessor.hpp:290-465. All of them have
`n_points` entries (291-307), so that reading them is in range. Without elevation pitch, roll and their
derivatives keep the zeros of their construction, which is what `slopes` gives for them; `direction` of an
open circuit is 0 (circuit_preprocessor.h:192). -/
noncomputable def startGuess (lib : Library) (k : Kind) (closed : Bool) (dmax : ℝ)
    (left right : List Vec3) (c : Centerline) : Res (List (Point ℝ) × ℤ) :=
  (angles lib k closed c).bind fun ang =>
  let yaw := unwrap lib.wrap (ang.map fun a => a.1)
  let pitch := ang.map fun a => a.2.1
  let roll := ang.map fun a => a.2.2
  let dir : ℤ := if closed then direction (yaw.headD 0) (yaw.getLastD 0) else 0
  let chord := distance (c.r.getLastD 0) (c.r.headD 0)
  let w := widths lib k closed dmax left right c
  (slopes closed c.s yaw (2 * Real.pi * dir) chord).bind fun yawDot =>
  (slopes closed c.s pitch 0 chord).bind fun pitchDot =>
  (slopes closed c.s roll 0 chord).bind fun rollDot =>
  (slopes closed c.s yawDot 0 chord).bind fun dyawDot =>
  (slopes closed c.s pitchDot 0 chord).bind fun dpitchDot =>
  (slopes closed c.s rollDot 0 chord).bind fun drollDot =>
  (slopes closed c.s w.1 0 chord).bind fun dnl =>
  (slopes closed c.s w.2 0 chord).bind fun dnr =>
  .ok ((List.range c.r.length).map fun i =>
    { x := (c.r.getD i 0).1, y := (c.r.getD i 0).2.1
      z := match k with | .elevated => (c.r.getD i 0).2.2 | .flat => 0
      yaw := yaw.getD i 0, pitch := pitch.getD i 0, roll := roll.getD i 0
      yawDot := yawDot.getD i 0, pitchDot := pitchDot.getD i 0, rollDot := rollDot.getD i 0
      nl := w.1.getD i 0, nr := w.2.getD i 0
      dyawDot := dyawDot.getD i 0, dpitchDot := dpitchDot.getD i 0, drollDot := drollDot.getD i 0
      dnl := dnl.getD i 0, dnr := dnr.getD i 0 }, dir)

/-! ### The problem given to the optimiser -/

/-- The options used by the fit, circuit_preprocessor.h:29-46, and the constant `DEG`. -/
structure Settings where
  weights : Weights
  limits : Limits ℝ
  dmax : ℝ
  deg : ℝ

/-- (4) and the searches in (5) of `FG::operator()`, circuit_preprocessor.hpp:1505-1515, 1522-1528: the
nodes with their squared distances. The argument `closed` of the searches is always true. -/
noncomputable def nodesOf (lib : Library) (k : Kind) (dmax : ℝ) (left right centreline : List Vec3)
    (qs : List ((Nat → ℝ) × (Nat → ℝ))) : List Node :=
  let dist := fun (line : List Vec3) (side : (Nat → ℝ) → Vec3) =>
    (follow (fun p i => lib.find line p true i dmax) 0 (qs.map fun q => side q.1)).map Prod.snd
  (qs.zip ((dist left (leftBoundary k)).zip ((dist right (rightBoundary k)).zip
    (dist centreline (centre k))))).map fun z => ⟨z.1.1, z.1.2, z.2.1, z.2.2.1, z.2.2.2⟩

/-- What the optimiser is given, circuit_preprocessor.hpp:619: starting point, bounds, the number of
constraints, which all have the bounds 0, and the function (cost first, then the constraints). -/
structure Nlp where
  start : List ℝ
  lower : List ℝ
  upper : List ℝ
  nConstraints : Nat
  value : List ℝ → Res (List ℝ)

/-- `CppAD::ipopt_cppad_result`, circuit_preprocessor.hpp:616, 621, 644-651. -/
structure Outcome where
  success : Bool
  x : List ℝ

/-- `CppAD::ipopt_cppad_solve` (circuit_preprocessor.hpp:619): any function. -/
abbrev Optimiser := Nlp → Outcome

/-- (2) of `compute`: the members of `FG`, circuit_preprocessor.hpp:477 and circuit_preprocessor.h:270-289;
`front()` and `back()` of empty boundaries are undefined (1570, 1577). -/
noncomputable def problemOf (st : Settings) (k : Kind) (closed : Bool) (left right : List Vec3)
    (ds : List ℝ) (dir : ℤ) : Res Problem :=
  match left.head?, left.getLast?, right.head?, right.getLast? with
  | some lf, some ll, some rf, some rl => .ok ⟨k, closed, ds, dir, st.weights, lf, rf, ll, rl⟩
  | _, _, _, _ => .ub

/-- `FG::operator()`, circuit_preprocessor.hpp:1475-1583. -/
noncomputable def value (lib : Library) (st : Settings) (p : Problem) (left right centreline : List Vec3)
    (nPoints nElements : Nat) (x : List ℝ) : Res (List ℝ) :=
  (load p.kind nPoints x).bind fun r =>
    (fgVector p nElements r.1 (nodesOf lib p.kind st.dmax left right centreline r.2.1)).map Prod.fst

/-- Everything `compute` prepares, circuit_preprocessor.hpp:290-619. -/
structure Setup where
  guess : List (Point ℝ)
  ds : List ℝ
  problem : Problem
  nlp : Nlp

/-- (1)-(7) of `compute`, circuit_preprocessor.hpp:290-619. -/
noncomputable def setup (lib : Library) (st : Settings) (k : Kind) (closed : Bool)
    (left right : List Vec3) (c : Centerline) : Res Setup :=
  (startGuess lib k closed st.dmax left right c).bind fun g =>
  (elementDs closed c.s c.length).bind fun ds =>
  (problemOf st k closed left right ds g.2).bind fun p =>
  (pack k g.1).bind fun x => (packLower st.deg st.limits k g.1).bind fun lo =>
  (packUpper st.deg st.limits k g.1).bind fun up =>
  let nPoints := c.r.length
  let nElements := if closed then nPoints else nPoints - 1
  .ok ⟨g.1, ds, p, ⟨x.1, lo.1, up.1, nConstraints k closed nElements,
    value lib st p left right c.r nPoints nElements⟩⟩

/-! ### The circuit -/

/-- The members of `Circuit_preprocessor` that `compute` fills, circuit_preprocessor.hpp:625-728. -/
structure Fitted where
  s : List ℝ
  length : ℝ
  points : List (Point ℝ)
  left : List Vec3
  right : List Vec3
  centre : List Vec3
  leftError : ℝ × ℝ
  rightError : ℝ × ℝ
  direction : ℤ

/-- The maximum and the mean square error of one boundary, circuit_preprocessor.hpp:680-728: the first
point is searched from the first index without a limit of distance. -/
noncomputable def boundaryErrors (lib : Library) (closed : Bool) (dmax : ℝ) (measured line : List Vec3)
    (s : List ℝ) (length : ℝ) : Res (ℝ × ℝ) :=
  match line, s with
  | p :: rest, s₀ :: ss =>
    .ok (errors closed length
      (s₀, Real.sqrt (lib.find measured p closed 0 1000000000000000000).2.1)
      (ss.zip ((follow (fun q i => lib.find measured q closed i dmax) 0 rest).map fun f => Real.sqrt f.2)))
  | _, _ => .ub

/-- What is done with the result of the optimiser, circuit_preprocessor.hpp:621-728. -/
noncomputable def finish (lib : Library) (st : Settings) (k : Kind) (closed : Bool)
    (left right : List Vec3) (nPoints : Nat) (su : Setup) (o : Outcome) : Res Fitted :=
  if o.success then
    (idx o.x 0).bind fun f =>
    (arclengths closed f nPoints su.ds).bind fun sl =>
    (mapRes (unpackArrays k o.x) (List.range nPoints)).bind fun qs =>
    let l := qs.map fun q => leftBoundary k q.1
    let r := qs.map fun q => rightBoundary k q.1
    (boundaryErrors lib closed st.dmax left l sl.1 sl.2).bind fun el =>
    (boundaryErrors lib closed st.dmax right r sl.1 sl.2).bind fun er =>
    .ok ⟨sl.1, sl.2, qs.map fun q => store k q.1 q.2, l, r, qs.map fun q => centre k q.1, el, er,
      su.problem.direction⟩
  else .throw

/-- `compute`, circuit_preprocessor.hpp:282-728. -/
noncomputable def compute (lib : Library) (opt : Optimiser) (st : Settings) (k : Kind) (closed : Bool)
    (left right : List Vec3) (c : Centerline) : Res Fitted :=
  (setup lib st k closed left right c).bind fun su =>
    finish lib st k closed left right c.r.length su (opt su.nlp)

/-! ### The constructors -/

/-- What the constructors are given besides the coordinates: a number of elements
(circuit_preprocessor.h:76-102), breakpoints (104-145), a distribution (147-178), or start, finish and a
number of elements of an open circuit (180-212). -/
inductive Request where
  | elements (n : Nat)
  | breakpoints (sizes : List (Coord ℝ × ℝ))
  | distribution (f : ℝ → ℝ) (sEnd dsEnd : ℝ)
  | openElements (start finish : Mesh.Flat ℝ) (n : Nat)

/-- Whether a request is for a closed circuit, circuit_preprocessor.h:85, 113, 157, 191. -/
def Request.closed : Request → Bool
  | .openElements .. => false
  | _ => true

/-- The mesh of a request: breakpoints are converted with the origin of the boundaries and height 0,
circuit_preprocessor.h:119-127; `origin` is the first right point. -/
noncomputable def Request.meshing (deg R : ℝ) (origin : Coord ℝ) : Request → Meshing
  | .elements n => .equispaced n
  | .breakpoints sizes => .breakpoints (sizes.map fun b =>
      let v := toCartesian deg R (origin.longitude * deg) (origin.latitude * deg) (origin.latitude * deg) b.1
      ((v.1, v.2.1, 0), b.2))
  | .distribution f sEnd dsEnd => .distribution f sEnd dsEnd
  | .openElements _ _ n => .equispaced n

/-- The coordinates a request works on: trimmed to start and finish in an open circuit,
circuit_preprocessor.h:195. The searches of `trim_coordinates` are arguments. -/
noncomputable def Request.coordinates (find : List (Coord ℝ) → Mesh.Flat ℝ → Mesh.Closest (Mesh.Flat ℝ))
    (left right : List (Coord ℝ)) : Request → Res (List (Coord ℝ) × List (Coord ℝ))
  | .openElements start finish _ => Mesh.trim (find left) (find right) left right start finish
  | _ => .ok (left, right)

/-- The constructors, circuit_preprocessor.h:76-212. -/
noncomputable def preprocess (lib : Library)
    (find : List (Coord ℝ) → Mesh.Flat ℝ → Mesh.Closest (Mesh.Flat ℝ)) (opt : Optimiser) (st : Settings)
    (ratio R : ℝ) (k : Kind) (req : Request) (left right : List (Coord ℝ)) (fuel : Nat) :
    Option (Res Fitted) :=
  andThen (some (req.coordinates find left right)) fun lr =>
  andThen (some (transformCoordinates st.deg R lr.1 lr.2)) fun m =>
  andThen (some (idx lr.2 0)) fun origin =>
  andThen (averaged lib req.closed ratio st.dmax (req.meshing st.deg R origin) m.1 m.2 fuel) fun c =>
  some (compute lib opt st k req.closed m.1 m.2 c)

end Verif.Fit
