import Verif.Basic
import Verif.Model.Mesh

/-!
# Steady states and the g-g diagram

Model of `Steady_state` (src/core/applications/steady_state.h, .hpp), for any vehicle. The two variants
of every function are kept apart: `...AD` with automatic differentiation and Ipopt, `...Num` with
numerical Jacobians. The solver is a parameter that gets the whole problem; a vector that it returns
with a size different from that of the problem is undefined behaviour (it is copied into an array).
Printing is left out.
-/

set_option autoImplicit false

namespace Verif.Steady

variable {K I C D : Type*}

/-- What the application uses of a vehicle, steady_state.hpp:16-61: the number of variables, the
equations (with the inputs and controls that go with them), the evaluation of the car, `get_x`, the
initial guess, the bounds and the units of acceleration (limebeer2014f1.h:47-118). -/
structure Car (K I C D : Type*) where
  nVars : Nat
  eqs : List K → K → K → K → List K × I × C
  rate : I → C → D
  getX : I → C → K → List K
  guess : List K
  bounds : List K × List K
  boundsAcc : List K × List K
  boundsBrake : List K × List K
  cBounds : List K × List K
  units : K

/-- What is minimised: nothing (steady_state.h:73), `-x.back()` (steady_state.h:135, 193) or `x.back()`
(steady_state.h:200). -/
inductive Goal where
  | none
  | maxLast
  | minLast
  deriving DecidableEq

/-- A problem handed to a solver, steady_state.hpp:94, 203. -/
structure Nlp (K : Type*) where
  x0 : List K
  xl : List K
  xu : List K
  goal : Goal
  g : List K → List K
  cl : List K
  cu : List K

/-- `Solution`, steady_state.h:16-25. -/
structure Solution (K I C D : Type*) where
  solved : Bool
  v : K
  ax : K
  ay : K
  inputs : I
  controls : C
  rate : D
  deriving DecidableEq

/-- A solver with automatic differentiation: status `success` and `x`, steady_state.hpp:94-100. -/
abbrev SolverAD (K : Type*) := Nlp K → Bool × List K

/-- The numerical solvers, steady_state.hpp:36, 152: `Solve_nonlinear_system` with its option
`throw_if_fail`, and `Optimise`. Both may throw. -/
structure SolverNum (K : Type*) where
  find : Bool → Nlp K → Res (Bool × List K)
  optimise : Nlp K → Res (Bool × List K)

/-- Evaluation of the equations and of the car at the result, steady_state.hpp:44-60, 97-125. -/
def report (car : Car K I C D) (solved : Bool) (x : List K) (eax eay v ax ay : K) : Solution K I C D :=
  let e := car.eqs x eax eay v
  ⟨solved, v, ax, ay, e.2.1, e.2.2, car.rate e.2.1 e.2.2⟩

/-- The problem of `solve`, steady_state.hpp:16-36, 68-94, with `Solve_constraints` 884-893; the
accelerations are those that the equations get. -/
def trimProblem (car : Car K I C D) (x0 : List K) (v ax ay : K) : Nlp K :=
  ⟨x0, car.bounds.1, car.bounds.2, .none, fun x => (car.eqs x ax ay v).1, car.cBounds.1, car.cBounds.2⟩

/-- The initial point of `solve`, steady_state.hpp:16-22, 68-74. A provided point of a wrong size
violates the `assert`. -/
def startPoint (car : Car K I C D) (x0 : Option (List K)) : Res (List K) :=
  match x0 with
  | none => .ok car.guess
  | some x => if x.length = car.nVars then .ok x else .ub

/-- `solve` with automatic differentiation, steady_state.hpp:63-126. The number of steps and
`throw_if_fail` are ignored. -/
def solveAD [Field K] (car : Car K I C D) (S : SolverAD K) (v ax ay : K) (x0 : Option (List K)) :
    Res (Solution K I C D) :=
  (startPoint car x0).bind fun x0 =>
    let r := S (trimProblem car x0 v (ax / car.units) (ay / car.units))
    if r.2.length = car.nVars then
      .ok (report car r.1 r.2 (ax / car.units) (ay / car.units) v ax ay)
    else .ub

/-- The sequence of steps of `solve`, steady_state.hpp:32-40; no step at all leaves the array `x` at 44
uninitialised. -/
def continuation [Field K] (car : Car K I C D) (S : SolverNum K) (throwIfFail : Bool) (v ax ay : K)
    (n : Nat) : List Nat → List K → Res (Bool × List K)
  | [], _ => .ub
  | [i], x0 =>
    S.find throwIfFail (trimProblem car x0 v ((i : K) / (n : K) * ax) ((i : K) / (n : K) * ay))
  | i :: j :: is, x0 =>
    (S.find throwIfFail (trimProblem car x0 v ((i : K) / (n : K) * ax) ((i : K) / (n : K) * ay))).bind
      fun r => continuation car S throwIfFail v ax ay n (j :: is) r.2

/-- `solve` with numerical Jacobian, steady_state.hpp:11-61. -/
def solveNum [Field K] (car : Car K I C D) (S : SolverNum K) (v ax ay : K) (nSteps : Nat)
    (x0 : Option (List K)) (throwIfFail : Bool) : Res (Solution K I C D) :=
  (startPoint car x0).bind fun x0 =>
    (continuation car S throwIfFail v ax ay nSteps ((List.range nSteps).map (· + 1)) x0).bind fun r =>
      if r.2.length = car.nVars then .ok (report car r.1 r.2 ax ay v ax ay) else .ub

/-- The problem of `solve_max_lat_acc`, steady_state.hpp:144-152, 178-203, with
`Max_lat_acc_constraints` 895-911: the last two variables are the accelerations. -/
def latProblem [Zero K] (car : Car K I C D) (x0 : List K) (v lx ux ly uy : K) : Nlp K :=
  ⟨x0, car.bounds.1 ++ [lx, ly], car.bounds.2 ++ [ux, uy], .maxLast,
    fun x => (car.eqs (x.take car.nVars) (x.getD car.nVars 0) (x.getD (car.nVars + 1) 0) v).1,
    car.cBounds.1, car.cBounds.2⟩

/-- The problems of `solve_max_lon_acc` and of the g-g diagram, steady_state.hpp:332-339, 399-424,
492-514, with `Max_lon_acc_constraints` 913-928: the last variable is the longitudinal acceleration. -/
def lonProblem [Zero K] (car : Car K I C D) (b : List K × List K) (goal : Goal) (x0 : List K)
    (v ay l u : K) : Nlp K :=
  ⟨x0, b.1 ++ [l], b.2 ++ [u], goal,
    fun x => (car.eqs (x.take car.nVars) (x.getD car.nVars 0) ay v).1, car.cBounds.1, car.cBounds.2⟩

/-- A loop of at most `k + 1` attempts, steady_state.hpp:201-244, 422-442, 512-528: run, judge the result
and change the problem, stop when the judgement is favourable. The result and the problem of the last
attempt are returned. -/
def attempts {σ : Type*} (len : Nat) (run : σ → Bool × List K)
    (judge : σ → Bool × List K → Bool × σ) : Nat → σ → Res ((Bool × List K) × σ)
  | 0, s => if (run s).2.length = len then .ok (run s, s) else .ub
  | k + 1, s =>
    if (run s).2.length = len then
      if (judge s (run s)).1 then .ok (run s, s) else attempts len run judge k (judge s (run s)).2
    else .ub

/-- What changes between attempts at the lateral acceleration, steady_state.hpp:174-181: starting point
and bounds of the two accelerations. -/
structure LatState (K : Type*) where
  x0 : List K
  lx : K
  ux : K
  ly : K
  uy : K

/-- Judgement of an attempt at the lateral acceleration, steady_state.hpp:205-240. -/
def latJudge [Field K] [LinearOrder K] (n : Nat) (s : LatState K) (r : Bool × List K) :
    Bool × LatState K :=
  let ax := r.2.getD n 0
  let ay := r.2.getD (n + 1) 0
  let a := decide (|s.lx - ax| < 1 / 10)
  let lx := if a then s.lx - 1 / 4 * (s.ux - s.lx) else s.lx
  let b := decide (|s.ux - ax| < 1 / 10)
  let ux := if b then s.ux + 1 / 4 * (s.ux - lx) else s.ux
  let c := decide (|s.ly - ay| < 1 / 10)
  let ly := if c then s.ly - 1 / 4 * (s.uy - s.ly) else s.ly
  let d := decide (|s.uy - ay| < 1 / 10)
  let uy := if d then s.uy + 1 / 4 * (s.uy - ly) else s.uy
  (!(a || b || c || d), ⟨if a || b || c || d then r.2 else s.x0, lx, ux, ly, uy⟩)

/-- The first attempt at the lateral acceleration, steady_state.hpp:174-181. -/
def latStart [Field K] (car : Car K I C D) (zero : Solution K I C D) (v : K) : LatState K :=
  ⟨car.getX zero.inputs zero.controls v ++ [0, 0], -2 / car.units, 20 / car.units, -2 / car.units,
    20 / car.units⟩

/-- `solve_max_lat_acc` with automatic differentiation, steady_state.hpp:164-294. -/
def maxLatAD [Field K] [LinearOrder K] (car : Car K I C D) (S : SolverAD K) (v : K) :
    Res (Solution K I C D) :=
  (solveAD car S v 0 0 none).bind fun zero =>
    (attempts (car.nVars + 2) (fun s => S (latProblem car s.x0 v s.lx s.ux s.ly s.uy))
      (latJudge car.nVars) 31 (latStart car zero v)).bind fun r =>
        let x := r.1.2
        let ax := x.getD car.nVars 0
        let ay := x.getD (car.nVars + 1) 0
        .ok (report car r.1.1 (x.take car.nVars) ax ay v (ax * car.units) (ay * car.units))

/-- `solve_max_lat_acc` with numerical Jacobian, steady_state.hpp:128-162. -/
def maxLatNum [Field K] (car : Car K I C D) (S : SolverNum K) (v : K) : Res (Solution K I C D) :=
  (solveNum car S v 0 0 1 none true).bind fun zero =>
    (S.optimise (latProblem car (car.getX zero.inputs zero.controls v ++ [0, 0]) v (-2) 2 (-20) 20)).bind
      fun r =>
        if r.2.length = car.nVars + 2 then
          let ax := r.2.getD car.nVars 0
          let ay := r.2.getD (car.nVars + 1) 0
          .ok (report car r.1 (r.2.take car.nVars) ax ay v ax ay)
        else .ub

/-- What changes between attempts at the longitudinal acceleration, steady_state.hpp:396-401. -/
structure LonState (K : Type*) where
  x0 : List K
  l : K
  u : K

/-- Judgement of an attempt at the maximum, steady_state.hpp:426-441. -/
def maxJudge [Field K] [LinearOrder K] (n : Nat) (s : LonState K) (r : Bool × List K) :
    Bool × LonState K :=
  let ax := r.2.getD n 0
  let a := decide (|s.l - ax| < 1 / 100)
  let b := decide (|s.u - ax| < 1 / 5)
  (!(a || b), ⟨s.x0, if a then s.l * 2 else s.l, if b then s.u * (6 / 5) else s.u⟩)

/-- Judgement of an attempt at the minimum, steady_state.hpp:516-527. -/
def minJudge [Field K] [LinearOrder K] (n : Nat) (s : LonState K) (r : Bool × List K) :
    Bool × LonState K :=
  let ax := r.2.getD n 0
  let a := decide (|s.l - ax| < 1)
  (r.1 && !a, ⟨if a then r.2 else s.x0, if a then s.l - 1 / 4 * (s.u - s.l) else s.l, s.u⟩)

/-- The lower bound of the first attempt at the minimum, steady_state.hpp:493-499. -/
def minLower [Field K] [LinearOrder K] (units latAx : K) : K :=
  if latAx / units - 1 / 1000 < latAx / units - 10 / units then latAx / units - 10 / units
  else latAx / units - 10 / units

/-- The steady state at a given lateral acceleration from which an optimisation starts,
steady_state.hpp:321, 392, 622, 718: its longitudinal acceleration is proportional to the lateral one.
With a maximum lateral acceleration of zero the quotient is a NaN, on which the model says nothing
(`ub`). -/
def proportional [Field K] [DecidableEq K] (lat : Solution K I C D) (ay : K) : Res K :=
  if lat.ay = 0 then .ub else .ok (lat.ax * ay / lat.ay)

/-- The result of an optimisation of the longitudinal acceleration, steady_state.hpp:444-489, 531-583. -/
def lonReport [Field K] (car : Car K I C D) (r : Bool × List K) (v ay : K) : Solution K I C D :=
  report car r.1 (r.2.take car.nVars) (r.2.getD car.nVars 0) (ay / car.units) v
    (r.2.getD car.nVars 0 * car.units) ay

/-- `solve_max_lon_acc` with automatic differentiation, steady_state.hpp:369-586. -/
def maxLonAD [Field K] [LinearOrder K] (car : Car K I C D) (S : SolverAD K) (v ay : K) :
    Res (Solution K I C D × Solution K I C D) :=
  (solveAD car S v 0 0 none).bind fun zero =>
  (maxLatAD car S v).bind fun lat =>
  if lat.ay < ay then .throw else
  (proportional lat ay).bind fun axSs =>
  (solveAD car S v axSs ay (some (car.getX zero.inputs zero.controls v))).bind fun ss =>
  let x0 := car.getX ss.inputs ss.controls v ++ [ss.ax / car.units]
  (attempts (car.nVars + 1)
    (fun s => S (lonProblem car car.boundsAcc .maxLast s.x0 v (ay / car.units) s.l s.u))
    (maxJudge car.nVars) 7 ⟨x0, -2 / car.units, 10 / car.units⟩).bind fun mx =>
  (attempts (car.nVars + 1)
    (fun s => S (lonProblem car car.boundsBrake .minLast s.x0 v (ay / car.units) s.l s.u))
    (minJudge car.nVars) 29 ⟨x0, minLower car.units lat.ax, lat.ax / car.units⟩).bind fun mn =>
  .ok (lonReport car mx.1 v ay, lonReport car mn.1 v ay)

/-- An optimisation of the longitudinal acceleration with numerical Jacobian and its result,
steady_state.hpp:338-348, 355-364, 646-655, 662-671. -/
def lonNum [Field K] (car : Car K I C D) (S : SolverNum K) (goal : Goal) (x0 : List K) (v ay l u : K) :
    Res (Solution K I C D) :=
  (S.optimise (lonProblem car car.bounds goal x0 v ay l u)).bind fun r =>
    if r.2.length = car.nVars + 1 then
      .ok (report car r.1 (r.2.take car.nVars) (r.2.getD car.nVars 0) ay v (r.2.getD car.nVars 0) ay)
    else .ub

/-- `solve_max_lon_acc` with numerical Jacobian, steady_state.hpp:297-367. -/
def maxLonNum [Field K] [LinearOrder K] (car : Car K I C D) (S : SolverNum K) (v ay : K) :
    Res (Solution K I C D × Solution K I C D) :=
  (solveNum car S v 0 0 1 none true).bind fun zero =>
  (maxLatNum car S v).bind fun lat =>
  if lat.ay < ay then .throw else
  (proportional lat ay).bind fun axSs =>
  (solveNum car S v axSs ay 1 (some (car.getX zero.inputs zero.controls v)) true).bind fun ss =>
  let x0 := car.getX ss.inputs ss.controls v ++ [ss.ax / car.units]
  (lonNum car S .maxLast x0 v ay (-2) 10).bind fun mx =>
  (lonNum car S .minLast x0 v ay (-10) 2).bind fun mn =>
  .ok (mx, mn)

/-- One optimisation of a point of the g-g diagram, steady_state.hpp:748-758, 811, 820-829. -/
def ggRun [Field K] (car : Car K I C D) (S : SolverAD K) (b : List K × List K) (goal : Goal)
    (x0 : List K) (v ay l u : K) : Bool × List K :=
  S (lonProblem car b goal x0 v (ay / car.units) l u)

/-- The minimum at a point of the g-g diagram, steady_state.hpp:800-822: a second attempt from the
minimum at the previous point, if there is one. -/
def ggMin [Field K] (car : Car K I C D) (S : SolverAD K) (x0 : List K) (v ay l u : K)
    (prev : Option (Solution K I C D)) : Bool × List K :=
  match (ggRun car S car.boundsBrake .minLast x0 v ay l u).1, prev with
  | false, some p => ggRun car S car.boundsBrake .minLast
      (car.getX p.inputs p.controls v ++ [p.ax / car.units]) v ay l u
  | _, _ => ggRun car S car.boundsBrake .minLast x0 v ay l u

/-- Maximum and minimum at a point of the g-g diagram, steady_state.hpp:725-869, from the steady state
`ss`; `lat` is the solution of maximum lateral acceleration, `mx0` and `mn0` those on a straight. -/
def ggExtremes [Field K] (car : Car K I C D) (S : SolverAD K) (v : K) (lat mx0 mn0 ss : Solution K I C D)
    (prev : Option (Solution K I C D)) (ay : K) : Res (Solution K I C D × Solution K I C D) :=
  let x0 := car.getX ss.inputs ss.controls v ++ [ss.ax / car.units]
  let rmax := ggRun car S car.boundsAcc .maxLast x0 v ay
    (lat.ax / car.units - 1 / 2 / car.units) (mx0.ax / car.units + 1 / 10 / car.units)
  let rmin := ggMin car S x0 v ay (mn0.ax / car.units - 1 / 10 / car.units)
    (lat.ax / car.units + 1 / 10 / car.units) prev
  if rmax.2.length = car.nVars + 1 ∧ rmin.2.length = car.nVars + 1 then
    .ok (lonReport car rmax v ay, lonReport car rmin v ay)
  else .ub

/-- One point of the g-g diagram, steady_state.hpp:717-869. `ss` is the last steady state found, `prev`
the minimum at the previous point. `x0ss` is the start of the steady state: the declaration at 871
shadows it, so it is always that of the first point. Returned: steady state, maximum, minimum. -/
def ggPoint [Field K] [DecidableEq K] (car : Car K I C D) (S : SolverAD K) (v : K)
    (lat mx0 mn0 : Solution K I C D) (x0ss : List K) (ss : Solution K I C D)
    (prev : Option (Solution K I C D)) (ay : K) :
    Res (Solution K I C D × Solution K I C D × Solution K I C D) :=
  (proportional lat ay).bind fun axSs =>
  (solveAD car S v axSs ay (some x0ss)).bind fun cand =>
  (ggExtremes car S v lat mx0 mn0 (if cand.solved then cand else ss) prev ay).bind fun e =>
  .ok (if cand.solved then cand else ss, e)

/-- The loop over the lateral accelerations, steady_state.hpp:711-872. -/
def ggLoop [Field K] [DecidableEq K] (car : Car K I C D) (S : SolverAD K) (v : K)
    (lat mx0 mn0 : Solution K I C D) (x0ss : List K) : Solution K I C D → Option (Solution K I C D) →
    List K → Res (List (Solution K I C D) × List (Solution K I C D))
  | _, _, [] => .ok ([], [])
  | ss, prev, ay :: rest =>
    (ggPoint car S v lat mx0 mn0 x0ss ss prev ay).bind fun p =>
    (ggLoop car S v lat mx0 mn0 x0ss p.1 (some p.2.2) rest).bind fun r =>
    .ok (p.2.1 :: r.1, p.2.2 :: r.2)

/-- `gg_diagram` with automatic differentiation, steady_state.hpp:682-881. With no points `n_points-1`
wraps around and `back()` is called on an empty vector. -/
def ggAD [Field K] [LinearOrder K] (car : Car K I C D) (S : SolverAD K) (v : K) (n : Nat) :
    Res (List (Solution K I C D) × List (Solution K I C D)) :=
  (solveAD car S v 0 0 none).bind fun zero =>
  (maxLatAD car S v).bind fun lat =>
  (maxLonAD car S v 0).bind fun lon =>
  if n = 0 then .ub else
  (ggLoop car S v lat lon.1 lon.2 (car.getX zero.inputs zero.controls v) zero none
    ((Mesh.linspace lat.ay (n - 1)).take (n - 1))).bind fun r =>
  .ok (r.1 ++ [lat], r.2 ++ [lat])

/-- The loop of the numerical g-g diagram, steady_state.hpp:615-674. -/
def ggLoopNum [Field K] [DecidableEq K] (car : Car K I C D) (S : SolverNum K) (v : K)
    (lat : Solution K I C D) (x0ss : List K) : Solution K I C D → List K →
    Res (List (Solution K I C D) × List (Solution K I C D))
  | _, [] => .ok ([], [])
  | ss, ay :: rest =>
    (proportional lat ay).bind fun axSs =>
    (solveNum car S v axSs ay 1 (some x0ss) false).bind fun cand =>
    let ss := if cand.solved then cand else ss
    let x0 := car.getX ss.inputs ss.controls v ++ [ss.ax]
    (lonNum car S .maxLast x0 v ay (lat.ax - 1 / 2) 8).bind fun mx =>
    (lonNum car S .minLast x0 v ay (-8) (lat.ax + 1 / 2)).bind fun mn =>
    (ggLoopNum car S v lat x0ss ss rest).bind fun r =>
    .ok (mx :: r.1, mn :: r.2)

/-- `gg_diagram` with numerical Jacobian, steady_state.hpp:589-679, for at least two points (with one
point the division in `linspace` is by zero, on which the model says nothing: `ub`). -/
def ggNum [Field K] [LinearOrder K] (car : Car K I C D) (S : SolverNum K) (v : K) (n : Nat) :
    Res (List (Solution K I C D) × List (Solution K I C D)) :=
  (solveNum car S v 0 0 1 none true).bind fun zero =>
  (maxLatNum car S v).bind fun lat =>
  if n = 1 then .ub else
  ggLoopNum car S v lat (car.getX zero.inputs zero.controls v) zero
    (if n = 0 then [] else Mesh.linspace lat.ay (n - 1))

end Verif.Steady
