import Verif.Model.Cost

/-!
# The optimal-laptime computation from the request to the lap

Models `compute`, `compute_direct`, `compute_derivative` and `export_solution` of
src/core/applications/optimal_laptime.hpp:165-300, 485-647, 969-1137: what is handed to the
optimiser, what is done with its result, and the warm start of src/main/c/fastestlapc.cpp:1560-1568.

The optimiser (`CppAD::ipopt_cppad_solve`) is a parameter: an arbitrary function from the problem
it is given to its result. The cost-function object it evaluates keeps the inputs and controls
loaded last; the vectors at which it was evaluated are part of the result (`visited`), so that what
the object holds afterwards is modelled. Left out: the options passed to Ipopt as text, the
iteration count, the optimality check and sensitivities (see Model/Sensitivity), the coordinates
`x_coord`, `y_coord`, `psi` of the nodes, and the copies of bounds and slacks in
`optimization_data` that nothing reads.
-/

set_option autoImplicit false

namespace Verif.Transcription

open Verif.Control

variable {K : Type*}

/-- What the optimiser is given, optimal_laptime.hpp:548-553, 1033-1038: starting point, bounds of
the variables and of the constraints, for a warm start `lambda`, `zl`, `zu` in this order, and the
cost function (cost first, then the constraints) as seen from a fresh object (C188 shows that
earlier evaluations do not matter). -/
structure Nlp (K : Type*) where
  start : List K
  bounds : List (K × K)
  conBounds : List (K × K)
  warm : Option (List K × List K × List K)
  value : List K → Res (List K)

/-- `CppAD::ipopt_cppad_result`, read at optimal_laptime.hpp:556-557, 637-647, 1041-1042,
1127-1137; `visited` are the vectors at which the cost function was evaluated. -/
structure Outcome (K : Type*) where
  success : Bool
  x : List K
  zl : List K
  zu : List K
  lambda : List K
  visited : List (List K)

/-- `CppAD::ipopt_cppad_solve` (optimal_laptime.hpp:548-553, 1033-1038): any function. -/
abbrev Optimiser (K : Type*) := Nlp K → Outcome K

/-- Members of the object after the computation (optimal_laptime_data.h:32-65,
optimal_laptime.h:120-150) that are used afterwards. -/
structure Lap (K : Type*) where
  s : List K
  isClosed : Bool
  isDirect : Bool
  inputs : List (Row K)
  controls : List (CV K)
  quantities : List (Quantity K)
  laptime : K
  success : Bool
  x : List K
  zl : List K
  zu : List K
  lambda : List K

/-- The copy of values `std::transform(new.begin(), new.end(), own.begin())`,
optimal_laptime.hpp:204-222: undefined past the end of the destination, whose remaining entries
stay. -/
def copyInto (own new : List K) : Res (List K) :=
  if new.length ≤ own.length then .ok (new ++ own.drop new.length) else .ub

/-- One turn of the loop (5) of `export_solution`, optimal_laptime.hpp:199-228: `own` is the
cleared control of the result, `new` that of the cost-function object. -/
def exportControl (own new : CV K) : Res (CV K) :=
  match own.kind with
  | .constant => (copyInto own.controls new.controls).bind fun l => .ok { own with controls := l }
  | .hypermesh => (copyInto own.controls new.controls).bind fun l => .ok { own with controls := l }
  | .fullMesh =>
    (copyInto own.controls new.controls).bind fun l =>
      (copyInto own.dcontrolsDt new.dcontrolsDt).bind fun dl =>
        .ok { own with controls := l, dcontrolsDt := dl }
  | _ => .ok own

/-- Loop (5) of `export_solution`, optimal_laptime.hpp:199-228; both arrays have
`number_of_controls` entries by type. -/
def exportControls : List (CV K) → List (CV K) → Res (List (CV K))
  | c :: cs, d :: ds => (exportControl c d).bind fun e => (exportControls cs ds).bind fun es => .ok (e :: es)
  | _, _ => .ok []

/-- What `export_solution` returns (optimal_laptime.h:340-346). -/
structure Exported (K : Type*) where
  inputs : List (Row K)
  controls : List (CV K)
  quantities : List (Quantity K)

section
variable [Field K] [LinearOrder K]

/-- The initial point stored in the cost-function object (optimal_laptime.hpp:318-323, 771-776)
by the dispatch of `compute`, optimal_laptime.hpp:257-272. -/
def initialOf (v : Vehicle K) (p : Problem K) : Res (Initial K) :=
  if p.isDirect then initialDirect v p else initialDerivative v p

/-- Starting point and bounds (optimal_laptime.hpp:325-404, 778-867), by the dispatch of
`compute`, optimal_laptime.hpp:257-272. -/
def packOf (lowest max : K) (v : Vehicle K) (p : Problem K) : Res (List (Entry K)) :=
  if p.isDirect then packDirect v p lowest max else packDerivative v p lowest max

/-- Loading a vector into the cost-function object (optimal_laptime.hpp:1247-1306, 1447-1516). -/
def loadOf (v : Vehicle K) (p : Problem K) (ini : Initial K) (st : Loaded K) (x : List K) :
    Res (Loaded K × List K) :=
  if p.isDirect then loadDirect v p ini st x else loadDerivative v p ini st x

/-- Cost and constraints of the loaded vector (optimal_laptime.hpp:1308-1419, 1518-1656). -/
def evaluateOf (v : Vehicle K) (p : Problem K) (w : Bool) (st : Loaded K) : Res (Evaluation K) :=
  if p.isDirect then evaluateDirect v p w st else evaluateDerivative v p w st

/-- `operator()` of the cost-function object (optimal_laptime.h:281-287, 329-335). -/
def fgOf (v : Vehicle K) (p : Problem K) (ini : Initial K) (st : Loaded K) (x : List K) :
    Res (List K × Loaded K) :=
  if p.isDirect then fgDirect v p ini st x else fgDerivative v p ini st x

/-- What the cost-function object holds after evaluations at the vectors `xs`
(optimal_laptime.hpp:548-553, 1033-1038). -/
def visitAll (v : Vehicle K) (p : Problem K) (ini : Initial K) : List (List K) → Loaded K → Res (Loaded K)
  | [], st => .ok st
  | x :: xs, st => (fgOf v p ini st x).bind fun r => visitAll v p ini xs r.2

/-- `export_solution`, optimal_laptime.hpp:172-235: evaluates the object at `x` with all integral
quantities and copies what it holds. -/
def exportSolution (v : Vehicle K) (p : Problem K) (ini : Initial K) (st : Loaded K) (x : List K) :
    Res (Exported K × Loaded K) :=
  (loadOf v p ini st x).bind fun sx =>
  (evaluateOf v p true sx.1).bind fun e =>
  (fillFg v p e).bind fun _ =>
  (mapRes (idx sx.1.inputs) (List.range p.nPoints)).bind fun ins =>
  (exportControls (clear p.controls) sx.1.controls).bind fun cs =>
  .ok (⟨ins, cs, List.zipWith (fun q a => { q with value := a }) p.quantities e.values⟩, sx.1)

/-- The times of the nodes are written into the exported inputs, optimal_laptime.hpp:615-628,
1105-1118 (that of the first node is the one it has). -/
def setTimes (v : Vehicle K) (ins : List (Row K)) (times : List K) : List (Row K) :=
  List.zipWith (fun row t => Function.update row v.iTime t) ins times

/-- What the optimiser is given for problem `p`, optimal_laptime.hpp:300-553, 750-1038. -/
def nlpOf (v : Vehicle K) (p : Problem K) (ini : Initial K) (es : List (Entry K))
    (b : List (K × K)) : Nlp K :=
  { start := es.map Entry.start
    bounds := es.map fun e => (e.lb, e.ub)
    conBounds := b
    warm := p.warm.map fun w => (w.2.2, w.1, w.2.1)
    value := fun x => (fgOf v p ini (initialLoaded p) x).map Prod.fst }

/-- The problem of a request: everything before the optimiser is called, optimal_laptime.hpp:8-55,
242-272, 300-523, 750-1008. -/
def setUp (lowest max : K) (v : Vehicle K) (r : Request K) : Res (Problem K × Initial K × Nlp K) :=
  (prepare lowest max v r).bind fun p =>
  (initialOf v p).bind fun ini =>
  (packOf lowest max v p).bind fun es =>
  (constraintBounds v p).bind fun b =>
  (checkWarm v p).bind fun _ => .ok (p, ini, nlpOf v p ini es b)

/-- From the result of the optimiser to the lap, optimal_laptime.hpp:555-647, 1040-1137. The
derivative form evaluates the object once more before the times are computed (1089-1091). -/
def finish (v : Vehicle K) (throwIfFail : Bool) (p : Problem K) (ini : Initial K) (o : Outcome K) :
    Res (Lap K) :=
  (visitAll v p ini o.visited (initialLoaded p)).bind fun st =>
  if !o.success && throwIfFail then .throw
  else
    (exportSolution v p ini st o.x).bind fun ex =>
    (if p.isDirect then .ok ex.2 else (fgOf v p ini ex.2 o.x).map Prod.snd).bind fun st2 =>
    (report v p st2).bind fun tl =>
    .ok { s := p.s, isClosed := p.isClosed, isDirect := p.isDirect
          inputs := setTimes v ex.1.inputs tl.1
          controls := ex.1.controls, quantities := ex.1.quantities, laptime := tl.2
          success := o.success, x := o.x, zl := o.zl, zu := o.zu, lambda := o.lambda }

/-- The constructors of `Optimal_laptime` (optimal_laptime.hpp:8-55): the lap of a request.
`throwIfFail` is the option of that name (optimal_laptime.h:45, true unless set otherwise; the C API
does not set it). -/
def solveLap (lowest max : K) (v : Vehicle K) (throwIfFail : Bool) (opt : Optimiser K) (r : Request K) :
    Res (Lap K) :=
  (setUp lowest max v r).bind fun d => finish v throwIfFail d.1 d.2.1 (opt d.2.2)

/-- The request of a warm start from a saved lap, fastestlapc.cpp:1560-1568. -/
def restart (lap : Lap K) (o : Options K) : Request K :=
  ⟨lap.s, lap.isClosed, lap.isDirect, lap.inputs, lap.controls, some (lap.zl, lap.zu, lap.lambda), o⟩

end

end Verif.Transcription
