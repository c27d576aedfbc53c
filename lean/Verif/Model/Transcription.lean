import Verif.Model.Control
import Mathlib.Logic.Function.Basic

/-!
# Transcription of the optimal-laptime problem: request checks, packing, loading

Models src/core/applications/optimal_laptime.hpp (constructors, `check_inputs`, the packing part
of `compute_direct` and `compute_derivative`, the loading part of `FG_direct::compute` and
`FG_derivative::compute`), the sizes of src/core/applications/optimal_laptime.h:186-346 and
src/core/applications/detail/optimal_laptime_data.h:18-30.

Simplifications used throughout:
* `scalar` and `CppAD::AD<scalar>` are one exact ordered field `K`.
* `std::array<scalar,N>` indexed by loops with compile-time bounds is a function `Nat → K`
  (`Row`); `std::vector` is `List` with `idx` (undefined behaviour out of range).
* the vehicle is a record of what the transcription reads from it. Evaluating the vehicle is a
  function of inputs, controls and arclength; what C++ reads afterwards from the mutable vehicle
  (extra constraints, integral quantities) is part of that function's result.
* logging and Ipopt options are left out.
-/

set_option autoImplicit false

namespace Verif.Transcription

open Verif.Control

variable {K : Type*}

/-- `std::array<scalar,N>`, read at indices below `N` only (optimal_laptime.h:230-240). -/
abbrev Row (K : Type*) := Nat → K

/-- Characters of an integral-quantity name (optimal_laptime.h:130-160). -/
abbrev Name := List Char

/-- What one evaluation of the vehicle gives: `states`, `dstates_dt`, the extra constraints
(`optimal_laptime_extra_constraints()`) and the integral quantities
(`compute_integral_quantities()`) (dynamic_model_car.h:86-90, limebeer2014f1.h:266-310). -/
structure Eqs (K : Type*) where
  states : Row K
  dstates : Row K
  extra : Row K
  integrals : Row K

/-- What the transcription reads from `Dynamic_model_t` (optimal_laptime.hpp:300-480). -/
structure Vehicle (K : Type*) where
  /-- `number_of_inputs` -/
  nInputs : Nat
  /-- `Road_type::input_names::time`; `lateral_displacement` is the next index
  (static_assert, optimal_laptime.hpp:345-348 and 798-801) -/
  iTime : Nat
  /-- `Road_type::state_names::time` -/
  sTime : Nat
  /-- `N_OL_EXTRA_CONSTRAINTS` -/
  nExtra : Nat
  /-- `classify_equations()` -/
  timeIds : List Nat
  algIds : List Nat
  /-- `get_state_and_control_upper_lower_and_default_values().controls_def` -/
  controlsDef : List K
  /-- `optimal_laptime_derivative_control_bounds()`: two vectors whose length is chosen by the vehicle
  (limebeer2014f1.h:227-230 returns three entries for its four controls) -/
  dcontrolsLb : List K
  dcontrolsUb : List K
  /-- `optimal_laptime_extra_constraints_bounds(s)` -/
  extraLb : K → Row K
  extraUb : K → Row K
  /-- `get_road().track_length()`, `get_left_track_limit(s)`, `get_right_track_limit(s)` -/
  trackLength : K
  leftLimit : K → K
  rightLimit : K → K
  /-- `Integral_quantities::names` -/
  integralNames : List Name
  /-- `operator()(inputs, controls, s)` -/
  eval : Row K → List K → K → Eqs K
  /-- `is_ready()` -/
  ready : Bool

/-- `Integral_quantity`, src/core/applications/optimal_laptime.h:133-140 (the name is the index
in the vehicle's table). -/
structure Quantity (K : Type*) where
  value : K
  restrict : Bool
  lowerBound : K
  upperBound : K
  deriving DecidableEq, Repr

/-- The bounds and the requested integral constraints of `Options`,
src/core/applications/optimal_laptime.h:33-58. -/
structure Options (K : Type*) where
  inputsLb : Row K
  inputsUb : Row K
  controlsLb : Row K
  controlsUb : Row K
  /-- requested integral constraints: name, lower bound, upper bound -/
  integral : List (Name × K × K)
  sigma : K

/-- Arguments of the constructors, optimal_laptime.hpp:8-11 and 31-39; `warm` holds
`zl`, `zu`, `lambda` of the second one. -/
structure Request (K : Type*) where
  s : List K
  isClosed : Bool
  isDirect : Bool
  inputs : List (Row K)
  controls : List (CV K)
  warm : Option (List K × List K × List K)
  opts : Options K

/-- The object after the constructor's checks: members of `Optimal_laptime_data`
(optimal_laptime_data.h:32-65) and `integral_quantities`. -/
structure Problem (K : Type*) where
  s : List K
  isClosed : Bool
  isDirect : Bool
  nPoints : Nat
  nElements : Nat
  inputs : List (Row K)
  controls : List (CV K)
  stats : Stats
  quantities : List (Quantity K)
  warm : Option (List K × List K × List K)
  opts : Options K

/-! ## `check_inputs` -/

/-- Loop over the full-mesh controls, optimal_laptime.hpp:108-127. -/
def checkControls (isDirect : Bool) (n : Nat) : List (CV K) → Res Unit
  | [] => .ok ()
  | c :: cs =>
    if c.kind = .fullMesh then
      if c.controls.length ≠ n then .throw
      else if isDirect then
        if c.dcontrolsDt.length ≠ 0 then .throw else checkControls isDirect n cs
      else
        if c.dcontrolsDt.length ≠ n then .throw else checkControls isDirect n cs
    else checkControls isDirect n cs

/-- `std::find` over the table of names, optimal_laptime.hpp:144-146: position of the first
equal entry, or the length of the table. -/
def findName (names : List Name) (nm : Name) : Nat := names.findIdx (fun a => decide (a = nm))

/-- Loop (4.2) of `check_inputs`, optimal_laptime.hpp:141-161. -/
def setQuantities (names : List Name) : List (Name × K × K) → List (Quantity K) → Res (List (Quantity K))
  | [], qs => .ok qs
  | r :: rs, qs =>
    let k := findName names r.1
    if k = names.length then .throw
    else (idx qs k).bind fun q =>
      setQuantities names rs (qs.set k { q with restrict := true, lowerBound := r.2.1, upperBound := r.2.2 })

/-- `check_inputs`, optimal_laptime.hpp:59-162. `lowest`/`max` are
`std::numeric_limits<scalar>::lowest()/max()`. The controls have been validated before
(`controls_start.check()`, l. 19 and 47). -/
def checkInputs [Field K] [LinearOrder K] (lowest max : K) (v : Vehicle K) (r : Request K)
    (cs : List (CV K)) (st : Stats) : Res (Problem K) :=
  if r.s.length ≤ 1 then .throw
  else
    let n := r.s.length
    let nElements := if r.isClosed then n else n - 1
    let L := v.trackLength
    (idx r.s 0).bind fun s0 => (idx r.s (n - 1)).bind fun sEnd =>
    if r.isClosed ∧ |s0| > (1 : K) / 10 ^ 12 then .throw
    else if r.isClosed ∧ sEnd > L - (1 : K) / 10 ^ 10 then .throw
    else if ¬ r.isClosed ∧ s0 < -((1 : K) / 10 ^ 12) then .throw
    else if ¬ r.isClosed ∧ sEnd > L then .throw
    else
      let s := if r.isClosed then r.s.set 0 0 else r.s
      if r.inputs.length ≠ n then .throw
      else (checkControls r.isDirect n cs).bind fun _ =>
        (setQuantities v.integralNames r.opts.integral
          (v.integralNames.map fun _ => ⟨0, false, lowest, max⟩)).bind fun qs =>
        .ok { s := s, isClosed := r.isClosed, isDirect := r.isDirect, nPoints := n,
              nElements := nElements, inputs := r.inputs, controls := cs, stats := st,
              quantities := qs, warm := r.warm, opts := r.opts }

/-- Constructor up to the start of the computation: `controls_start.check()`, `check_inputs`,
and the `is_ready` test of `compute`, optimal_laptime.hpp:8-27, 30-55, 242-254. -/
def prepare [Field K] [LinearOrder K] (lowest max : K) (v : Vehicle K) (r : Request K) :
    Res (Problem K) :=
  (check r.controls).bind fun cst =>
    (checkInputs lowest max v r cst.1 cst.2).bind fun p =>
      if v.ready then .ok p else .throw

/-! ## Sizes -/

/-- `n_variables_per_point`, optimal_laptime_data.h:19-23. -/
def nVariablesPerPoint (v : Vehicle K) (isDirect : Bool) (st : Stats) : Nat :=
  v.nInputs - 1 + (if isDirect then 1 else 2) * st.nFull

/-- `n_constraints_per_element`, optimal_laptime_data.h:25-30. -/
def nConstraintsPerElement (v : Vehicle K) (isDirect : Bool) (st : Stats) : Nat :=
  v.nInputs - 1 + v.nExtra + (if isDirect then 0 else st.nFull)

/-- `Integral_quantities::get_n_restricted`, optimal_laptime.h:147. -/
def nRestricted (qs : List (Quantity K)) : Nat := qs.countP (·.restrict)

/-- `n_variables` given to `FG`, optimal_laptime.h:266-268 and 314-316. -/
def nVariables (v : Vehicle K) (p : Problem K) : Nat :=
  p.nElements * nVariablesPerPoint v p.isDirect p.stats + p.stats.nConstant + p.stats.nHypermesh

/-- `n_constraints` given to `FG`, optimal_laptime.h:269-270 and 317-318. -/
def nConstraints (v : Vehicle K) (p : Problem K) : Nat :=
  p.nElements * nConstraintsPerElement v p.isDirect p.stats + nRestricted p.quantities

/-! ## Packing -/

/-- One optimisation variable: starting value, lower and upper bound. The three vectors
`x_start`, `x_lb`, `x_ub` are always written at the same index (optimal_laptime.hpp:333-400). -/
structure Entry (K : Type*) where
  start : K
  lb : K
  ub : K
  deriving DecidableEq, Repr

/-- Successive writes `x[k] = w; k.increment()` into a vector whose size was fixed before:
undefined behaviour past its end. Returns the vector and the final counter
(optimal_laptime.hpp:333-400, 786-865). -/
def storeAll {α : Type*} (x : List α) (k : Nat) : List α → Res (List α × Nat)
  | [] => .ok (x, k)
  | w :: ws => if k < x.length then storeAll (x.set k w) (k + 1) ws else .ub

/-- Loop over the inputs with indices `js`: (3.1) and (3.3) of `compute_direct`
(optimal_laptime.hpp:335-342, 355-362) and of `compute_derivative` (788-795, 808-815). -/
def inputEntries (o : Options K) (row : Row K) (js : List Nat) : List (Entry K) :=
  js.map fun j => ⟨row j, o.inputsLb j, o.inputsUb j⟩

/-- Loop over the full-mesh controls at node `i`: (3.5) of `compute_direct`
(optimal_laptime.hpp:364-374) and of `compute_derivative` (817-826). `j` is the index of the
control in the array. -/
def fullEntries (lb ub : Row K) (i : Nat) : List (CV K) → Nat → Res (List (Entry K))
  | [], _ => .ok []
  | c :: cs, j =>
    if c.kind = .fullMesh then
      (idx c.controls i).bind fun a => (fullEntries lb ub i cs (j + 1)).bind fun es =>
        .ok (⟨a, lb j, ub j⟩ :: es)
    else fullEntries lb ub i cs (j + 1)

/-- Loop over the derivatives of the full-mesh controls at node `i`: (3.6) of
`compute_derivative`, optimal_laptime.hpp:829-839. The bounds are read with `operator[]` of a
vector: undefined when the vehicle gives none for this control. -/
def fullDerivativeEntries (lb ub : List K) (i : Nat) : List (CV K) → Nat → Res (List (Entry K))
  | [], _ => .ok []
  | c :: cs, j =>
    if c.kind = .fullMesh then
      (idx c.dcontrolsDt i).bind fun a => (idx lb j).bind fun l => (idx ub j).bind fun u =>
        (fullDerivativeEntries lb ub i cs (j + 1)).bind fun es =>
          .ok (⟨a, l, u⟩ :: es)
    else fullDerivativeEntries lb ub i cs (j + 1)

/-- The inputs packed at node `i`: (3.1)-(3.3), optimal_laptime.hpp:335-362 (direct) and
788-815 (derivative): indices before the time, the lateral displacement with the track limits,
the indices after it. -/
def packInputs [Neg K] (v : Vehicle K) (o : Options K) (si : K) (row : Row K) : List (Entry K) :=
  inputEntries o row (List.range v.iTime)
    ++ [⟨row (v.iTime + 1), -(v.leftLimit si), v.rightLimit si⟩]
    ++ inputEntries o row (List.range' (v.iTime + 2) (v.nInputs - (v.iTime + 2)))

/-- One node of `compute_direct`, optimal_laptime.hpp:333-375. -/
def packNodeDirect [Neg K] (v : Vehicle K) (p : Problem K) (i : Nat) : Res (List (Entry K)) :=
  (idx p.inputs i).bind fun row => (idx p.s i).bind fun si =>
    (fullEntries p.opts.controlsLb p.opts.controlsUb i p.controls 0).bind fun es =>
      .ok (packInputs v p.opts si row ++ es)

/-- One node of `compute_derivative`, optimal_laptime.hpp:786-840. -/
def packNodeDerivative [Neg K] (v : Vehicle K) (p : Problem K) (i : Nat) : Res (List (Entry K)) :=
  (idx p.inputs i).bind fun row => (idx p.s i).bind fun si =>
    (fullEntries p.opts.controlsLb p.opts.controlsUb i p.controls 0).bind fun es =>
    (fullDerivativeEntries v.dcontrolsLb v.dcontrolsUb i p.controls 0).bind fun ds =>
      .ok (packInputs v p.opts si row ++ es ++ ds)

/-- (3.6) of `compute_direct`, optimal_laptime.hpp:377-404: constant and hypermesh controls. -/
def restEntriesDirect (lb ub : Row K) : List (CV K) → Nat → List (Entry K)
  | [], _ => []
  | c :: cs, j =>
    (match c.kind with
      | .constant => c.controls.map fun a => ⟨a, lb j, ub j⟩
      | .hypermesh => c.controls.map fun a => ⟨a, lb j, ub j⟩
      | _ => []) ++ restEntriesDirect lb ub cs (j + 1)

/-- (3.7) of `compute_derivative`, optimal_laptime.hpp:842-867. The `CONSTANT` case has no
`break` and falls into the `HYPERMESH` case, so its values are written twice. -/
def restEntriesDerivative (lb ub : Row K) : List (CV K) → Nat → List (Entry K)
  | [], _ => []
  | c :: cs, j =>
    (match c.kind with
      | .constant => (c.controls.map fun a => ⟨a, lb j, ub j⟩) ++ c.controls.map fun a => ⟨a, lb j, ub j⟩
      | .hypermesh => c.controls.map fun a => ⟨a, lb j, ub j⟩
      | _ => []) ++ restEntriesDerivative lb ub cs (j + 1)

/-- `offset`, optimal_laptime.hpp:331, 784, 1267, 1469: index of the first optimised node. -/
def offset (isClosed : Bool) : Nat := if isClosed then 0 else 1

/-- The node loop: indices `offset, …, n_points - 1` (optimal_laptime.hpp:333, 786). -/
def nodeIndices (p : Problem K) : List Nat :=
  List.range' (offset p.isClosed) (p.nPoints - offset p.isClosed)

/-- Everything `compute_direct` writes into the vectors, in order, optimal_laptime.hpp:330-404. -/
def emitDirect [Neg K] (v : Vehicle K) (p : Problem K) : Res (List (Entry K)) :=
  (mapRes (packNodeDirect v p) (nodeIndices p)).bind fun nodes =>
    .ok (nodes.flatten ++ restEntriesDirect p.opts.controlsLb p.opts.controlsUb p.controls 0)

/-- Everything `compute_derivative` writes into the vectors, in order,
optimal_laptime.hpp:783-867. -/
def emitDerivative [Neg K] (v : Vehicle K) (p : Problem K) : Res (List (Entry K)) :=
  (mapRes (packNodeDerivative v p) (nodeIndices p)).bind fun nodes =>
    .ok (nodes.flatten ++ restEntriesDerivative p.opts.controlsLb p.opts.controlsUb p.controls 0)

/-- The vectors of starting point and bounds: `n_variables` entries, filled by the writes, and the
check of the counter, optimal_laptime.hpp:325-404, 485-491 (direct), 778-867, 969-975
(derivative). -/
def fillVariables [Zero K] (v : Vehicle K) (p : Problem K) (lowest max : K) (es : List (Entry K)) :
    Res (List (Entry K)) :=
  (storeAll (List.replicate (nVariables v p) ⟨0, lowest, max⟩) 0 es).bind fun xk =>
    if xk.2 ≠ nVariables v p then .throw else .ok xk.1

/-- Starting point and bounds of a direct simulation (optimal_laptime.hpp:300-405). -/
def packDirect [Field K] (v : Vehicle K) (p : Problem K) (lowest max : K) : Res (List (Entry K)) :=
  (emitDirect v p).bind (fillVariables v p lowest max)

/-- Starting point and bounds of a derivative simulation (optimal_laptime.hpp:750-868). -/
def packDerivative [Field K] (v : Vehicle K) (p : Problem K) (lowest max : K) :
    Res (List (Entry K)) :=
  (emitDerivative v p).bind (fillVariables v p lowest max)

/-! ## Bounds of the constraints -/

/-- Bounds of the constraints of one element whose right end is at arclength `si`: (4.1)-(4.4)
and (5.1)-(5.4) of both formulations, optimal_laptime.hpp:417-440, 448-471 (direct), 879-902,
921-944 (derivative). -/
def elementBounds [Zero K] (v : Vehicle K) (si : K) : List (K × K) :=
  v.timeIds.map (fun _ => (0, 0)) ++ v.algIds.map (fun _ => (0, 0))
    ++ (List.range v.nExtra).map fun j => (v.extraLb si j, v.extraUb si j)

/-- Rows of the control derivatives, optimal_laptime.hpp:904-913, 946-955. -/
def controlRowBounds [Zero K] : List (CV K) → List (K × K)
  | [] => []
  | c :: cs => if c.kind = .fullMesh then (0, 0) :: controlRowBounds cs else controlRowBounds cs

/-- (6): bounds of the restricted integral quantities, optimal_laptime.hpp:474-483, 958-967. -/
def quantityBounds : List (Quantity K) → List (K × K)
  | [] => []
  | q :: qs => if q.restrict then (q.lowerBound, q.upperBound) :: quantityBounds qs else quantityBounds qs

/-- Everything written into `c_lb`, `c_ub`: nodes `1 … n-1`, then the periodic element, then the
integral quantities, optimal_laptime.hpp:412-483 (direct), 874-967 (derivative). -/
def emitBounds [Zero K] (v : Vehicle K) (p : Problem K) : Res (List (K × K)) :=
  let rows := fun si => elementBounds v si ++ (if p.isDirect then [] else controlRowBounds p.controls)
  (mapRes (fun i => (idx p.s i).bind fun si => .ok (rows si)) (List.range' 1 (p.nPoints - 1))).bind
    fun els =>
    (if p.isClosed then (idx p.s 0).bind fun s0 => .ok (rows s0) else .ok []).bind fun last =>
      .ok (els.flatten ++ last ++ quantityBounds p.quantities)

/-- `c_lb`, `c_ub` with the check of the counter, optimal_laptime.hpp:406-498, 869-982. -/
def constraintBounds [Zero K] (v : Vehicle K) (p : Problem K) : Res (List (K × K)) :=
  (emitBounds v p).bind fun bs =>
    (storeAll (List.replicate (nConstraints v p) (0, 0)) 0 bs).bind fun xk =>
      if xk.2 ≠ nConstraints v p then .throw else .ok xk.1

/-- Warm-start size checks, optimal_laptime.hpp:500-523, 985-1008. -/
def checkWarm (v : Vehicle K) (p : Problem K) : Res Unit :=
  match p.warm with
  | none => .ok ()
  | some (zl, zu, lambda) =>
    if zl.length ≠ nVariables v p then .throw
    else if zu.length ≠ nVariables v p then .throw
    else if lambda.length ≠ nConstraints v p then .throw
    else .ok ()

/-! ## Loading -/

/-- The mutable part of `FG` that the loader writes: `_inputs` and `_controls` (optimal_laptime.h:233-236). -/
structure Loaded (K : Type*) where
  inputs : List (Row K)
  controls : List (CV K)

/-- `FG` as constructed: zero inputs, cleared controls, optimal_laptime.h:204-205. -/
def initialLoaded [Zero K] (p : Problem K) : Loaded K :=
  ⟨List.replicate p.nPoints (fun _ => 0), clear p.controls⟩

/-- `v[i] = a` on a `std::vector` (optimal_laptime.hpp:1273-1298). -/
def setIdx {α : Type*} (l : List α) (i : Nat) (a : α) : Res (List α) :=
  if i < l.length then .ok (l.set i a) else .ub

/-- `x[k++]`: the unread part of the optimisation vector, undefined behaviour past its end
(optimal_laptime.hpp:1273-1298). -/
def pop : List K → Res (K × List K)
  | [] => .ub
  | a :: x => .ok (a, x)

/-- Loop `_inputs[i][j] = x[k++]` over indices `js`, optimal_laptime.hpp:1271-1277, 1473-1479. -/
def loadInputs : List Nat → Row K → List K → Res (Row K × List K)
  | [], row, x => .ok (row, x)
  | j :: js, row, x => (pop x).bind fun ax => loadInputs js (Function.update row j ax.1) ax.2

/-- Loop over the full-mesh controls at node `i`, optimal_laptime.hpp:1279-1284, 1481-1486. -/
def loadFull (i : Nat) : List (CV K) → List K → Res (List (CV K) × List K)
  | [], x => .ok ([], x)
  | c :: cs, x =>
    if c.kind = .fullMesh then
      (pop x).bind fun ax => (setIdx c.controls i ax.1).bind fun l =>
        (loadFull i cs ax.2).bind fun r => .ok ({ c with controls := l } :: r.1, r.2)
    else (loadFull i cs x).bind fun r => .ok (c :: r.1, r.2)

/-- Loop over the derivatives of the full-mesh controls at node `i`, optimal_laptime.hpp:1488-1493. -/
def loadFullDerivative (i : Nat) : List (CV K) → List K → Res (List (CV K) × List K)
  | [], x => .ok ([], x)
  | c :: cs, x =>
    if c.kind = .fullMesh then
      (pop x).bind fun ax => (setIdx c.dcontrolsDt i ax.1).bind fun l =>
        (loadFullDerivative i cs ax.2).bind fun r => .ok ({ c with dcontrolsDt := l } :: r.1, r.2)
    else (loadFullDerivative i cs x).bind fun r => .ok (c :: r.1, r.2)

/-- Loop `controls[i] = x[k++]` over all entries of one control, optimal_laptime.hpp:1293-1294. -/
def loadValues : List K → List K → Res (List K × List K)
  | [], x => .ok ([], x)
  | _ :: l, x => (pop x).bind fun ax => (loadValues l ax.2).bind fun r => .ok (ax.1 :: r.1, r.2)

/-- (3.3) Load the rest of the controls, optimal_laptime.hpp:1287-1303, 1496-1512. -/
def loadRest : List (CV K) → List K → Res (List (CV K) × List K)
  | [], x => .ok ([], x)
  | c :: cs, x =>
    if c.kind = .constant ∨ c.kind = .hypermesh then
      (loadValues c.controls x).bind fun lx =>
        (loadRest cs lx.2).bind fun r => .ok ({ c with controls := lx.1 } :: r.1, r.2)
    else (loadRest cs x).bind fun r => .ok (c :: r.1, r.2)

/-- (3.2.1)-(3.2.2) Load the inputs of a node, optimal_laptime.hpp:1271-1277, 1473-1479: the
indices before the time, then the indices after it. -/
def loadRow (v : Vehicle K) (row : Row K) (x : List K) : Res (Row K × List K) :=
  (loadInputs (List.range v.iTime) row x).bind fun rx =>
    loadInputs (List.range' (v.iTime + 1) (v.nInputs - (v.iTime + 1))) rx.1 rx.2

/-- (3.2) Node loop of `FG_direct::compute`, optimal_laptime.hpp:1266-1285. -/
def loadNodesDirect (v : Vehicle K) : List Nat → Loaded K → List K → Res (Loaded K × List K)
  | [], st, x => .ok (st, x)
  | i :: is, st, x =>
    (idx st.inputs i).bind fun row => (loadRow v row x).bind fun rx =>
      (setIdx st.inputs i rx.1).bind fun ins =>
      (loadFull i st.controls rx.2).bind fun cx =>
        loadNodesDirect v is ⟨ins, cx.1⟩ cx.2

/-- (3.2) Node loop of `FG_derivative::compute`, optimal_laptime.hpp:1468-1494. -/
def loadNodesDerivative (v : Vehicle K) : List Nat → Loaded K → List K → Res (Loaded K × List K)
  | [], st, x => .ok (st, x)
  | i :: is, st, x =>
    (idx st.inputs i).bind fun row => (loadRow v row x).bind fun rx =>
      (setIdx st.inputs i rx.1).bind fun ins =>
      (loadFull i st.controls rx.2).bind fun cx =>
      (loadFullDerivative i cx.1 cx.2).bind fun dx =>
        loadNodesDerivative v is ⟨ins, dx.1⟩ dx.2

/-- (3.1.3) of `FG_direct::compute`, optimal_laptime.hpp:1257-1262: first node of the full-mesh
controls of an open simulation; `u0` is `_controls_open_initial_point` from the current index on. -/
def loadFirstControls : List (CV K) → List K → Res (List (CV K))
  | c :: cs, u :: us =>
    if c.kind = .fullMesh then
      (setIdx c.controls 0 u).bind fun l =>
        (loadFirstControls cs us).bind fun r => .ok ({ c with controls := l } :: r)
    else (loadFirstControls cs us).bind fun r => .ok (c :: r)
  | cs, _ => .ok cs

/-- (3.1.3) of `FG_derivative::compute`, optimal_laptime.hpp:1457-1465. -/
def loadFirstControlsD : List (CV K) → List (K × K) → Res (List (CV K))
  | c :: cs, u :: us =>
    if c.kind = .fullMesh then
      (setIdx c.controls 0 u.1).bind fun l => (setIdx c.dcontrolsDt 0 u.2).bind fun dl =>
        (loadFirstControlsD cs us).bind fun r => .ok ({ c with controls := l, dcontrolsDt := dl } :: r)
    else (loadFirstControlsD cs us).bind fun r => .ok (c :: r)
  | cs, _ => .ok cs

/-- What `FG` stores at construction besides the sizes, optimal_laptime.hpp:318-323 and
771-776: the initial point and the controls there. -/
structure Initial (K : Type*) where
  inputs : Row K
  controls : List (K × K)

/-- (1)-(2) of `compute_direct`, optimal_laptime.hpp:318-323: the initial point of the open
simulation is the first node. (`FG_direct` has no derivatives: they are set to zero here.) -/
def initialDirect [Zero K] [LinearOrder K] (v : Vehicle K) (p : Problem K) : Res (Initial K) :=
  (idx p.s 0).bind fun s0 => (controlArrayAtS p.controls v.controlsDef 0 s0).bind fun u =>
    (idx p.inputs 0).bind fun row => .ok ⟨row, u.map fun a => (a, 0)⟩

/-- (1)-(2) of `compute_derivative`, optimal_laptime.hpp:771-776. -/
def initialDerivative [Zero K] [LinearOrder K] (v : Vehicle K) (p : Problem K) : Res (Initial K) :=
  (idx p.s 0).bind fun s0 => (controlArrayAndDerivativeAtS p.controls v.controlsDef 0 s0).bind fun u =>
    (idx p.inputs 0).bind fun row => .ok ⟨row, u⟩

/-- (3) of `FG_direct::compute`, optimal_laptime.hpp:1247-1306: the whole loader. `st` is the
content left by earlier evaluations. Returns the new content and the unread rest of `x` (the
`assert(k == n_variables)` of l. 1306 says it is empty). -/
def loadDirect (v : Vehicle K) (p : Problem K) (ini : Initial K) (st : Loaded K) (x : List K) :
    Res (Loaded K × List K) :=
  (if p.isClosed then .ok st
    else (setIdx st.inputs 0 ini.inputs).bind fun ins =>
      (loadFirstControls st.controls (ini.controls.map Prod.fst)).bind fun cs => .ok ⟨ins, cs⟩).bind
    fun st1 =>
  (loadNodesDirect v (nodeIndices p) st1 x).bind fun sx =>
    (loadRest sx.1.controls sx.2).bind fun cx => .ok (⟨sx.1.inputs, cx.1⟩, cx.2)

/-- (3) of `FG_derivative::compute`, optimal_laptime.hpp:1447-1516. -/
def loadDerivative (v : Vehicle K) (p : Problem K) (ini : Initial K) (st : Loaded K) (x : List K) :
    Res (Loaded K × List K) :=
  (if p.isClosed then .ok st
    else (setIdx st.inputs 0 ini.inputs).bind fun ins =>
      (loadFirstControlsD st.controls ini.controls).bind fun cs => .ok ⟨ins, cs⟩).bind
    fun st1 =>
  (loadNodesDerivative v (nodeIndices p) st1 x).bind fun sx =>
    (loadRest sx.1.controls sx.2).bind fun cx => .ok (⟨sx.1.inputs, cx.1⟩, cx.2)

end Verif.Transcription
