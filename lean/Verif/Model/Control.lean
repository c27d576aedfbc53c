import Verif.Model.Search
import Mathlib.Algebra.Order.Field.Basic

/-!
# Control variables of the optimal-laptime computation

Models src/core/applications/detail/optimal_laptime_control_variable.h and
src/core/applications/detail/optimal_laptime_control_variables.h, and the factories of
src/core/applications/optimal_laptime.h:61-85. `scalar`/`T` is an exact ordered field `K`;
`to_CppAD` is therefore the identity and is not modelled.
-/

set_option autoImplicit false

namespace Verif.Control

variable {K : Type*}

/-- `Optimal_control_type::Type`, src/core/applications/optimal_laptime_constants.h:11. The
extra constructor `unknown` stands for an enum variable holding none of the four enumerators
(the `default:` branches). -/
inductive Kind where
  | dontOptimize | constant | hypermesh | fullMesh | unknown
  deriving DecidableEq, Repr

/-- `struct Control_variable`, src/core/applications/detail/optimal_laptime_control_variable.h:14-20. -/
structure CV (K : Type*) where
  kind : Kind
  sHypermesh : List K
  controls : List K
  dcontrolsDt : List K
  dissipation : K
  deriving DecidableEq, Repr

/-- `create_dont_optimize`, src/core/applications/optimal_laptime.h:62-65. -/
def createDontOptimize [Zero K] : CV K := ⟨.dontOptimize, [], [], [], 0⟩
/-- `create_constant`, src/core/applications/optimal_laptime.h:67-70. -/
def createConstant [Zero K] (c : K) : CV K := ⟨.constant, [], [c], [], 0⟩
/-- `create_hypermesh`, src/core/applications/optimal_laptime.h:72-75. -/
def createHypermesh [Zero K] (s c : List K) : CV K := ⟨.hypermesh, s, c, [], 0⟩
/-- `create_full_mesh` without derivatives, src/core/applications/optimal_laptime.h:77-80. -/
def createFullMesh (c : List K) (diss : K) : CV K := ⟨.fullMesh, [], c, [], diss⟩
/-- `create_full_mesh` with derivatives, src/core/applications/optimal_laptime.h:82-85. -/
def createFullMeshD (c dc : List K) (diss : K) : CV K := ⟨.fullMesh, [], c, dc, diss⟩

/-- One turn of the loop of `check_inputs`,
src/core/applications/detail/optimal_laptime_control_variables.h:55-123. -/
def checkOne [Zero K] [LinearOrder K] (c : CV K) : Res (CV K) :=
  match c.kind with
  | .dontOptimize =>
    if c.sHypermesh.length > 0 then .throw
    else if c.controls.length > 0 then .throw
    else if c.dcontrolsDt.length ≠ 0 then .throw
    else .ok { c with dissipation := 0 }
  | .constant =>
    if c.sHypermesh.length > 0 then .throw
    else if c.controls.length ≠ 1 then .throw
    else if c.dcontrolsDt.length ≠ 0 then .throw
    else .ok { c with dissipation := 0 }
  | .hypermesh =>
    if c.sHypermesh.length ≠ c.controls.length then .throw
    else if c.dcontrolsDt.length ≠ 0 then .throw
    else .ok { c with dissipation := 0 }
  | .fullMesh =>
    if c.sHypermesh.length > 0 then .throw
    else if c.controls.length ≠ c.dcontrolsDt.length ∧ c.dcontrolsDt.length ≠ 0 then .throw
    else if c.dissipation < 0 then .throw
    else .ok c
  | .unknown => .throw

/-- `check_inputs`, l. 51-125: the loop with its effect on the stored controls. Returns the
controls as they are stored afterwards and whether an exception was thrown; the controls visited
before the offending one have already been modified (optimal_laptime_control_variables.h:51-125). -/
def checkInputs [Zero K] [LinearOrder K] : List (CV K) → List (CV K) × Bool
  | [] => ([], false)
  | c :: cs =>
    match checkOne c with
    | .ok c' => let r := checkInputs cs; (c' :: r.1, r.2)
    | _ => (c :: cs, true)

/-- The three statistics, l. 33-35 (optimal_laptime_control_variables.h:33-35). -/
structure Stats where
  nConstant : Nat
  nHypermesh : Nat
  nFull : Nat
  deriving DecidableEq, Repr

/-- Loop of `compute_statistics`, l. 136-157 (optimal_laptime_control_variables.h:136-157). -/
def statsLoop : List (CV K) → Stats → Res Stats
  | [], st => .ok st
  | c :: cs, st =>
    match c.kind with
    | .dontOptimize => statsLoop cs st
    | .constant => statsLoop cs { st with nConstant := st.nConstant + 1 }
    | .hypermesh => statsLoop cs { st with nHypermesh := st.nHypermesh + c.sHypermesh.length }
    | .fullMesh => statsLoop cs { st with nFull := st.nFull + 1 }
    | .unknown => .throw

/-- `compute_statistics`, l. 129-158 (optimal_laptime_control_variables.h:129-158). -/
def computeStatistics (cs : List (CV K)) : Res Stats := statsLoop cs ⟨0, 0, 0⟩

/-- `check`, l. 266-271: validated controls with their statistics
(optimal_laptime_control_variables.h:266-271). -/
def check [Zero K] [LinearOrder K] (cs : List (CV K)) : Res (List (CV K) × Stats) :=
  let r := checkInputs cs
  if r.2 then .throw else (computeStatistics r.1).map fun st => (r.1, st)

/-- `Control_variable::clear` and `Control_variables::clear`,
optimal_laptime_control_variable.h:112-118, optimal_laptime_control_variables.h:181-185. -/
def clearOne [Zero K] (c : CV K) : CV K :=
  { c with controls := c.controls.map (fun _ => 0), dcontrolsDt := c.dcontrolsDt.map (fun _ => 0) }

/-- `Control_variables::clear`, optimal_laptime_control_variables.h:181-185. -/
def clear [Zero K] (cs : List (CV K)) : List (CV K) := cs.map clearOne

/-- `get_hypermesh_position_for_s`, optimal_laptime_control_variable.h:69-83. Building the error
message evaluates `s_hypermesh.front()`: undefined behaviour on an empty hypermesh. -/
def hypermeshPosition [LinearOrder K] (sHypermesh : List K) (s : K) : Res Nat :=
  let it := upperBound sHypermesh (fun x => decide (s < x))
  if it = 0 then (idx sHypermesh 0).bind fun _ => .throw
  else .ok (it - 1)

/-- `get_hypermesh_control_value_for_s`, optimal_laptime_control_variable.h:87-95. -/
def hypermeshValue [LinearOrder K] (c : CV K) (s : K) : Res K :=
  if c.kind ≠ .hypermesh then .throw
  else (hypermeshPosition c.sHypermesh s).bind fun i => idx c.controls i

/-- `get_hypermesh_control_value_and_derivative_for_s`, optimal_laptime_control_variable.h:99-108. -/
def hypermeshValueAndDerivative [LinearOrder K] (c : CV K) (s : K) : Res (K × K) :=
  if c.kind ≠ .hypermesh then .throw
  else (hypermeshPosition c.sHypermesh s).bind fun i =>
    (idx c.controls i).bind fun v => (idx c.dcontrolsDt i).bind fun d => .ok (v, d)

/-- One turn of the loop of `control_array_at_s`, optimal_laptime_control_variables.h:201-218;
`dflt` is the vehicle's default for this control. -/
def controlAt [LinearOrder K] (c : CV K) (dflt : K) (iFull : Nat) (s : K) : Res K :=
  match c.kind with
  | .dontOptimize => .ok dflt
  | .constant => idx c.controls 0
  | .hypermesh => hypermeshValue c s
  | .fullMesh => idx c.controls iFull
  | .unknown => .ok dflt

/-- `control_array_at_s`, l. 190-222. The array of defaults and the array of controls have the
same length by type in C++; `zipWith`-style recursion stops at the shorter one
(optimal_laptime_control_variables.h:190-222). -/
def controlArrayAtS [LinearOrder K] : List (CV K) → List K → Nat → K → Res (List K)
  | c :: cs, d :: ds, i, s =>
    (controlAt c d i s).bind fun v => (controlArrayAtS cs ds i s).bind fun vs => .ok (v :: vs)
  | _, _, _, _ => .ok []

/-- One turn of the loop of `control_array_and_derivative_at_s`, l. 238-258
(optimal_laptime_control_variables.h:238-258). -/
def controlAndDerivativeAt [Zero K] [LinearOrder K] (c : CV K) (dflt : K) (iFull : Nat) (s : K) :
    Res (K × K) :=
  match c.kind with
  | .dontOptimize => .ok (dflt, 0)
  | .constant => (idx c.controls 0).bind fun v => .ok (v, 0)
  | .hypermesh => (hypermeshValue c s).bind fun v => .ok (v, 0)
  | .fullMesh => (idx c.controls iFull).bind fun v => (idx c.dcontrolsDt iFull).bind fun d => .ok (v, d)
  | .unknown => .ok (dflt, 0)

/-- `control_array_and_derivative_at_s`, l. 228-262 (values paired with derivatives)
(optimal_laptime_control_variables.h:228-262). -/
def controlArrayAndDerivativeAtS [Zero K] [LinearOrder K] :
    List (CV K) → List K → Nat → K → Res (List (K × K))
  | c :: cs, d :: ds, i, s =>
    (controlAndDerivativeAt c d i s).bind fun v =>
      (controlArrayAndDerivativeAtS cs ds i s).bind fun vs => .ok (v :: vs)
  | _, _, _, _ => .ok []

end Verif.Control
