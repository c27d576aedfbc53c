import Verif.Model.Cost
import Mathlib.Analysis.SpecialFunctions.Trigonometric.Basic

/-!
# Sensitivity export of the optimal-laptime problem

Models src/core/applications/optimal_laptime.hpp:649-729 (`compute_direct`) and 1139-1218
(`compute_derivative`), which are the same code. The sensitivity vector `dx_dp[i]` itself comes
from the sensitivity analysis of the library lion-cpp and is an argument here.
-/

set_option autoImplicit false

namespace Verif.Transcription

open Verif.Control

/-- "If open simulation, kill the first derivative", optimal_laptime.hpp:664-670, 1154-1160:
the inputs of the first node are set to zero, and so are the values and derivatives of
`dcontrols_dp[i].front()`, which is the first *control variable*. -/
def killFirst {K : Type*} [Zero K] (isClosed : Bool) (st : Loaded K) : Res (Loaded K) :=
  if isClosed then .ok st
  else (setIdx st.inputs 0 (fun _ => 0)).bind fun ins => (idx st.controls 0).bind fun c =>
    (setIdx st.controls 0 (clearOne c)).bind fun cs => .ok ⟨ins, cs⟩

/-- Sensitivities of inputs and controls with respect to one parameter before the time is
integrated, direct form: `export_solution(fg, dx_dp[i])` and `killFirst`,
optimal_laptime.hpp:660-670. -/
def exportSensitivityDirect {K : Type*} [Zero K] (v : Vehicle K) (p : Problem K) (ini : Initial K)
    (st : Loaded K) (dx : List K) : Res (Loaded K) :=
  (loadDirect v p ini st dx).bind fun sx => killFirst p.isClosed sx.1

/-- The same in the derivative form, optimal_laptime.hpp:1150-1160. -/
def exportSensitivityDerivative {K : Type*} [Zero K] (v : Vehicle K) (p : Problem K) (ini : Initial K)
    (st : Loaded K) (dx : List K) : Res (Loaded K) :=
  (loadDerivative v p ini st dx).bind fun sx => killFirst p.isClosed sx.1

/-- What the sensitivity of a node's time-per-metre is computed from: curvature, lateral
displacement, velocities, heading, and the derivatives with respect to the parameter
(optimal_laptime.hpp:649-735, 1139-1220). -/
structure SensNode where
  s : ℝ
  kappa : ℝ
  n : ℝ
  dn : ℝ
  u : ℝ
  du : ℝ
  v : ℝ
  dv : ℝ
  alpha : ℝ
  dalpha : ℝ

/-- The lambda `d2timedsdp`, optimal_laptime.hpp:687-694, 1177-1184. -/
noncomputable def d2timedsdp (nd : SensNode) : ℝ :=
  let u_n := nd.u * Real.cos nd.alpha - nd.v * Real.sin nd.alpha
  let r := 1 - nd.kappa * nd.n;
  -nd.kappa * nd.dn / u_n - Real.cos nd.alpha * r / (u_n * u_n) * nd.du
    + Real.sin nd.alpha * r / (u_n * u_n) * nd.dv
    + r * (nd.v * Real.cos nd.alpha + nd.u * Real.sin nd.alpha) / (u_n * u_n) * nd.dalpha

/-- Time sensitivities of the nodes after the first one, optimal_laptime.hpp:699-719, 1189-1209. -/
noncomputable def timeSensitivities (σ : ℝ) : ℝ → SensNode → List SensNode → List ℝ
  | _, _, [] => []
  | t, prev, nd :: nds =>
    let t' := t + (nd.s - prev.s) * (σ * d2timedsdp nd + (1 - σ) * d2timedsdp prev)
    t' :: timeSensitivities σ t' nd nds

/-- `dlaptime_dp[i]`, optimal_laptime.hpp:696-727, 1186-1216; `t0` is the sensitivity of the time at
the first node. -/
noncomputable def laptimeSensitivity (isClosed : Bool) (L σ t0 : ℝ) (nodes : List SensNode) : Res ℝ :=
  match nodes with
  | [] => .ub
  | first :: rest =>
    let times := t0 :: timeSensitivities σ t0 first rest
    let last := (first :: rest).getLast (by simp)
    let dlap := times.getLast (by simp [times])
    .ok (if isClosed then
      dlap + (L - last.s) * ((1 - σ) * d2timedsdp last + σ * d2timedsdp first) else dlap)

end Verif.Transcription
