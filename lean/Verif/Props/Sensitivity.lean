import Verif.Model.Sensitivity
import Verif.Props.Cost
import Mathlib.Analysis.SpecialFunctions.Trigonometric.Deriv
import Mathlib.Analysis.Calculus.Deriv.Inv
import Mathlib.Tactic.FieldSimp

/-! Property theorems C16..C18: sensitivities of the lap time, inputs and controls. -/

set_option autoImplicit false

namespace Verif.Transcription

open Verif.Control

/-! ## C16 -/

/-- C16: the formula is the derivative of time per metre along any differentiable motion. -/
theorem C16_time_per_metre_derivative (s κ q0 : ℝ) (n u v α : ℝ → ℝ) (dn du dv dα : ℝ)
    (hn : HasDerivAt n dn q0) (hu : HasDerivAt u du q0) (hv : HasDerivAt v dv q0) (hα : HasDerivAt α dα q0)
    (h0 : u q0 * Real.cos (α q0) - v q0 * Real.sin (α q0) ≠ 0) :
    HasDerivAt (fun q => (1 - n q * κ) / (u q * Real.cos (α q) - v q * Real.sin (α q)))
      (d2timedsdp ⟨s, κ, n q0, dn, u q0, du, v q0, dv, α q0, dα⟩) q0 := by
  have hnum : HasDerivAt (fun q => 1 - n q * κ) (-(dn * κ)) q0 := by
    simpa using (hn.mul_const κ).const_sub 1
  have hden := (hu.mul hα.cos).sub (hv.mul hα.sin)
  refine (hnum.div hden h0).congr_deriv ?_
  simp only [d2timedsdp, Pi.sub_apply, Pi.mul_apply]
  field_simp
  ring

/-- A car at 50 m/s, drifting, whose speed depends on the parameter. -/
example : HasDerivAt (fun q : ℝ => (1 - 2 * (1 / 100)) / ((50 + q) * Real.cos 0 - 3 * Real.sin 0))
    (d2timedsdp ⟨0, 1 / 100, 2, 0, 50 + 0, 1, 3, 0, 0, 0⟩) 0 :=
  C16_time_per_metre_derivative 0 (1 / 100) 0 (fun _ => 2) (fun q => 50 + q) (fun _ => 3) (fun _ => 0) 0 1 0 0
    (hasDerivAt_const _ _) ((hasDerivAt_id 0).const_add 50) (hasDerivAt_const _ _) (hasDerivAt_const _ _) (by norm_num)

/-! ## C17 -/

/-- The time sensitivity at the last of the nodes: sum of the elements. -/
theorem timeSensitivities_last (σ : ℝ) (sens : Nat → SensNode) (m : Nat) : ∀ (k : Nat) (t : ℝ),
    (t :: timeSensitivities σ t (sens k) ((List.range' (k + 1) m).map sens)).getLast (by simp) =
      t + ∑ e ∈ Finset.range m, ((sens (k + e + 1)).s - (sens (k + e)).s) *
        ((1 - σ) * d2timedsdp (sens (k + e)) + σ * d2timedsdp (sens (k + e + 1))) := by
  induction m with
  | zero => intro k t; simp [timeSensitivities]
  | succ m ih =>
    intro k t
    rw [Finset.sum_range_succ']
    simp only [List.range'_succ, List.map_cons, timeSensitivities]
    rw [List.getLast_cons (by simp), ih (k + 1)]
    have : ∀ e, k + 1 + e = k + (e + 1) := by intro e; omega
    simp only [this, Nat.add_zero]
    ring

/-- C17: the reported lap-time sensitivity is the derivative of the reported lap time. The
parameter `q` may change the vehicle and the solution; `n`, `u`, `v`, `α` are the motion at each
node and `sens` what the report reads at `q0`. -/
theorem C17_laptime_derivative (lowest max L q0 t0' : ℝ) (veh : ℝ → Vehicle ℝ) (r : Request ℝ) (p : Problem ℝ)
    (ini : ℝ → Initial ℝ) (h : ∀ q, Run lowest max (veh q) r p (ini q)) (hL : ∀ q, (veh q).trackLength = L)
    (st : ℝ → Loaded ℝ) (hst : ∀ q, FitsProblem p (st q)) (node : ℝ → Nat → Node ℝ)
    (hn : ∀ q, EvaluatedNodes (veh q) p (st q) (node q))
    (row0 : ℝ → Row ℝ) (hr : ∀ q, (st q).inputs[0]? = some (row0 q))
    (ht0 : HasDerivAt (fun q => row0 q (veh q).iTime) t0' q0)
    (κ : Nat → ℝ) (n u v α : Nat → ℝ → ℝ) (dn du dv dα : Nat → ℝ)
    (hdt : ∀ q i, i < p.nPoints → dtds (veh q) (node q i).eq =
      (1 - n i q * κ i) / (u i q * Real.cos (α i q) - v i q * Real.sin (α i q)))
    (hdn : ∀ i, i < p.nPoints → HasDerivAt (n i) (dn i) q0) (hdu : ∀ i, i < p.nPoints → HasDerivAt (u i) (du i) q0)
    (hdv : ∀ i, i < p.nPoints → HasDerivAt (v i) (dv i) q0) (hdα : ∀ i, i < p.nPoints → HasDerivAt (α i) (dα i) q0)
    (h0 : ∀ i, i < p.nPoints → u i q0 * Real.cos (α i q0) - v i q0 * Real.sin (α i q0) ≠ 0) :
    ∃ (lap : ℝ → ℝ) (d : ℝ), (∀ q, ∃ times, report (veh q) p (st q) = .ok (times, lap q)) ∧
      laptimeSensitivity p.isClosed L p.opts.sigma t0' ((List.range p.nPoints).map fun i =>
        ⟨(node q0 i).s, κ i, n i q0, dn i, u i q0, du i, v i q0, dv i, α i q0, dα i⟩) = .ok d ∧
      HasDerivAt lap d q0 := by
  have hp : Shape p := (h q0).shape
  have h2 := hp.two
  have hs : ∀ q i, i < p.nPoints → (node q i).s = (node q0 i).s := by
    intro q i hi
    have a := node_s (hn q) hi
    have b := node_s (hn q0) hi
    rw [a] at b; simpa using b
  set sens : Nat → SensNode := fun i =>
    ⟨(node q0 i).s, κ i, n i q0, dn i, u i q0, du i, v i q0, dv i, α i q0, dα i⟩ with hsens
  have hg : ∀ i, i < p.nPoints → HasDerivAt (fun q => dtds (veh q) (node q i).eq) (d2timedsdp (sens i)) q0 := by
    intro i hi
    have := C16_time_per_metre_derivative (node q0 i).s (κ i) q0 (n i) (u i) (v i) (α i) _ _ _ _
      (hdn i hi) (hdu i hi) (hdv i hi) (hdα i hi) (h0 i hi)
    refine this.congr_of_eventuallyEq (Filter.Eventually.of_forall fun q => hdt q i hi)
  have hlen : ∀ q e, e < p.nElements → elementLength (veh q) p (node q) e =
      if e + 1 < p.nPoints then (node q0 (e + 1)).s - (node q0 e).s else L - (node q0 e).s := by
    intro q e he
    have hep : e < p.nPoints := by have := hp.elements; omega
    unfold elementLength
    split
    · rename_i h1; rw [hs q _ h1, hs q e hep]
    · rw [hL, hs q e hep]
  have hlap : ∀ q, report (veh q) p (st q) = .ok (_, _) := fun q =>
    report_eq hp (hr q) (evalNodes_eq hp (h q).consistent (h q).defaults (h q).covers (hst q) (hn q))
  refine ⟨fun q => row0 q (veh q).iTime + quadrature (veh q) p (node q) (fun nd => dtds (veh q) nd.eq),
    t0' + ∑ e ∈ Finset.range p.nElements,
      (if e + 1 < p.nPoints then (node q0 (e + 1)).s - (node q0 e).s else L - (node q0 e).s) *
        ((1 - p.opts.sigma) * d2timedsdp (sens e) + p.opts.sigma * d2timedsdp (sens (rightNode p e))),
    fun q => ⟨_, hlap q⟩, ?_, ?_⟩
  · have hsplit : (List.range p.nPoints).map sens =
        sens 0 :: (List.range' 1 (p.nPoints - 1)).map sens := by
      obtain ⟨m, hm⟩ : ∃ m, p.nPoints = m + 1 := ⟨p.nPoints - 1, by omega⟩
      rw [hm, List.range_eq_range', List.range'_succ]; simp
    rw [hsplit]
    simp only [laptimeSensitivity]
    rw [timeSensitivities_last p.opts.sigma sens (p.nPoints - 1) 0 t0']
    have hlast : (sens 0 :: (List.range' 1 (p.nPoints - 1)).map sens).getLast (by simp) = sens (p.nPoints - 1) := by
      rw [← Option.some_inj, ← List.getLast?_eq_getLast_of_ne_nil, ← hsplit, List.getLast?_eq_getElem?,
        List.length_map, List.length_range, get_map_range _ _ _ (by omega)]
    rw [hlast]
    have hinner : ∑ e ∈ Finset.range (p.nPoints - 1), ((sens (0 + e + 1)).s - (sens (0 + e)).s) *
        ((1 - p.opts.sigma) * d2timedsdp (sens (0 + e)) + p.opts.sigma * d2timedsdp (sens (0 + e + 1))) =
        ∑ e ∈ Finset.range (p.nPoints - 1),
          (if e + 1 < p.nPoints then (node q0 (e + 1)).s - (node q0 e).s else L - (node q0 e).s) *
        ((1 - p.opts.sigma) * d2timedsdp (sens e) + p.opts.sigma * d2timedsdp (sens (rightNode p e))) := by
      apply Finset.sum_congr rfl
      intro e he
      have he' : e < p.nPoints - 1 := by simpa using he
      have h1 : e + 1 < p.nPoints := by omega
      rw [if_pos h1, rightNode, if_pos h1, Nat.zero_add]
    rw [hinner]
    cases hc : p.isClosed
    · have he : p.nElements = p.nPoints - 1 := by rw [hp.elements, hc]; rfl
      simp [he]
    · have he : p.nElements = (p.nPoints - 1) + 1 := by rw [hp.elements, hc]; simp [firstNode]; omega
      have hl' : ¬ (p.nPoints - 1 + 1 < p.nPoints) := by omega
      rw [he, Finset.sum_range_succ, if_neg hl', rightNode, if_neg hl']
      simp only [if_true]
      rw [add_assoc]
  · apply ht0.add
    unfold quadrature quadratureTo
    have := HasDerivAt.fun_sum (u := Finset.range p.nElements) (x := q0)
      (A := fun e q => elementLength (veh q) p (node q) e * ((1 - p.opts.sigma) * dtds (veh q) (node q e).eq +
        p.opts.sigma * dtds (veh q) (node q (rightNode p e)).eq))
      (A' := fun e => (if e + 1 < p.nPoints then (node q0 (e + 1)).s - (node q0 e).s else L - (node q0 e).s) *
        ((1 - p.opts.sigma) * d2timedsdp (sens e) + p.opts.sigma * d2timedsdp (sens (rightNode p e)))) (by
      intro e he
      have he' : e < p.nElements := by simpa using he
      have hep : e < p.nPoints := by have := hp.elements; omega
      have hA := (((hg e hep).const_mul (1 - p.opts.sigma)).add
        ((hg _ (rightNode_lt hp e)).const_mul p.opts.sigma)).const_mul
          (if e + 1 < p.nPoints then (node q0 (e + 1)).s - (node q0 e).s else L - (node q0 e).s)
      refine hA.congr_of_eventuallyEq (Filter.Eventually.of_forall fun q => ?_)
      simp only [Pi.add_apply]
      rw [hlen q e he'])
    exact this

/-! ### A concrete family: straight 100 m track, constant speed `q` -/

noncomputable def exRealVehicle (q : ℝ) : Vehicle ℝ :=
  { nInputs := 3, iTime := 1, sTime := 1, nExtra := 0, timeIds := [0], algIds := [2],
    controlsDef := [], dcontrolsLb := [], dcontrolsUb := [], extraLb := fun _ _ => 0,
    extraUb := fun _ _ => 0, trackLength := 100, leftLimit := fun _ => 3, rightLimit := fun _ => 3, integralNames := [],
    eval := fun row _ _ => ⟨row, fun _ => (1 - 0 * 0) / (q * Real.cos 0 - 0 * Real.sin 0), row, row⟩, ready := true }

def exRealRequest : Request ℝ :=
  { s := [0, 10, 20], isClosed := true, isDirect := true, inputs := [fun _ => 0, fun _ => 0, fun _ => 0],
    controls := [], warm := none,
    opts := ⟨fun _ => 0, fun _ => 0, fun _ => 0, fun _ => 0, [], 1⟩ }

/-- The hypotheses of C17 are met by the family at 2 m/s. -/
example : ∃ (p : Problem ℝ) (st : ℝ → Loaded ℝ) (lap : ℝ → ℝ) (d : ℝ),
    (∀ q, ∃ times, report (exRealVehicle q) p (st q) = .ok (times, lap q)) ∧ HasDerivAt lap d 2 := by
  have hacc : ∀ q, Acceptable (exRealVehicle q) exRealRequest := by
    intro q
    refine ⟨by simp [exRealRequest], ?_, ?_, rfl, by simp [exRealRequest], by simp [exRealRequest],
      by simp [exRealRequest], rfl⟩
    · intro _ a b ha hb
      simp [exRealRequest] at ha hb; subst ha; subst hb
      norm_num [exRealVehicle]
    · intro hc; simp [exRealRequest] at hc
  obtain ⟨p, hp⟩ := (C13_accepted_iff (-10) 10 _ _).2 (hacc 2)
  have hpq : ∀ q, prepare (-10) 10 (exRealVehicle q) exRealRequest = .ok p := fun q => hp
  have g := (prepare_ok hp).2
  have hc : p.controls = [] := g.controls
  have hs : p.s = [0, 10, 20] := g.s
  have hnp : p.nPoints = 3 := g.nPoints
  have hrun : ∀ q, Run (-10) 10 (exRealVehicle q) exRealRequest p ⟨fun _ => 0, []⟩ := by
    intro q
    refine ⟨⟨by simp [exRealVehicle], by simp [exRealVehicle], rfl⟩, hp, ?_, ?_⟩
    · rw [show exRealRequest.isDirect = true from rfl, if_pos rfl, initialDirect, hs, g.inputs, hc]
      rfl
    · intro c hm; rw [hc] at hm; simp at hm
  have hfit : FitsProblem p (initialLoaded p) := C01_fresh_fits p
  have hev : ∀ q, EvaluatedNodes (exRealVehicle q) p (initialLoaded p)
      (fun i => ⟨p.s.getD i 0, (exRealVehicle q).eval (fun _ => 0) [] (p.s.getD i 0)⟩) := by
    intro q i hi
    refine ⟨fun _ => 0, p.s.getD i 0, [], by simp [initialLoaded, hi], ?_, by simp [initialLoaded, clear, hc], ?_, rfl⟩
    · exact get_getD (by rw [hs]; simp; omega)
    · intro c cv d a h1; simp [initialLoaded, clear, hc] at h1
  obtain ⟨lap, d, h1, _, h3⟩ := C17_laptime_derivative (-10) 10 100 2 0 exRealVehicle exRealRequest p
    (fun _ => ⟨fun _ => 0, []⟩) hrun (fun _ => rfl) (fun _ => initialLoaded p) (fun _ => hfit) _ hev
    (fun _ _ => 0) (fun _ => by simp [initialLoaded, hnp]) (hasDerivAt_const _ _) (fun _ => 0) (fun _ _ => 0)
    (fun _ q => q) (fun _ _ => 0) (fun _ _ => 0) (fun _ => 0) (fun _ => 1) (fun _ => 0) (fun _ => 0)
    (fun q i _ => rfl) (fun _ _ => hasDerivAt_const _ _) (fun _ _ => hasDerivAt_id _)
    (fun _ _ => hasDerivAt_const _ _) (fun _ _ => hasDerivAt_const _ _) (fun _ _ => by norm_num)
  exact ⟨p, _, lap, d, h1, h3⟩

/-! ## C18 -/

section
variable {K : Type*} [Field K] [LinearOrder K]

/-- C18 (partial), direct form: the exported sensitivities of the inputs are zero at the fixed first
node of an open simulation, and the decoded ones elsewhere; a closed simulation keeps everything.
Missing: the controls, for which the property is false. -/
theorem C18_inputs_partial (lowest max : K) (v : Vehicle K) (r : Request K) (p : Problem K) (ini : Initial K)
    (h : Run lowest max v r p ini) (hd : r.isDirect = true) (hne : r.controls ≠ []) (st : Loaded K)
    (hst : FitsProblem p st) (dx : List K) (hx : dx.length = nVariables v p) :
    ∃ sol out, Decoded v p ini st sol dx ∧ exportSensitivityDirect v p ini st dx = .ok out ∧
      (p.isClosed = true → out = sol) ∧
      (p.isClosed = false → out.inputs[0]? = some (fun _ => 0) ∧
        (∀ i, 0 < i → out.inputs[i]? = sol.inputs[i]?)) := by
  obtain ⟨sol, h1, h2⟩ := loadDirect_decoded v h.wf.lateral p h.shape (h.isDirect.trans hd) ini h.iniLength st hst dx hx
  have hl : 0 < sol.inputs.length := by rw [h2.fits.inputs]; have := h.shape.two; omega
  have hcl : 0 < sol.controls.length := by
    rw [h2.fits.controls, (prepare_ok h.prepared).2.controls, List.length_map]
    exact List.length_pos_iff.2 hne
  cases hc : p.isClosed
  · refine ⟨sol, ⟨sol.inputs.set 0 (fun _ => 0), sol.controls.set 0 (clearOne (sol.controls[0]))⟩, h2, ?_,
      by simp, ?_⟩
    · rw [exportSensitivityDirect, h1]
      simp [Res.bind, killFirst, hc, setIdx, hl, hcl, idx]
    · intro _
      refine ⟨by simp [hl], fun i hi => ?_⟩
      simp [show (0 : Nat) ≠ i by omega]
  · refine ⟨sol, sol, h2, ?_, by simp, by simp⟩
    rw [exportSensitivityDirect, h1]
    simp [Res.bind, killFirst, hc]

/-- C18, what happens to the controls of an open direct simulation: all the sensitivities of the
first control are replaced by zeros, at every node, and the other full-mesh controls get, at the
first node, the value of the control itself. -/
theorem C18_actual_controls (lowest max : K) (v : Vehicle K) (r : Request K) (p : Problem K) (ini : Initial K)
    (h : Run lowest max v r p ini) (hd : r.isDirect = true) (hopen : r.isClosed = false) (hne : r.controls ≠ [])
    (st : Loaded K) (hst : FitsProblem p st) (dx : List K) (hx : dx.length = nVariables v p) :
    ∃ sol out, Decoded v p ini st sol dx ∧ exportSensitivityDirect v p ini st dx = .ok out ∧
      (∀ cv, out.controls[0]? = some cv → ∀ a ∈ cv.controls, a = 0) ∧
      (∀ (c : Nat) (cv cv' : CV K), 0 < c → out.controls[c]? = some cv → p.controls[c]? = some cv' →
        cv.kind = .fullMesh → cv.controls[0]? = cv'.controls[0]?) := by
  obtain ⟨sol, h1, h2⟩ := loadDirect_decoded v h.wf.lateral p h.shape (h.isDirect.trans hd) ini h.iniLength st hst dx hx
  have hl : 0 < sol.inputs.length := by rw [h2.fits.inputs]; have := h.shape.two; omega
  have hcl : 0 < sol.controls.length := by
    rw [h2.fits.controls, (prepare_ok h.prepared).2.controls, List.length_map]
    exact List.length_pos_iff.2 hne
  have hc : p.isClosed = false := (prepare_ok h.prepared).2.isClosed.trans hopen
  refine ⟨sol, ⟨sol.inputs.set 0 (fun _ => 0), sol.controls.set 0 (clearOne (sol.controls[0]))⟩, h2, ?_, ?_, ?_⟩
  · rw [exportSensitivityDirect, h1]
    simp [Res.bind, killFirst, hc, setIdx, hl, hcl, idx]
  · intro cv hcv a ha
    simp [hcl] at hcv
    subst hcv
    simp [clearOne] at ha
    exact ha.2
  · intro c cv cv' hpos hcv hcv' hk
    have hcv2 : sol.controls[c]? = some cv := by
      rw [← hcv]; simp [show (0 : Nat) ≠ c by omega]
    have hini := h.initial
    rw [hd, if_pos rfl] at hini
    have hk' : cv'.kind = .fullMesh := by rw [← (h2.fits.frames c cv' cv hcv' hcv2).kind]; exact hk
    rw [((h2.firstControls hc c cv hcv2 hk)).1, (initialDirect_spec h.defaults hini).2.2 c cv' hcv' hk']

/-- C18 (partial), derivative form: the exported sensitivities of the inputs are zero at the fixed first
node of an open simulation, and the decoded ones elsewhere; a closed simulation keeps everything.
Missing: the controls, for which the property is false. -/
theorem C18_inputs_derivative_partial (lowest max : K) (v : Vehicle K) (r : Request K) (p : Problem K) (ini : Initial K)
    (h : Run lowest max v r p ini) (hd : r.isDirect = false) (hne : r.controls ≠ []) (st : Loaded K)
    (hst : FitsProblem p st) (dx : List K) (hx : dx.length = nVariables v p) :
    ∃ sol out, Decoded v p ini st sol dx ∧ exportSensitivityDerivative v p ini st dx = .ok out ∧
      (p.isClosed = true → out = sol) ∧
      (p.isClosed = false → out.inputs[0]? = some (fun _ => 0) ∧
        (∀ i, 0 < i → out.inputs[i]? = sol.inputs[i]?)) := by
  obtain ⟨sol, h1, h2⟩ := loadDerivative_decoded v h.wf.lateral p h.shape (h.isDirect.trans hd) ini h.iniLength st hst dx hx
  have hl : 0 < sol.inputs.length := by rw [h2.fits.inputs]; have := h.shape.two; omega
  have hcl : 0 < sol.controls.length := by
    rw [h2.fits.controls, (prepare_ok h.prepared).2.controls, List.length_map]
    exact List.length_pos_iff.2 hne
  cases hc : p.isClosed
  · refine ⟨sol, ⟨sol.inputs.set 0 (fun _ => 0), sol.controls.set 0 (clearOne (sol.controls[0]))⟩, h2, ?_,
      by simp, ?_⟩
    · rw [exportSensitivityDerivative, h1]
      simp [Res.bind, killFirst, hc, setIdx, hl, hcl, idx]
    · intro _
      refine ⟨by simp [hl], fun i hi => ?_⟩
      simp [show (0 : Nat) ≠ i by omega]
  · refine ⟨sol, sol, h2, ?_, by simp, by simp⟩
    rw [exportSensitivityDerivative, h1]
    simp [Res.bind, killFirst, hc]

/-- C18, what happens to the controls of an open derivative-form simulation: all the sensitivities of the
first control are replaced by zeros, at every node, and the other full-mesh controls get, at the
first node, the value of the control itself. -/
theorem C18_actual_controls_derivative (lowest max : K) (v : Vehicle K) (r : Request K) (p : Problem K) (ini : Initial K)
    (h : Run lowest max v r p ini) (hd : r.isDirect = false) (hopen : r.isClosed = false) (hne : r.controls ≠ [])
    (st : Loaded K) (hst : FitsProblem p st) (dx : List K) (hx : dx.length = nVariables v p) :
    ∃ sol out, Decoded v p ini st sol dx ∧ exportSensitivityDerivative v p ini st dx = .ok out ∧
      (∀ cv, out.controls[0]? = some cv → ∀ a ∈ cv.controls, a = 0) ∧
      (∀ (c : Nat) (cv cv' : CV K), 0 < c → out.controls[c]? = some cv → p.controls[c]? = some cv' →
        cv.kind = .fullMesh → cv.controls[0]? = cv'.controls[0]?) := by
  obtain ⟨sol, h1, h2⟩ := loadDerivative_decoded v h.wf.lateral p h.shape (h.isDirect.trans hd) ini h.iniLength st hst dx hx
  have hl : 0 < sol.inputs.length := by rw [h2.fits.inputs]; have := h.shape.two; omega
  have hcl : 0 < sol.controls.length := by
    rw [h2.fits.controls, (prepare_ok h.prepared).2.controls, List.length_map]
    exact List.length_pos_iff.2 hne
  have hc : p.isClosed = false := (prepare_ok h.prepared).2.isClosed.trans hopen
  refine ⟨sol, ⟨sol.inputs.set 0 (fun _ => 0), sol.controls.set 0 (clearOne (sol.controls[0]))⟩, h2, ?_, ?_, ?_⟩
  · rw [exportSensitivityDerivative, h1]
    simp [Res.bind, killFirst, hc, setIdx, hl, hcl, idx]
  · intro cv hcv a ha
    simp [hcl] at hcv
    subst hcv
    simp [clearOne] at ha
    exact ha.2
  · intro c cv cv' hpos hcv hcv' hk
    have hcv2 : sol.controls[c]? = some cv := by
      rw [← hcv]; simp [show (0 : Nat) ≠ c by omega]
    have hini := h.initial
    rw [hd, if_neg (by simp)] at hini
    have hk' : cv'.kind = .fullMesh := by rw [← (h2.fits.frames c cv' cv hcv' hcv2).kind]; exact hk
    rw [((h2.firstControls hc c cv hcv2 hk)).1, ((initialDerivative_spec h.defaults hini).2.2 c cv' hcv' hk').1]

end

/-- C18 is false: in an accepted open simulation, whatever was solved for, the sensitivity of the
fourth control at the fixed first node is exported as 4, which is the value of the control. -/
theorem C18_false : ∃ (v : Vehicle ℚ) (r : Request ℚ) (p : Problem ℚ) (ini : Initial ℚ),
    Run (-10 ^ 9) (10 ^ 9) v r p ini ∧ p.isClosed = false ∧
    ∀ dx, dx.length = nVariables v p → ∃ out cv,
      exportSensitivityDirect v p ini (initialLoaded p) dx = .ok out ∧ out.controls[3]? = some cv ∧
      cv.kind = .fullMesh ∧ cv.controls[0]? = some 4 := by
  obtain ⟨p, ini, h⟩ := exRun false
  have g := (prepare_ok h.prepared).2
  refine ⟨exVehicle, exRequest false, p, ini, h, g.isClosed, fun dx hx => ?_⟩
  have hc3 : p.controls[3]? = some (meaningful (createFullMesh [4, 5, 6] 1)) := by rw [g.controls]; rfl
  obtain ⟨sol, out, h1, h2, h3, h4⟩ := C18_actual_controls _ _ _ _ p ini h rfl rfl (by simp [exRequest]) _
    (C01_fresh_fits p) dx hx
  have hl : out.controls.length = 4 := by
    have hs : sol.controls.length = 4 := by rw [h1.fits.controls, g.controls]; rfl
    obtain ⟨sol', e1, e2⟩ := loadDirect_decoded exVehicle h.wf.lateral p h.shape g.isDirect ini h.iniLength _
      (C01_fresh_fits p) dx hx
    have hs' : sol'.controls.length = 4 := by rw [e2.fits.controls, g.controls]; rfl
    have hi' : 0 < sol'.inputs.length := by rw [e2.fits.inputs]; have := h.shape.two; omega
    rw [exportSensitivityDirect, e1] at h2
    have hopen : p.isClosed = false := g.isClosed
    simp [Res.bind, killFirst, hopen, setIdx, hi', hs', idx] at h2
    rw [← h2]; simpa using hs'
  obtain ⟨cv, hcv⟩ : ∃ cv, out.controls[3]? = some cv := ⟨_, List.getElem?_eq_getElem (by omega)⟩
  have hk : cv.kind = .fullMesh := by
    obtain ⟨sol', e1, e2⟩ := loadDirect_decoded exVehicle h.wf.lateral p h.shape g.isDirect ini h.iniLength _
      (C01_fresh_fits p) dx hx
    have hs' : sol'.controls.length = 4 := by rw [e2.fits.controls, g.controls]; rfl
    have hi' : 0 < sol'.inputs.length := by rw [e2.fits.inputs]; have := h.shape.two; omega
    rw [exportSensitivityDirect, e1] at h2
    have hopen : p.isClosed = false := g.isClosed
    simp [Res.bind, killFirst, hopen, setIdx, hi', hs', idx] at h2
    rw [← h2] at hcv
    simp at hcv
    rw [(e2.fits.frames 3 _ cv hc3 hcv).kind]; rfl
  exact ⟨out, cv, h2, hcv, hk, h4 3 cv _ (by omega) hcv hc3 hk⟩

end Verif.Transcription
