import Verif.Spec.LapSolve

/-! Vocabulary for comparing the best laps of two requests (C251..C254). -/

set_option autoImplicit false

namespace Verif.Transcription

open Verif.Control

variable {K : Type*} [Field K] [LinearOrder K]

/-- `lap` was computed from request `r` with an optimiser that finds minima and reported success; `p` is the problem that was
solved and `node` are the nodes of the lap. -/
structure Optimum (lowest max : K) (v : Vehicle K) (r : Request K) (p : Problem K) (lap : Lap K) (node : Nat → Node K) : Prop where
  wellFormed : v.WellFormed r.controls.length
  clockFree : ClockFree v
  covers : HypermeshCovers p
  computed : ∃ (ini : Initial K) (nlp : Nlp K) (opt : Optimiser K) (tf : Bool), setUp lowest max v r = .ok (p, ini, nlp) ∧
    RightSizes opt ∧ Reliable 0 0 opt ∧ Minimises opt ∧ solveLap lowest max v tf opt r = .ok lap
  success : lap.success = true
  nodes : EvaluatedNodes v p ⟨lap.inputs, lap.controls⟩ node

/-- What is minimised: the time of the lap and the smoothing penalty. -/
def lapCost (v : Vehicle K) (p : Problem K) (node : Nat → Node K) (controls : List (CV K)) : K :=
  lapDuration v p node + smoothing v p node controls

/-- `v'` is `v` on a track that is nowhere narrower, with limits of the rates of the controls and of the extra constraints that
are nowhere tighter. -/
structure LooserVehicle (v v' : Vehicle K) : Prop where
  same : v' = { v with dcontrolsLb := v'.dcontrolsLb, dcontrolsUb := v'.dcontrolsUb, extraLb := v'.extraLb,
                       extraUb := v'.extraUb, leftLimit := v'.leftLimit, rightLimit := v'.rightLimit }
  left : ∀ s, v.leftLimit s ≤ v'.leftLimit s
  right : ∀ s, v.rightLimit s ≤ v'.rightLimit s
  extraLb : ∀ s k, v'.extraLb s k ≤ v.extraLb s k
  extraUb : ∀ s k, v.extraUb s k ≤ v'.extraUb s k
  ratesLb : ∀ (c : Nat) (l' : K), v'.dcontrolsLb[c]? = some l' → ∃ l, v.dcontrolsLb[c]? = some l ∧ l' ≤ l
  ratesUb : ∀ (c : Nat) (u' : K), v'.dcontrolsUb[c]? = some u' → ∃ u, v.dcontrolsUb[c]? = some u ∧ u ≤ u'

/-- `r'` is `r` with bounds that are nowhere tighter, and integral constraints that are fewer or wider. -/
structure LooserRequest (r r' : Request K) : Prop where
  same : r' = { r with opts := r'.opts, warm := r'.warm }
  sigma : r'.opts.sigma = r.opts.sigma
  inputsLb : ∀ j, r'.opts.inputsLb j ≤ r.opts.inputsLb j
  inputsUb : ∀ j, r.opts.inputsUb j ≤ r'.opts.inputsUb j
  controlsLb : ∀ c, r'.opts.controlsLb c ≤ r.opts.controlsLb c
  controlsUb : ∀ c, r.opts.controlsUb c ≤ r'.opts.controlsUb c
  integral : ∀ (nm nm' : Name) (l' u' : K), lastRequest nm r'.opts.integral = some (nm', l', u') →
    ∃ (nm'' : Name) (l u : K), lastRequest nm r.opts.integral = some (nm'', l, u) ∧ l' ≤ l ∧ u ≤ u'

/-- `r'` is `r` with another starting guess: other inputs, and other values of the controls of the same definition. -/
structure OtherGuess (r r' : Request K) : Prop where
  same : r' = { r with inputs := r'.inputs, controls := r'.controls, warm := r'.warm }
  controls : r'.controls.length = r.controls.length
  frames : ∀ (c : Nat) (cv cv' : CV K), r.controls[c]? = some cv → r'.controls[c]? = some cv' → SameFrame cv cv'

/-- Definition `c'` of a control leaves at least the freedom of `c`, for a vehicle with default `d` and bounds `lb` and `ub`
of the control. -/
inductive Freer (isDirect : Bool) (d lb ub : K) (c c' : CV K) : Prop
  /-- the same definition -/
  | same (h : SameFrame c c')
  /-- optimised instead of left at the default, which is within the bounds -/
  | optimised (h : c.kind = .dontOptimize) (h' : c'.kind ≠ .dontOptimize) (hlb : lb ≤ d) (hub : d ≤ ub)
  /-- varying instead of constant -/
  | varying (h : c.kind = .constant) (h' : c'.kind = .hypermesh ∨ c'.kind = .fullMesh)
  /-- at every node instead of on a mesh of its own; direct form without smoothing -/
  | finer (h : c.kind = .hypermesh) (h' : c'.kind = .fullMesh) (hdirect : isDirect = true) (hdiss : c'.dissipation = 0)

/-- `r'` is `r` with controls that are left at least as much freedom. -/
structure FreerRequest (v : Vehicle K) (r r' : Request K) : Prop where
  same : r' = { r with inputs := r'.inputs, controls := r'.controls, warm := r'.warm }
  controls : r'.controls.length = r.controls.length
  freer : ∀ (c : Nat) (cv cv' : CV K) (d : K), r.controls[c]? = some cv → r'.controls[c]? = some cv' →
    v.controlsDef[c]? = some d → Freer r.isDirect d (r.opts.controlsLb c) (r.opts.controlsUb c) cv cv'

/-- The control with its weight of the smoothing penalty multiplied by `f`. -/
def smoother (f : K) (c : CV K) : CV K := { c with dissipation := f * c.dissipation }

end Verif.Transcription
