import Verif.Spec.LapMirror
import Verif.Lemmas.Prepare
import Mathlib.Tactic.Linarith
import Mathlib.Tactic.IntervalCases

/-! Lemmas for the mirror image of a lap. -/

set_option autoImplicit false

namespace Verif.LapVehicles

open Verif.Transcription Verif.Control

/-- Entries exchanged by `pi`, and reversed where `eps` says. -/
def act (pi : Nat → Nat) (eps : Nat → Bool) (x : Row ℝ) : Row ℝ := fun k => if eps k then -x (pi k) else x (pi k)

/-- Bounds of the same. -/
def actBound (pi : Nat → Nat) (eps : Nat → Bool) (b opposite : Row ℝ) : Row ℝ :=
  fun k => if eps k then -opposite (pi k) else b (pi k)

/-- What is needed of a symmetry between two vehicles. -/
structure Symmetry (v v' : Vehicle ℝ) (pq ps px pi : Nat → Nat) (eq es ex : Nat → Bool) : Prop where
  nInputs : v'.nInputs = v.nInputs
  iTime : v'.iTime = v.iTime
  sTime : v'.sTime = v.sTime
  nExtra : v'.nExtra = v.nExtra
  timeIds : v'.timeIds = v.timeIds
  algIds : v'.algIds = v.algIds
  length : v'.trackLength = v.trackLength
  left : v'.leftLimit = v.rightLimit
  right : v'.rightLimit = v.leftLimit
  defaults : ∀ (c : Nat) (d : ℝ), v'.controlsDef[c]? = some d → v.controlsDef[c]? = some (if c = 0 then -d else d)
  rateLb : ∀ (c : Nat) (l : ℝ), v'.dcontrolsLb[c]? = some l →
    if c = 0 then v.dcontrolsUb[c]? = some (-l) else v.dcontrolsLb[c]? = some l
  rateUb : ∀ (c : Nat) (l : ℝ), v'.dcontrolsUb[c]? = some l →
    if c = 0 then v.dcontrolsLb[c]? = some (-l) else v.dcontrolsUb[c]? = some l
  lateral : pq (v.iTime + 1) = v.iTime + 1 ∧ eq (v.iTime + 1) = true
  others : ∀ j, j < v.nInputs → j ≠ v.iTime → j ≠ v.iTime + 1 →
    pq j < v.nInputs ∧ pq j ≠ v.iTime ∧ pq j ≠ v.iTime + 1
  time : ps v.sTime = v.sTime ∧ es v.sTime = false
  timeClosed : ∀ q ∈ v.timeIds, ps q ∈ v.timeIds
  algClosed : ∀ q ∈ v.algIds, ps q ∈ v.algIds
  extraClosed : ∀ k, k < v.nExtra → px k < v.nExtra
  extraLb : ∀ s k, k < v.nExtra → v'.extraLb s k = actBound px ex (v.extraLb s) (v.extraUb s) k
  extraUb : ∀ s k, k < v.nExtra → v'.extraUb s k = actBound px ex (v.extraUb s) (v.extraLb s) k

/-- The mirror image of an evaluation. -/
def actEqs (ps px pi : Nat → Nat) (es ex : Nat → Bool) (e : Eqs ℝ) : Eqs ℝ :=
  ⟨act ps es e.states, act ps es e.dstates, act px ex e.extra, fun k => e.integrals (pi k)⟩

/-- The mirror image of a list of controls. -/
def turned (u : List ℝ) : List ℝ := u.mapIdx fun k x => if k = 0 then -x else x

/-- What is needed of two problems. -/
structure MirrorProblem (p p' : Problem ℝ) (pq pi : Nat → Nat) (eq : Nat → Bool) : Prop where
  s : p'.s = p.s
  isClosed : p'.isClosed = p.isClosed
  isDirect : p'.isDirect = p.isDirect
  nPoints : p'.nPoints = p.nPoints
  nElements : p'.nElements = p.nElements
  controls : p'.controls = mirrorSteering p.controls
  quantities : ∀ (k : Nat) (q : Quantity ℝ), p'.quantities[k]? = some q → p.quantities[pi k]? = some q
  inputsLb : p'.opts.inputsLb = actBound pq eq p.opts.inputsLb p.opts.inputsUb
  inputsUb : p'.opts.inputsUb = actBound pq eq p.opts.inputsUb p.opts.inputsLb
  controlsLb : ∀ c, p'.opts.controlsLb c = if c = 0 then -p.opts.controlsUb c else p.opts.controlsLb c
  controlsUb : ∀ c, p'.opts.controlsUb c = if c = 0 then -p.opts.controlsLb c else p.opts.controlsUb c
  sigma : p'.opts.sigma = p.opts.sigma

theorem steering_getElem? (cs : List (CV ℝ)) (c : Nat) (cv : CV ℝ) (h : (mirrorSteering cs)[c]? = some cv) :
    ∃ d, cs[c]? = some d ∧ cv = if c = 0 then reverseControl d else d := by
  simp only [mirrorSteering, List.getElem?_mapIdx, Option.map_eq_some_iff] at h
  obtain ⟨d, hd, rfl⟩ := h
  exact ⟨d, hd, rfl⟩

theorem reverse_value (c : CV ℝ) (i : Nat) : valueAt (reverseControl c) i = -valueAt c i := by
  simp only [valueAt, reverseControl, List.getD_eq_getElem?_getD, List.getElem?_map]
  cases c.controls[i]? <;> simp

theorem reverse_rate (c : CV ℝ) (i : Nat) : rateAt (reverseControl c) i = -rateAt c i := by
  simp only [rateAt, reverseControl, List.getD_eq_getElem?_getD, List.getElem?_map]
  cases c.dcontrolsDt[i]? <;> simp

theorem overFullMesh_steering (f g : CV ℝ → ℝ) (h : ∀ c, f (reverseControl c) = g c) (h' : ∀ c, f c = g c)
    (cs : List (CV ℝ)) : overFullMesh f (mirrorSteering cs) = overFullMesh g cs := by
  rcases cs with _ | ⟨c, cs⟩
  · rfl
  · have e : mirrorSteering (c :: cs) = reverseControl c :: cs := by
      refine List.ext_getElem? fun i => ?_
      rcases i with _ | i <;> simp [mirrorSteering]
    obtain rfl : f = g := funext h'
    rw [e, overFullMesh, overFullMesh]
    have k : (reverseControl c).kind = c.kind := rfl
    simp only [List.filter_cons, k]
    split <;> simp [h]

section
variable {v v' : Vehicle ℝ} {pq ps px pi : Nat → Nat} {eq es ex : Nat → Bool} {p p' : Problem ℝ}
  {ins : List (Row ℝ)} {ctrls : List (CV ℝ)} {node : Nat → Node ℝ}

/-- The mirror image of the nodes. -/
def actNode (ps px pi : Nat → Nat) (es ex : Nat → Bool) (n : Node ℝ) : Node ℝ := ⟨n.s, actEqs ps px pi es ex n.eq⟩

theorem expected_mirror {c : Nat} {cv : CV ℝ} {d a : ℝ} {i : Nat} {si : ℝ}
    (h : ExpectedControl (if c = 0 then reverseControl cv else cv) d i si a) :
    ExpectedControl cv (if c = 0 then -d else d) i si (if c = 0 then -a else a) := by
  by_cases hc : c = 0
  · simp only [hc, if_true] at h ⊢
    unfold ExpectedControl at h ⊢
    have k : (reverseControl cv).kind = cv.kind := rfl
    rw [k] at h
    cases hk : cv.kind <;> simp only [hk] at h ⊢
    · rw [h]
    · simp only [reverseControl] at h
      obtain ⟨x, hx, rfl⟩ : ∃ x, cv.controls = [x] ∧ -x = a := by
        rcases hx : cv.controls with _ | ⟨x, _ | ⟨y, l⟩⟩ <;> simp_all
      rw [hx, neg_neg]
    · obtain ⟨j, x, h1, h2, h3, h4⟩ := h
      refine ⟨j, x, h1, h2, h3, ?_⟩
      simp only [reverseControl, List.getElem?_map, Option.map_eq_some_iff] at h4
      obtain ⟨y, hy, rfl⟩ := h4
      rw [hy, neg_neg]
    · simp only [reverseControl, List.getElem?_map, Option.map_eq_some_iff] at h
      obtain ⟨y, hy, rfl⟩ := h
      rw [hy, neg_neg]
  · simpa only [hc, if_false] using h

theorem expected_mirror' {c : Nat} {cv : CV ℝ} {d a : ℝ} {i : Nat} {si : ℝ}
    (h : ExpectedControl cv (if c = 0 then -d else d) i si a) :
    ExpectedControl (if c = 0 then reverseControl cv else cv) d i si (if c = 0 then -a else a) := by
  by_cases hc : c = 0
  · simp only [hc, if_true] at h ⊢
    unfold ExpectedControl at h ⊢
    have k : (reverseControl cv).kind = cv.kind := rfl
    rw [k]
    cases hk : cv.kind <;> simp only [hk] at h ⊢
    · rw [h, neg_neg]
    · simp [reverseControl, h]
    · obtain ⟨j, x, h1, h2, h3, h4⟩ := h
      exact ⟨j, x, h1, h2, h3, by simp [reverseControl, h4]⟩
    · simp [reverseControl, h]
  · simpa only [hc, if_false] using h

theorem nodes_mirror (S : Symmetry v v' pq ps px pi eq es ex) (P : MirrorProblem p p' pq pi eq)
    (heval : ∀ row u s, row ∈ ins → v'.eval (act pq eq row) (turned u) s = actEqs ps px pi es ex (v.eval row u s))
    (h : EvaluatedNodes v p ⟨ins, ctrls⟩ node) :
    EvaluatedNodes v' p' ⟨ins.map (act pq eq), mirrorSteering ctrls⟩ fun i => actNode ps px pi es ex (node i) := by
  intro i hi
  rw [P.nPoints] at hi
  obtain ⟨row, si, u, h1, h2, h3, h4, h5⟩ := h i hi
  refine ⟨act pq eq row, si, turned u, ?_, P.s ▸ h2, ?_, ?_, ?_⟩
  · simp only at h1
    simp [h1]
  · simp only at h3
    simp [turned, mirrorSteering, h3]
  · intro c cv d a k1 k2 k3
    obtain ⟨e, he, rfl⟩ := steering_getElem? _ _ _ k1
    simp only [turned, List.getElem?_mapIdx, Option.map_eq_some_iff] at k3
    obtain ⟨b, hb, rfl⟩ := k3
    exact expected_mirror' (h4 c e _ b he (S.defaults c d k2) hb)
  · beta_reduce
    rw [h5, actNode, heval _ _ _ (List.mem_of_getElem? h1)]

theorem element_mirror (S : Symmetry v v' pq ps px pi eq es ex) (P : MirrorProblem p p' pq pi eq) (e : Nat) :
    elementLength v' p' (fun i => actNode ps px pi es ex (node i)) e = elementLength v p node e := by
  simp only [elementLength, P.nPoints, S.length, actNode]

theorem right_mirror (P : MirrorProblem p p' pq pi eq) (e : Nat) : rightNode p' e = rightNode p e := by
  simp only [rightNode, P.nPoints]

theorem dtds_mirror (S : Symmetry v v' pq ps px pi eq es ex) (n : Eqs ℝ) : dtds v' (actEqs ps px pi es ex n) = dtds v n := by
  simp only [dtds, actEqs, act, S.sTime, S.time.1, S.time.2, Bool.false_eq_true, if_false]

theorem duration_mirror (S : Symmetry v v' pq ps px pi eq es ex) (P : MirrorProblem p p' pq pi eq) :
    lapDuration v' p' (fun i => actNode ps px pi es ex (node i)) = lapDuration v p node := by
  simp only [lapDuration, quadrature, quadratureTo, element_mirror S P, right_mirror P, P.nElements, P.sigma]
  simp only [actNode, dtds_mirror S]

theorem integral_mirror (S : Symmetry v v' pq ps px pi eq es ex) (P : MirrorProblem p p' pq pi eq) (k : Nat) :
    codedIntegral v' p' (fun i => actNode ps px pi es ex (node i)) k = codedIntegral v p node (pi k) := by
  simp only [codedIntegral, element_mirror S P, right_mirror P, P.nElements, P.sigma, P.nPoints]
  simp only [integrand, actNode, dtds_mirror S]
  simp only [actEqs]

theorem smoothing_mirror (S : Symmetry v v' pq ps px pi eq es ex) (P : MirrorProblem p p' pq pi eq) :
    smoothing v' p' (fun i => actNode ps px pi es ex (node i)) (mirrorSteering ctrls) = smoothing v p node ctrls := by
  have hd : ∀ c, (reverseControl c).dissipation = c.dissipation := fun _ => rfl
  simp only [smoothing, P.isDirect]
  split
  · refine overFullMesh_steering _ _ (fun c => ?_) (fun c => ?_) _ <;>
      simp only [slopePenalty, element_mirror S P, right_mirror P, P.nElements, hd, reverse_value]
    refine Finset.sum_congr rfl fun e _ => ?_
    ring
  · refine overFullMesh_steering _ _ (fun c => ?_) (fun c => ?_) _ <;>
      simp only [codedRatePenalty, element_mirror S P, right_mirror P, P.nElements, P.nPoints, hd, reverse_rate, neg_sq]

theorem optimised_mirror (P : MirrorProblem p p' pq pi eq) {i : Nat} (h : Optimised p' i) : Optimised p i := by
  simpa only [Optimised, P.isClosed, P.nPoints] using h

theorem bounds_neg {l u a tol : ℝ} (h : l - tol ≤ a ∧ a ≤ u + tol) : -u - tol ≤ -a ∧ -a ≤ -l + tol := by
  constructor <;> linarith [h.1, h.2]

theorem obeys_mirror (S : Symmetry v v' pq ps px pi eq es ex) (P : MirrorProblem p p' pq pi eq) {tolB tolC : ℝ}
    (h : Obeys v p tolB tolC ins ctrls node) :
    Obeys v' p' tolB tolC (ins.map (act pq eq)) (mirrorSteering ctrls) fun i => actNode ps px pi es ex (node i) where
  lateral := by
    intro i row si hi hr hs
    simp only [List.getElem?_map, Option.map_eq_some_iff] at hr
    obtain ⟨r, hr, rfl⟩ := hr
    have := h.lateral i r si (optimised_mirror P hi) hr (P.s ▸ hs)
    rw [S.left, S.right, S.iTime]
    simp only [act, S.lateral.1, S.lateral.2, if_true]
    constructor <;> linarith [this.1, this.2]
  inputs := by
    intro i j row hi hj h1 h2 hr
    simp only [List.getElem?_map, Option.map_eq_some_iff] at hr
    obtain ⟨r, hr, rfl⟩ := hr
    rw [S.nInputs] at hj
    rw [S.iTime] at h1 h2
    obtain ⟨k1, k2, k3⟩ := S.others j hj h1 h2
    have := h.inputs i (pq j) r (optimised_mirror P hi) k1 k2 k3 hr
    rw [P.inputsLb, P.inputsUb]
    simp only [act, actBound]
    split
    · exact bounds_neg this
    · exact this
  full := by
    intro i c cv a hi hc hk ha
    obtain ⟨d, hd, rfl⟩ := steering_getElem? _ _ _ hc
    rw [P.controlsLb, P.controlsUb]
    by_cases h0 : c = 0
    · simp only [h0, if_true] at hk ha ⊢
      simp only [reverseControl, List.getElem?_map, Option.map_eq_some_iff] at hk ha
      obtain ⟨b, hb, rfl⟩ := ha
      exact bounds_neg (h.full i 0 d b (optimised_mirror P hi) (h0 ▸ hd) hk hb)
    · simp only [h0, if_false] at hk ha ⊢
      exact h.full i c d a (optimised_mirror P hi) hd hk ha
  other := by
    intro c k cv a hc hk ha
    obtain ⟨d, hd, rfl⟩ := steering_getElem? _ _ _ hc
    rw [P.controlsLb, P.controlsUb]
    by_cases h0 : c = 0
    · simp only [h0, if_true] at hk ha ⊢
      simp only [reverseControl, List.getElem?_map, Option.map_eq_some_iff] at hk ha
      obtain ⟨b, hb, rfl⟩ := ha
      exact bounds_neg (h.other 0 k d b (h0 ▸ hd) hk hb)
    · simp only [h0, if_false] at hk ha ⊢
      exact h.other c k d a hd hk ha
  rates := by
    intro hdir i c cv a l u hi hc hk ha hl hu
    obtain ⟨d, hd, rfl⟩ := steering_getElem? _ _ _ hc
    have hl := S.rateLb c l hl
    have hu := S.rateUb c u hu
    rw [P.isDirect] at hdir
    by_cases h0 : c = 0
    · simp only [h0, if_true] at hk ha hl hu
      simp only [reverseControl, List.getElem?_map, Option.map_eq_some_iff] at hk ha
      obtain ⟨b, hb, rfl⟩ := ha
      have := bounds_neg (h.rates hdir i 0 d b _ _ (optimised_mirror P hi) (h0 ▸ hd) hk hb hu hl)
      simpa only [neg_neg] using this
    · simp only [h0, if_false] at hk ha hl hu
      exact h.rates hdir i c d a l u (optimised_mirror P hi) hd hk ha hl hu
  dynamics := by
    intro e q he hq
    rw [P.nElements] at he
    rw [S.timeIds] at hq
    have := h.dynamics e (ps q) he (S.timeClosed q hq)
    simp only [element_mirror S P, right_mirror P, P.sigma]
    simp only [actNode, actEqs, act]
    split
    · rw [← abs_neg]
      refine le_of_eq_of_le ?_ this
      congr 1
      ring
    · exact this
  algebraic := by
    intro e q he hq
    rw [P.nElements] at he
    rw [S.algIds] at hq
    have := h.algebraic e (ps q) he (S.algClosed q hq)
    simp only [right_mirror P]
    simp only [actNode, dtds_mirror S]
    simp only [actEqs, act]
    split
    · rw [neg_div, abs_neg]; exact this
    · exact this
  extra := by
    intro e k sr he hk hs
    rw [P.nElements] at he
    rw [S.nExtra] at hk
    rw [right_mirror P, P.s] at hs
    have := h.extra e (px k) sr he (S.extraClosed k hk) hs
    rw [S.extraLb _ _ hk, S.extraUb _ _ hk]
    simp only [right_mirror P]
    simp only [actNode, actEqs, act, actBound]
    split
    · exact bounds_neg this
    · exact this
  integrated := by
    intro hdir e c cv he hc hk
    obtain ⟨d, hd, rfl⟩ := steering_getElem? _ _ _ hc
    rw [P.nElements] at he
    rw [P.isDirect] at hdir
    simp only [element_mirror S P, right_mirror P, P.sigma]
    simp only [actNode, dtds_mirror S]
    by_cases h0 : c = 0
    · simp only [h0, if_true] at hk ⊢
      have := h.integrated hdir e 0 d he (h0 ▸ hd) hk
      simp only [reverse_value, reverse_rate]
      rw [← abs_neg]
      refine le_of_eq_of_le ?_ this
      congr 1
      ring
    · simp only [h0, if_false] at hk ⊢
      exact h.integrated hdir e c d he hd hk
  quantities := by
    intro k q hq hr
    rw [integral_mirror S P]
    exact h.quantities (pi k) q (P.quantities k q hq) hr

theorem sameFrame_reverse {a b : CV ℝ} (h : SameFrame a b) : SameFrame (reverseControl a) (reverseControl b) where
  kind := h.kind
  mesh := h.mesh
  diss := h.diss
  nValues := by simp [reverseControl, h.nValues]
  nRates := by simp [reverseControl, h.nRates]

theorem fits_mirror (P : MirrorProblem p p' pq pi eq) (h : FitsProblem p ⟨ins, ctrls⟩) :
    FitsProblem p' ⟨ins.map (act pq eq), mirrorSteering ctrls⟩ where
  inputs := by rw [P.nPoints]; simpa using h.inputs
  controls := by rw [P.controls]; simpa [mirrorSteering] using h.controls
  frames := by
    intro c cv cv' h1 h2
    rw [P.controls] at h1
    obtain ⟨d, hd, rfl⟩ := steering_getElem? _ _ _ h1
    obtain ⟨d', hd', rfl⟩ := steering_getElem? _ _ _ h2
    have := h.frames c d d' hd hd'
    split
    · exact sameFrame_reverse this
    · exact this

end

end Verif.LapVehicles
