import Verif.Spec.LapFreedom
import Verif.Props.LapStart

/-! Properties C251..C254: best laps of requests that leave more or less freedom. -/

set_option autoImplicit false

namespace Verif.Transcription

open Verif.Control

section
variable {K : Type*} [Field K] [LinearOrder K] [IsStrictOrderedRing K]
variable {lowest max : K} {v v' : Vehicle K} {r r' : Request K} {p p' : Problem K} {lap lap' : Lap K} {node node' : Nat → Node K}

theorem Optimum.prepared (h : Optimum lowest max v r p lap node) : prepare lowest max v r = .ok p := by
  obtain ⟨ini, nlp, opt, tf, hset, -⟩ := h.computed
  exact setUp_prepared hset

theorem Optimum.fits (h : Optimum lowest max v r p lap node) : FitsProblem p ⟨lap.inputs, lap.controls⟩ := by
  obtain ⟨ini, nlp, opt, tf, hset, hopt, hrel, hmin, hlap⟩ := h.computed
  obtain ⟨nd, t0, -, -, -, hfit, -⟩ := C190_own_times lowest max _ r h.wellFormed h.clockFree p ini nlp hset h.covers opt hopt tf
    lap hlap
  exact hfit

theorem Optimum.obeys (h : Optimum lowest max v r p lap node) : Obeys v p 0 0 lap.inputs lap.controls node := by
  obtain ⟨ini, nlp, opt, tf, hset, hopt, hrel, hmin, hlap⟩ := h.computed
  exact C190_lap_obeys lowest max _ r h.wellFormed h.clockFree p ini nlp hset h.covers opt hopt 0 0 hrel tf lap hlap h.success
    node h.nodes

theorem Optimum.start (h : Optimum lowest max v r p lap node) : r.isClosed = false → SameStart v p lap.inputs lap.controls := by
  obtain ⟨ini, nlp, opt, tf, hset, hopt, hrel, hmin, hlap⟩ := h.computed
  obtain ⟨nd, t0, -, -, -, -, -, -, -, -, -, -, hst⟩ := C190_own_times lowest max _ r h.wellFormed h.clockFree p ini nlp hset
    h.covers opt hopt tf lap hlap
  exact fun hc => (hst hc).1

theorem Optimum.best (h : Optimum lowest max v r p lap node) {ins : List (Row K)} {ctrls : List (CV K)} {nd : Nat → Node K}
    (hfit : FitsProblem p ⟨ins, ctrls⟩) (hnode : EvaluatedNodes v p ⟨ins, ctrls⟩ nd) (hob : Obeys v p 0 0 ins ctrls nd)
    (hst : r.isClosed = false → SameStart v p ins ctrls) : lapCost v p node lap.controls ≤ lapCost v p nd ctrls := by
  obtain ⟨ini, nlp, opt, tf, hset, hopt, hrel, hmin, hlap⟩ := h.computed
  exact C191_no_better_lap lowest max _ r h.wellFormed h.clockFree p ini nlp hset h.covers opt hopt hmin tf lap hlap h.success
    node h.nodes ins ctrls nd hfit hnode hob hst

/-- The lap time is that of the nodes, from the time of the first one on. -/
theorem Optimum.laptime (h : Optimum lowest max v r p lap node) : ∃ nd t0, EvaluatedNodes v p ⟨lap.inputs, lap.controls⟩ nd ∧
    lap.laptime = t0 + lapDuration v p nd ∧ (r.isClosed = true → t0 = 0) ∧
    (r.isClosed = false → ∀ row, r.inputs[0]? = some row → t0 = row v.iTime) := by
  obtain ⟨ini, nlp, opt, tf, hset, hopt, hrel, hmin, hlap⟩ := h.computed
  obtain ⟨nd, t0, -, -, -, -, hn, -, ht, -, -, h0, h1⟩ := C190_own_times lowest max _ r h.wellFormed h.clockFree p ini nlp hset
    h.covers opt hopt tf lap hlap
  exact ⟨nd, t0, hn, ht, h0, fun hc => (h1 hc).2⟩

/-! ### Problems over the same mesh -/

/-- The two problems have the same nodes, form and weights, and the two vehicles the same equations. -/
structure SameMesh (v v' : Vehicle K) (p p' : Problem K) : Prop where
  s : p'.s = p.s
  isClosed : p'.isClosed = p.isClosed
  isDirect : p'.isDirect = p.isDirect
  nPoints : p'.nPoints = p.nPoints
  nElements : p'.nElements = p.nElements
  sigma : p'.opts.sigma = p.opts.sigma
  nInputs : v'.nInputs = v.nInputs
  iTime : v'.iTime = v.iTime
  sTime : v'.sTime = v.sTime
  nExtra : v'.nExtra = v.nExtra
  timeIds : v'.timeIds = v.timeIds
  algIds : v'.algIds = v.algIds
  controlsDef : v'.controlsDef = v.controlsDef
  trackLength : v'.trackLength = v.trackLength
  integralNames : v'.integralNames = v.integralNames
  eval : v'.eval = v.eval

theorem SameMesh.right (M : SameMesh v v' p p') (e : Nat) : rightNode p' e = rightNode p e := by
  simp only [rightNode, M.nPoints]

theorem SameMesh.length (M : SameMesh v v' p p') (nd : Nat → Node K) (e : Nat) :
    elementLength v' p' nd e = elementLength v p nd e := by
  simp only [elementLength, M.nPoints, M.trackLength]

theorem SameMesh.pace (M : SameMesh v v' p p') (x : Eqs K) : dtds v' x = dtds v x := by
  simp only [dtds, M.sTime]

theorem SameMesh.duration (M : SameMesh v v' p p') (nd : Nat → Node K) : lapDuration v' p' nd = lapDuration v p nd := by
  simp only [lapDuration, quadrature, quadratureTo, M.length, M.right, M.pace, M.sigma, M.nElements]

theorem SameMesh.smoothing (M : SameMesh v v' p p') (nd : Nat → Node K) (cs : List (CV K)) :
    Transcription.smoothing v' p' nd cs = Transcription.smoothing v p nd cs := by
  have h1 : slopePenalty v' p' nd = slopePenalty v p nd := by
    funext c
    simp only [slopePenalty, M.length, M.right, M.nElements]
  have h2 : codedRatePenalty v' p' nd = codedRatePenalty v p nd := by
    funext c e
    simp only [codedRatePenalty, M.length, M.right, M.nPoints]
  simp only [Transcription.smoothing, M.isDirect, h1, h2, M.nElements]

theorem SameMesh.integral (M : SameMesh v v' p p') (nd : Nat → Node K) (k : Nat) :
    codedIntegral v' p' nd k = codedIntegral v p nd k := by
  simp only [codedIntegral, integrand, M.length, M.right, M.pace, M.sigma, M.nElements, M.nPoints]

theorem SameMesh.optimised (M : SameMesh v v' p p') (i : Nat) : Optimised p' i ↔ Optimised p i := by
  simp only [Optimised, M.isClosed, M.nPoints]

theorem SameMesh.evaluated (M : SameMesh v v' p p') {st : Loaded K} {nd : Nat → Node K} (h : EvaluatedNodes v p st nd) :
    EvaluatedNodes v' p' st nd := by
  intro i hi
  rw [M.nPoints] at hi
  obtain ⟨row, s, u, e1, e2, e3, e4, e5⟩ := h i hi
  exact ⟨row, s, u, e1, by rw [M.s]; exact e2, e3, by rw [M.controlsDef]; exact e4, by rw [M.eval]; exact e5⟩

/-- The two problems have the same integral constraints, or wider ones in `p'`. -/
theorem quantities_looser (hnd : v.integralNames.Nodup) (hn : v'.integralNames = v.integralNames)
    (hp : prepare lowest max v r = .ok p) (hp' : prepare lowest max v' r' = .ok p')
    (hint : ∀ (nm nm' : Name) (l' u' : K), lastRequest nm r'.opts.integral = some (nm', l', u') →
      ∃ (nm'' : Name) (l u : K), lastRequest nm r.opts.integral = some (nm'', l, u) ∧ l' ≤ l ∧ u ≤ u')
    {k : Nat} {q' : Quantity K} (hk : p'.quantities[k]? = some q') (hq : q'.restrict = true) :
    ∃ q, p.quantities[k]? = some q ∧ q.restrict = true ∧ q'.lowerBound ≤ q.lowerBound ∧ q.upperBound ≤ q'.upperBound := by
  have hg := (prepare_ok hp).2
  have hg' := (prepare_ok hp').2
  have hlt : k < v'.integralNames.length := hg'.nQuantities ▸ (List.getElem?_eq_some_iff.1 hk).1
  obtain ⟨nm, hnm⟩ : ∃ nm, v'.integralNames[k]? = some nm := ⟨_, List.getElem?_eq_getElem hlt⟩
  rw [hg'.quantities (hn ▸ hnd) k nm hnm] at hk
  have h1 := hg.quantities hnd k nm (hn ▸ hnm)
  cases hl : lastRequest nm r'.opts.integral with
  | none =>
    rw [hl] at hk
    rw [← Option.some.inj hk] at hq
    cases hq
  | some x =>
    obtain ⟨nm', l', u'⟩ := x
    obtain ⟨nm'', l, u, e1, e2, e3⟩ := hint nm nm' l' u' hl
    rw [hl] at hk
    rw [e1] at h1
    rw [← Option.some.inj hk]
    exact ⟨_, h1, rfl, e2, e3⟩

/-! ### C251: looser limits -/

theorem looser_mesh (hv : LooserVehicle v v') (hr : LooserRequest r r') (hp : prepare lowest max v r = .ok p)
    (hp' : prepare lowest max v' r' = .ok p') : SameMesh v v' p p' ∧ p'.controls = p.controls := by
  have hg := (prepare_ok hp).2
  have hg' := (prepare_ok hp').2
  have e := hr.same
  have f := hv.same
  have e1 : r'.s = r.s := by rw [e]
  have e2 : r'.isClosed = r.isClosed := by rw [e]
  have e3 : r'.isDirect = r.isDirect := by rw [e]
  have e4 : r'.controls = r.controls := by rw [e]
  refine ⟨⟨by rw [hg.s, hg'.s, e1, e2], by rw [hg.isClosed, hg'.isClosed, e2], by rw [hg.isDirect, hg'.isDirect, e3],
    by rw [hg.nPoints, hg'.nPoints, e1], by rw [hg.nElements, hg'.nElements, e1, e2], by rw [hg.opts, hg'.opts, hr.sigma],
    by rw [f], by rw [f], by rw [f], by rw [f], by rw [f], by rw [f], by rw [f], by rw [f], by rw [f], by rw [f]⟩,
    by rw [hg.controls, hg'.controls, e4]⟩

/-- C251: a lap that obeys all equations and limits obeys them also when the limits are loosened, at the same cost. -/
theorem C251_obeys (hnd : v.integralNames.Nodup) (hv : LooserVehicle v v') (hr : LooserRequest r r')
    (hp : prepare lowest max v r = .ok p) (hp' : prepare lowest max v' r' = .ok p') (tolB tolC : K)
    (ins : List (Row K)) (ctrls : List (CV K)) (nd : Nat → Node K) (hfit : FitsProblem p ⟨ins, ctrls⟩)
    (hnode : EvaluatedNodes v p ⟨ins, ctrls⟩ nd) (hob : Obeys v p tolB tolC ins ctrls nd) :
    FitsProblem p' ⟨ins, ctrls⟩ ∧ EvaluatedNodes v' p' ⟨ins, ctrls⟩ nd ∧ Obeys v' p' tolB tolC ins ctrls nd ∧
      lapDuration v' p' nd = lapDuration v p nd ∧ smoothing v' p' nd ctrls = smoothing v p nd ctrls := by
  obtain ⟨M, hc⟩ := looser_mesh hv hr hp hp'
  have hg := (prepare_ok hp).2
  have hg' := (prepare_ok hp').2
  refine ⟨⟨by rw [M.nPoints]; exact hfit.inputs, by rw [hc]; exact hfit.controls, by rw [hc]; exact hfit.frames⟩,
    M.evaluated hnode, ⟨?_, ?_, ?_, ?_, ?_, ?_, ?_, ?_, ?_, ?_⟩, M.duration nd, M.smoothing nd ctrls⟩
  · intro i row si hi hrow hs
    rw [M.s] at hs
    have := hob.lateral i row si ((M.optimised i).1 hi) hrow hs
    rw [M.iTime]
    exact ⟨by linarith [this.1, hv.left si], by linarith [this.2, hv.right si]⟩
  · intro i j row hi hj h1 h2 hrow
    rw [M.iTime] at h1 h2
    rw [M.nInputs] at hj
    have := hob.inputs i j row ((M.optimised i).1 hi) hj h1 h2 hrow
    rw [hg.opts] at this
    rw [hg'.opts]
    exact ⟨by linarith [this.1, hr.inputsLb j], by linarith [this.2, hr.inputsUb j]⟩
  · intro i c cv a hi hcv hk ha
    have := hob.full i c cv a ((M.optimised i).1 hi) hcv hk ha
    rw [hg.opts] at this
    rw [hg'.opts]
    exact ⟨by linarith [this.1, hr.controlsLb c], by linarith [this.2, hr.controlsUb c]⟩
  · intro c k cv a hcv hk ha
    have := hob.other c k cv a hcv hk ha
    rw [hg.opts] at this
    rw [hg'.opts]
    exact ⟨by linarith [this.1, hr.controlsLb c], by linarith [this.2, hr.controlsUb c]⟩
  · intro hd i c cv a l' u' hi hcv hk ha hl hu
    rw [M.isDirect] at hd
    obtain ⟨l, l1, l2⟩ := hv.ratesLb c l' hl
    obtain ⟨u, u1, u2⟩ := hv.ratesUb c u' hu
    have := hob.rates hd i c cv a l u ((M.optimised i).1 hi) hcv hk ha l1 u1
    exact ⟨by linarith [this.1], by linarith [this.2]⟩
  · intro e q he hq
    rw [M.nElements] at he
    rw [M.timeIds] at hq
    rw [M.right, M.length, M.sigma]
    exact hob.dynamics e q he hq
  · intro e q he hq
    rw [M.nElements] at he
    rw [M.algIds] at hq
    rw [M.right, M.pace]
    exact hob.algebraic e q he hq
  · intro e k sr he hk hs
    rw [M.nElements] at he
    rw [M.nExtra] at hk
    rw [M.s, M.right] at hs
    rw [M.right]
    have := hob.extra e k sr he hk hs
    exact ⟨by linarith [this.1, hv.extraLb sr k], by linarith [this.2, hv.extraUb sr k]⟩
  · intro hd e c cv he hcv hk
    rw [M.isDirect] at hd
    rw [M.nElements] at he
    rw [M.right, M.length, M.sigma, M.pace, M.pace]
    exact hob.integrated hd e c cv he hcv hk
  · intro k q' hk hq'
    obtain ⟨q, e1, e2, e3, e4⟩ := quantities_looser hnd M.integralNames hp hp' hr.integral hk hq'
    rw [M.integral]
    have := hob.quantities k q e1 e2
    exact ⟨by linarith [this.1], by linarith [this.2]⟩

/-- C251: looser limits never make the best lap slower: on a track that is nowhere narrower, with limits of variables, controls,
rates and extra constraints that are nowhere tighter, and with integral constraints that are fewer or wider, the best lap takes
no more time (plus smoothing penalty). -/
theorem C251_looser (hnd : v.integralNames.Nodup) (hv : LooserVehicle v v') (hr : LooserRequest r r')
    (hlap : Optimum lowest max v r p lap node) (hlap' : Optimum lowest max v' r' p' lap' node') :
    lapCost v' p' node' lap'.controls ≤ lapCost v p node lap.controls := by
  obtain ⟨M, hc⟩ := looser_mesh hv hr hlap.prepared hlap'.prepared
  obtain ⟨h1, h2, h3, h4, h5⟩ := C251_obeys hnd hv hr hlap.prepared hlap'.prepared 0 0 _ _ node hlap.fits hlap.nodes hlap.obeys
  have hcl : r'.isClosed = r.isClosed := by rw [hr.same]
  have hin : p'.inputs = p.inputs := by
    rw [(prepare_ok hlap.prepared).2.inputs, (prepare_ok hlap'.prepared).2.inputs, hr.same]
  refine (hlap'.best h1 h2 h3 fun hc' => ?_).trans_eq (by rw [lapCost, lapCost, h4, h5])
  obtain ⟨s1, s2⟩ := hlap.start (hcl ▸ hc')
  refine ⟨?_, ?_⟩
  · rw [hin, M.nInputs, M.iTime]
    exact s1
  · rw [hc]
    exact s2

/-! ### C252, C253: freer controls and other guesses -/

/-- The control of definition `c'` with the values `a i` at the nodes, which do not vary unless `c'` does. -/
def withValues (n : Nat) (a : Nat → K) (c' : CV K) : CV K :=
  match c'.kind with
  | .constant => { c' with controls := [a 0] }
  | .hypermesh => { c' with controls := List.replicate c'.controls.length (a 0) }
  | .fullMesh => { c' with controls := (List.range n).map a, dcontrolsDt := List.replicate c'.dcontrolsDt.length 0 }
  | _ => c'

/-- The controls `ctrls`, whose values at the nodes are `a i k`, with the definitions `cs'`. -/
def freed (n : Nat) (a : Nat → Nat → K) (ctrls cs' : List (CV K)) : List (CV K) :=
  (List.range cs'.length).map fun k =>
    match ctrls[k]?, cs'[k]? with
    | some c, some c' => if c.kind = c'.kind then c else withValues n (fun i => a i k) c'
    | _, _ => createDontOptimize

theorem freed_getElem? {n : Nat} {a : Nat → Nat → K} {ctrls cs' : List (CV K)} {k : Nat} {c c' : CV K}
    (hc : ctrls[k]? = some c) (hc' : cs'[k]? = some c') :
    (freed n a ctrls cs')[k]? = some (if c.kind = c'.kind then c else withValues n (fun i => a i k) c') := by
  have hlt : k < cs'.length := (List.getElem?_eq_some_iff.1 hc').1
  simp only [freed, List.getElem?_map, List.getElem?_range hlt, Option.map_some, hc, hc']

theorem freed_length (n : Nat) (a : Nat → Nat → K) (ctrls cs' : List (CV K)) : (freed n a ctrls cs').length = cs'.length := by
  simp [freed]

theorem withValues_kind (n : Nat) (a : Nat → K) (c' : CV K) : (withValues n a c').kind = c'.kind := by
  unfold withValues
  split <;> simp_all

theorem overFullMesh_sum (f : CV K → K) (cs : List (CV K)) :
    overFullMesh f cs = (cs.map fun c => if c.kind = .fullMesh then f c else 0).sum := by
  induction cs with
  | nil => rfl
  | cons c cs ih =>
    simp only [overFullMesh, List.filter_cons, List.map_cons, List.sum_cons] at ih ⊢
    by_cases h : c.kind = .fullMesh
    · simp only [h, decide_true, if_true, List.map_cons, List.sum_cons, ih]
    · simp only [h, decide_false, Bool.false_eq_true, if_false, ih, zero_add]

theorem freer_mesh (hr : FreerRequest v r r') (hp : prepare lowest max v r = .ok p) (hp' : prepare lowest max v r' = .ok p') :
    SameMesh v v p p' ∧ p'.opts = p.opts := by
  have hg := (prepare_ok hp).2
  have hg' := (prepare_ok hp').2
  have e := hr.same
  have e1 : r'.s = r.s := by rw [e]
  have e2 : r'.isClosed = r.isClosed := by rw [e]
  have e3 : r'.isDirect = r.isDirect := by rw [e]
  have e4 : r'.opts = r.opts := by rw [e]
  exact ⟨⟨by rw [hg.s, hg'.s, e1, e2], by rw [hg.isClosed, hg'.isClosed, e2], by rw [hg.isDirect, hg'.isDirect, e3],
    by rw [hg.nPoints, hg'.nPoints, e1], by rw [hg.nElements, hg'.nElements, e1, e2], by rw [hg.opts, hg'.opts, e4],
    rfl, rfl, rfl, rfl, rfl, rfl, rfl, rfl, rfl, rfl⟩, by rw [hg.opts, hg'.opts, e4]⟩

/-- The rates of the controls may be zero. -/
def MayRest (v : Vehicle K) : Prop := (∀ l ∈ v.dcontrolsLb, l ≤ 0) ∧ ∀ u ∈ v.dcontrolsUb, 0 ≤ u

/-- C253: a closed lap that obeys all equations and limits can also be driven with controls that are left more freedom, at the
same cost: with the same inputs and the same values of the controls at the nodes. -/
theorem C253_obeys (hnd : v.integralNames.Nodup) (hwf : v.WellFormed r.controls.length) (hcl : r.isClosed = true)
    (hr : FreerRequest v r r') (hrest : r.isDirect = true ∨ MayRest v ∨ OtherGuess r r')
    (hp : prepare lowest max v r = .ok p) (hp' : prepare lowest max v r' = .ok p') (hcov' : HypermeshCovers p')
    (tolB tolC : K) (hB : 0 ≤ tolB) (hC : 0 ≤ tolC)
    (ins : List (Row K)) (ctrls : List (CV K)) (nd : Nat → Node K) (hfit : FitsProblem p ⟨ins, ctrls⟩)
    (hnode : EvaluatedNodes v p ⟨ins, ctrls⟩ nd) (hob : Obeys v p tolB tolC ins ctrls nd) :
    ∃ ctrls', FitsProblem p' ⟨ins, ctrls'⟩ ∧ EvaluatedNodes v p' ⟨ins, ctrls'⟩ nd ∧ Obeys v p' tolB tolC ins ctrls' nd ∧
      lapDuration v p' nd = lapDuration v p nd ∧ smoothing v p' nd ctrls' = smoothing v p nd ctrls := by
  obtain ⟨M, ho⟩ := freer_mesh hr hp hp'
  have hg := (prepare_ok hp).2
  have hg' := (prepare_ok hp').2
  have hsh := prepare_shape hp
  have hsh' := prepare_shape hp'
  have htwo := hsh.two
  have hpc : p.isClosed = true := hg.isClosed.trans hcl
  have hlen : p.controls.length = r.controls.length := by rw [hg.controls, List.length_map]
  have hlen' : p'.controls.length = r.controls.length := by rw [hg'.controls, List.length_map, hr.controls]
  have hopt : ∀ i, i < p.nPoints → Optimised p i := fun i hi => ⟨by simp [firstNode, hpc], hi⟩
  -- the values of the controls
  have hU : ∀ i, ∃ u : List K, i < p.nPoints → ∃ row si, ins[i]? = some row ∧ p.s[i]? = some si ∧ u.length = ctrls.length ∧
      (∀ (c : Nat) (cv : CV K) (d a : K), ctrls[c]? = some cv → v.controlsDef[c]? = some d → u[c]? = some a →
        ExpectedControl cv d i si a) ∧ nd i = ⟨si, v.eval row u si⟩ := by
    intro i
    by_cases hi : i < p.nPoints
    · obtain ⟨row, si, u, h⟩ := hnode i hi
      exact ⟨u, fun _ => ⟨row, si, h⟩⟩
    · exact ⟨[], fun h => absurd h hi⟩
  obtain ⟨U, hU⟩ := Classical.axiom_of_choice hU
  obtain ⟨a, ha⟩ : ∃ a : Nat → Nat → K, a = fun i k => (U i).getD k 0 := ⟨_, rfl⟩
  have hUa : ∀ i k, i < p.nPoints → k < ctrls.length → (U i)[k]? = some (a i k) := by
    intro i k hi hk
    obtain ⟨row, si, -, -, hl, -⟩ := hU i hi
    rw [ha]
    simp [List.getD_eq_getElem?_getD, List.getElem?_eq_getElem (show k < (U i).length by omega)]
  -- what is known of each control
  have hctl : ∀ k c', p'.controls[k]? = some c' → ∃ c d, ctrls[k]? = some c ∧ v.controlsDef[k]? = some d ∧
      (∀ i si, i < p.nPoints → p.s[i]? = some si → ExpectedControl c d i si (a i k)) ∧
      ((c.kind = c'.kind ∧ SameFrame c' c) ∨
        (c.kind ≠ c'.kind ∧ c'.kind ≠ .dontOptimize ∧ c.kind ≠ .fullMesh ∧ (∀ i, i < p.nPoints → p.opts.controlsLb k - tolB ≤ a i k ∧
          a i k ≤ p.opts.controlsUb k + tolB) ∧
          ((∀ i j, i < p.nPoints → j < p.nPoints → a i k = a j k) ∨
            (c'.kind = .fullMesh ∧ p.isDirect = true ∧ c'.dissipation = 0)))) := by
    intro k c' hc'
    have hk : k < p'.controls.length := (List.getElem?_eq_some_iff.1 hc').1
    have hkc : k < ctrls.length := by rw [hfit.controls, hlen, ← hlen']; exact hk
    obtain ⟨c, hc⟩ : ∃ c, ctrls[k]? = some c := ⟨_, List.getElem?_eq_getElem hkc⟩
    obtain ⟨c1, hc1⟩ : ∃ c, r.controls[k]? = some c := ⟨_, List.getElem?_eq_getElem (by omega)⟩
    obtain ⟨d, hd⟩ : ∃ d, v.controlsDef[k]? = some d := ⟨_, List.getElem?_eq_getElem (by rw [hwf.defaults]; omega)⟩
    have hpc1 : p.controls[k]? = some (meaningful c1) := by rw [hg.controls, List.getElem?_map, hc1]; rfl
    obtain ⟨c1', hc1', rfl⟩ : ∃ c1', r'.controls[k]? = some c1' ∧ meaningful c1' = c' := by
      rw [hg'.controls, List.getElem?_map] at hc'
      exact Option.map_eq_some_iff.1 hc'
    have hexp : ∀ i si, i < p.nPoints → p.s[i]? = some si → ExpectedControl c d i si (a i k) := by
      intro i si hi hsi
      obtain ⟨row, si', -, e2, -, e4, -⟩ := hU i hi
      obtain rfl := Option.some.inj (hsi.symm.trans e2)
      exact e4 k c d _ hc hd (hUa i k hi hkc)
    have hfr := hfit.frames k _ c hpc1 hc
    have hsi : ∀ i, i < p.nPoints → ∃ si, p.s[i]? = some si := fun i hi => ⟨_, List.getElem?_eq_getElem (by rw [hsh.s]; exact hi)⟩
    refine ⟨c, d, hc, hd, hexp, ?_⟩
    rcases hr.freer k c1 c1' d hc1 hc1' hd with h | ⟨h, h', hlb, hub⟩ | ⟨h, h'⟩ | ⟨h, h', hdirect, hdiss⟩
    · left
      refine ⟨hfr.kind.trans h.kind.symm, hfr.kind.trans h.kind.symm, hfr.mesh.trans h.mesh.symm, hfr.diss.trans ?_,
        hfr.nValues.trans h.nValues.symm, hfr.nRates.trans h.nRates.symm⟩
      simp only [meaningful, h.kind, h.diss]
    · right
      have hck : c.kind = .dontOptimize := hfr.kind.trans h
      have hval : ∀ i, i < p.nPoints → a i k = d := by
        intro i hi
        obtain ⟨si, hs⟩ := hsi i hi
        have := hexp i si hi hs
        simpa only [ExpectedControl, hck] using this
      refine ⟨fun e => h' (e.symm.trans hck), h', by rw [hck]; decide, fun i hi => ?_, Or.inl fun i j hi hj => by rw [hval i hi, hval j hj]⟩
      rw [hval i hi, hg.opts]
      exact ⟨by linarith, by linarith⟩
    · right
      have hck : c.kind = .constant := hfr.kind.trans h
      have hval : ∀ i, i < p.nPoints → c.controls = [a i k] := by
        intro i hi
        obtain ⟨si, hs⟩ := hsi i hi
        have := hexp i si hi hs
        simpa only [ExpectedControl, hck] using this
      refine ⟨fun e => ?_, fun e => ?_, by rw [hck]; decide, fun i hi => ?_, Or.inl fun i j hi hj => ?_⟩
      · have : c1'.kind = .constant := e.symm.trans hck
        rw [this] at h'
        rcases h' with h' | h' <;> cases h'
      · have : c1'.kind = .dontOptimize := e
        rw [this] at h'
        rcases h' with h' | h' <;> cases h'
      · exact hob.other k 0 c _ hc (Or.inl hck) (by rw [hval i hi]; rfl)
      · have := (hval i hi).symm.trans (hval j hj)
        simpa using this
    · right
      have hck : c.kind = .hypermesh := hfr.kind.trans h
      refine ⟨fun e => ?_, fun e => ?_, by rw [hck]; decide, fun i hi => ?_, Or.inr ⟨h', hg.isDirect.trans hdirect, ?_⟩⟩
      · have : c1'.kind = .hypermesh := e.symm.trans hck
        rw [this] at h'
        cases h'
      · have : c1'.kind = .dontOptimize := e
        rw [this] at h'
        cases h'
      · obtain ⟨si, hs⟩ := hsi i hi
        have := hexp i si hi hs
        simp only [ExpectedControl, hck] at this
        obtain ⟨j, x, -, -, -, hj⟩ := this
        exact hob.other k j c _ hc (Or.inr hck) hj
      · simp [meaningful, h', hdiss]
  have hnew : ∀ k cv', (freed p.nPoints a ctrls p'.controls)[k]? = some cv' → ∃ c' c, p'.controls[k]? = some c' ∧
      ctrls[k]? = some c ∧ cv' = if c.kind = c'.kind then c else withValues p.nPoints (fun i => a i k) c' := by
    intro k cv' hcv
    have hk : k < p'.controls.length := by
      have := (List.getElem?_eq_some_iff.1 hcv).1
      rwa [freed_length] at this
    obtain ⟨c', hc'⟩ : ∃ c', p'.controls[k]? = some c' := ⟨_, List.getElem?_eq_getElem hk⟩
    obtain ⟨c, d, hc, -⟩ := hctl k c' hc'
    rw [freed_getElem? hc hc'] at hcv
    exact ⟨c', c, hc', hc, (Option.some.inj hcv).symm⟩
  refine ⟨freed p.nPoints a ctrls p'.controls, ⟨by rw [M.nPoints]; exact hfit.inputs, freed_length _ _ _ _, ?_⟩, ?_, ?_,
    M.duration nd, ?_⟩
  · intro k c' cv hc' hcv
    obtain ⟨c'', c, h1, h2, rfl⟩ := hnew k cv hcv
    obtain rfl := Option.some.inj (hc'.symm.trans h1)
    obtain ⟨c2, d, h3, -, -, h4⟩ := hctl k c' hc'
    obtain rfl := Option.some.inj (h2.symm.trans h3)
    rcases h4 with ⟨h4, h5⟩ | ⟨h4, -⟩
    · rw [if_pos h4]
      exact h5
    · rw [if_neg h4]
      have hm := List.mem_of_getElem? hc'
      unfold withValues
      split
      · rename_i hk
        exact ⟨rfl, rfl, rfl, by simp [hsh'.const1 c' hm hk], rfl⟩
      · exact ⟨rfl, rfl, rfl, by simp, rfl⟩
      · rename_i hk
        exact ⟨rfl, rfl, rfl, by simp [hsh'.values c' hm hk, M.nPoints], by simp⟩
      · exact ⟨rfl, rfl, rfl, rfl, rfl⟩
  · intro i hi
    rw [M.nPoints] at hi
    obtain ⟨row, si, e1, e2, e3, -, e5⟩ := hU i hi
    refine ⟨row, si, U i, e1, by rw [M.s]; exact e2, ?_, ?_, e5⟩
    · rw [e3, hfit.controls, hlen]
      show _ = (freed p.nPoints a ctrls p'.controls).length
      rw [freed_length, hlen']
    · intro k cv d x hcv hd hx
      obtain ⟨c', c, h1, h2, rfl⟩ := hnew k cv hcv
      obtain ⟨c2, d', h3, hd', hexp, h4⟩ := hctl k c' h1
      obtain rfl := Option.some.inj (h2.symm.trans h3)
      obtain rfl := Option.some.inj (hd.symm.trans hd')
      have hk : k < ctrls.length := (List.getElem?_eq_some_iff.1 h2).1
      obtain rfl := Option.some.inj ((hUa i k hi hk).symm.trans hx)
      have hm := List.mem_of_getElem? h1
      rcases h4 with ⟨h4, -⟩ | ⟨h4, hdo, -, -, hcase⟩
      · rw [if_pos h4]
        exact hexp i si hi e2
      · rw [if_neg h4]
        have hconst : c'.kind ≠ .fullMesh → a 0 k = a i k := fun hne =>
          hcase.elim (fun h => h 0 i (by omega) hi) fun h => absurd h.1 hne
        rcases (hsh'.consistent c' hm).1 with hk' | hk' | hk' | hk'
        · simp [ExpectedControl, withValues, hk', hi]
        · have e := hconst (by rw [hk']; decide)
          obtain ⟨hinc, x0, hx0, hall⟩ := hcov' c' hm hk'
          obtain ⟨j, x, j1, j2, j3⟩ := exists_last_checkpoint hinc hx0 (hall si (by rw [M.s]; exact List.mem_of_getElem? e2))
          have hj : j < c'.controls.length := by
            rw [← (hsh'.consistent c' hm).2 hk']
            exact (List.getElem?_eq_some_iff.1 j1).1
          simp only [ExpectedControl, withValues, hk']
          exact ⟨j, x, j1, j2, j3, by rw [e]; simp [hj]⟩
        · have e := hconst (by rw [hk']; decide)
          simp [ExpectedControl, withValues, hk', e]
        · exact absurd hk' hdo
  · refine ⟨?_, ?_, ?_, ?_, ?_, ?_, ?_, ?_, ?_, ?_⟩
    · intro i row si hi hrow hs
      rw [M.s] at hs
      exact hob.lateral i row si ((M.optimised i).1 hi) hrow hs
    · intro i j row hi hj h1 h2 hrow
      rw [ho]
      exact hob.inputs i j row ((M.optimised i).1 hi) hj h1 h2 hrow
    · intro i k cv x hi hcv hk hx
      rw [ho]
      have hi' := ((M.optimised i).1 hi)
      obtain ⟨c', c, h1, h2, rfl⟩ := hnew k cv hcv
      obtain ⟨c2, d', h3, -, -, h4⟩ := hctl k c' h1
      obtain rfl := Option.some.inj (h2.symm.trans h3)
      rcases h4 with ⟨h4, -⟩ | ⟨h4, -, -, hb, -⟩
      · rw [if_pos h4] at hk hx
        exact hob.full i k c x hi' h2 hk hx
      · rw [if_neg h4] at hk hx
        rw [withValues_kind] at hk
        simp only [withValues, hk, List.getElem?_map, List.getElem?_range hi'.2, Option.map_some] at hx
        rw [← Option.some.inj hx]
        exact hb i hi'.2
    · intro k j cv x hcv hk hx
      rw [ho]
      obtain ⟨c', c, h1, h2, rfl⟩ := hnew k cv hcv
      obtain ⟨c2, d', h3, -, -, h4⟩ := hctl k c' h1
      obtain rfl := Option.some.inj (h2.symm.trans h3)
      rcases h4 with ⟨h4, -⟩ | ⟨h4, -, -, hb, -⟩
      · rw [if_pos h4] at hk hx
        exact hob.other k j c x h2 hk hx
      · rw [if_neg h4] at hk hx
        rw [withValues_kind] at hk
        have : x = a 0 k := by
          have hm := List.mem_of_getElem? hx
          rcases hk with hk | hk
          · simpa [withValues, hk] using hm
          · simp only [withValues, hk, List.mem_replicate] at hm
            exact hm.2
        rw [this]
        exact hb 0 (by omega)
    · intro hd i k cv x l u hi hcv hk hx hl hu
      rw [M.isDirect] at hd
      have hi' := ((M.optimised i).1 hi)
      obtain ⟨c', c, h1, h2, rfl⟩ := hnew k cv hcv
      obtain ⟨c2, d', h3, -, -, h4⟩ := hctl k c' h1
      obtain rfl := Option.some.inj (h2.symm.trans h3)
      rcases h4 with ⟨h4, -⟩ | ⟨h4, -⟩
      · rw [if_pos h4] at hk hx
        exact hob.rates hd i k c x l u hi' h2 hk hx hl hu
      · rw [if_neg h4] at hk hx
        rw [withValues_kind] at hk
        have h0 : x = 0 := by
          have hm := List.mem_of_getElem? hx
          simp only [withValues, hk, List.mem_replicate] at hm
          exact hm.2
        rcases hrest with hrest | ⟨q1, q2⟩ | hguess
        · rw [hg.isDirect, hrest] at hd
          cases hd
        · have := q1 l (List.mem_of_getElem? hl)
          have := q2 u (List.mem_of_getElem? hu)
          rw [h0]
          exact ⟨by linarith, by linarith⟩
        · exfalso
          have hkk : k < r.controls.length := by
            rw [← hlen']
            exact (List.getElem?_eq_some_iff.1 h1).1
          obtain ⟨c1, hc1⟩ : ∃ c, r.controls[k]? = some c := ⟨_, List.getElem?_eq_getElem hkk⟩
          rw [hg'.controls, List.getElem?_map] at h1
          obtain ⟨c1', hc1', rfl⟩ := Option.map_eq_some_iff.1 h1
          have hfr := hfit.frames k (meaningful c1) c (by rw [hg.controls, List.getElem?_map, hc1]; rfl) h2
          exact h4 (hfr.kind.trans (hguess.frames k c1 c1' hc1 hc1').kind.symm)
    · intro e q he hq
      rw [M.nElements] at he
      rw [M.right, M.length, M.sigma]
      exact hob.dynamics e q he hq
    · intro e q he hq
      rw [M.nElements] at he
      rw [M.right]
      exact hob.algebraic e q he hq
    · intro e k sr he hk hs
      rw [M.nElements] at he
      rw [M.s, M.right] at hs
      rw [M.right]
      exact hob.extra e k sr he hk hs
    · intro hd e k cv he hcv hk
      rw [M.isDirect] at hd
      rw [M.nElements] at he
      rw [M.right, M.length, M.sigma]
      obtain ⟨c', c, h1, h2, rfl⟩ := hnew k cv hcv
      obtain ⟨c2, d', h3, -, -, h4⟩ := hctl k c' h1
      obtain rfl := Option.some.inj (h2.symm.trans h3)
      rcases h4 with ⟨h4, -⟩ | ⟨h4, -, -, -, hcase⟩
      · rw [if_pos h4] at hk ⊢
        exact hob.integrated hd e k c he h2 hk
      · rw [if_neg h4] at hk ⊢
        rw [withValues_kind] at hk
        have hel : e < p.nPoints := by
          have := hsh.elements
          omega
        have hrl : rightNode p e < p.nPoints := by unfold rightNode; split <;> omega
        have hcon : a (rightNode p e) k = a e k :=
          hcase.elim (fun h => h _ _ hrl hel) fun h => by rw [hd] at h; cases h.2.1
        have hr0 : ∀ i, rateAt (withValues p.nPoints (fun i => a i k) c') i = 0 := by
          intro i
          simp only [rateAt, withValues, hk, List.getD_eq_getElem?_getD, List.getElem?_replicate]
          split <;> rfl
        have hv0 : ∀ i, i < p.nPoints → valueAt (withValues p.nPoints (fun i => a i k) c') i = a i k := by
          intro i hi
          simp [valueAt, withValues, hk, hi]
        rw [hr0, hr0, hv0 _ hrl, hv0 _ hel, hcon]
        simpa using hC
    · intro k q' hk hq'
      obtain ⟨q, e1, e2, e3, e4⟩ := quantities_looser hnd rfl hp hp' (fun nm nm' l u h => ⟨nm', l, u, by
        rw [← hg.opts, ← ho, hg'.opts]; exact h, le_rfl, le_rfl⟩) hk hq'
      rw [M.integral]
      have := hob.quantities k q e1 e2
      exact ⟨by linarith [this.1], by linarith [this.2]⟩
  · rw [M.smoothing]
    have key : ∀ f : CV K → K, (∀ k c', p'.controls[k]? = some c' → c'.kind = .fullMesh →
        ((∀ i j, i < p.nPoints → j < p.nPoints → a i k = a j k) ∨ (p.isDirect = true ∧ c'.dissipation = 0)) →
        f (withValues p.nPoints (fun i => a i k) c') = 0) →
        overFullMesh f (freed p.nPoints a ctrls p'.controls) = overFullMesh f ctrls := by
      intro f hf
      rw [overFullMesh_sum, overFullMesh_sum]
      congr 1
      refine List.ext_getElem? fun k => ?_
      by_cases hk : k < p'.controls.length
      · obtain ⟨c', hc'⟩ : ∃ c', p'.controls[k]? = some c' := ⟨_, List.getElem?_eq_getElem hk⟩
        obtain ⟨c, d, hc, -, -, h4⟩ := hctl k c' hc'
        rw [List.getElem?_map, List.getElem?_map, freed_getElem? hc hc', hc, Option.map_some, Option.map_some]
        congr 1
        rcases h4 with ⟨h4, -⟩ | ⟨h4, -, hnf, -, hcase⟩
        · rw [if_pos h4]
        · rw [if_neg h4, if_neg hnf, withValues_kind]
          split
          · rename_i hkk
            exact hf k c' hc' hkk (hcase.imp id fun h => h.2)
          · rfl
      · rw [List.getElem?_eq_none (by simp [freed_length]; omega), List.getElem?_eq_none (by
          have h1 := hfit.controls
          simp at h1 ⊢
          omega)]
    have hel : ∀ e, e ∈ Finset.range p.nElements → e < p.nPoints ∧ rightNode p e < p.nPoints := by
      intro e he
      have := hsh.elements
      have := Finset.mem_range.1 he
      exact ⟨by omega, by unfold rightNode; split <;> omega⟩
    have hv0 : ∀ (k : Nat) (c' : CV K) (i : Nat), c'.kind = .fullMesh → i < p.nPoints →
        valueAt (withValues p.nPoints (fun i => a i k) c') i = a i k := by
      intro k c' i hk hi
      simp [valueAt, withValues, hk, hi]
    have hr0 : ∀ (k : Nat) (c' : CV K) (i : Nat), c'.kind = .fullMesh → rateAt (withValues p.nPoints (fun i => a i k) c') i = 0 := by
      intro k c' i hk
      simp only [rateAt, withValues, hk, List.getD_eq_getElem?_getD, List.getElem?_replicate]
      split <;> rfl
    unfold Transcription.smoothing
    split
    · refine key _ fun k c' hc' hk hcase => Finset.sum_eq_zero fun e he => ?_
      obtain ⟨h1, h2⟩ := hel e he
      rcases hcase with h | ⟨-, h⟩
      · rw [hv0 k c' _ hk h1, hv0 k c' _ hk h2, h _ _ h2 h1]
        simp
      · have : (withValues p.nPoints (fun i => a i k) c').dissipation = 0 := by simp only [withValues, hk, h]
        rw [this]
        simp
    · refine key _ fun k c' hc' hk hcase => Finset.sum_eq_zero fun e he => ?_
      simp only [codedRatePenalty, hr0 k c' _ hk]
      simp

/-- C253: leaving the controls more freedom never makes the best closed lap slower: optimising a control instead of keeping its
default, letting it vary instead of keeping it constant, or (in the direct form, without smoothing) giving it a value at
every node instead of on a mesh of its own. -/
theorem C253_freer (hnd : v.integralNames.Nodup) (hcl : r.isClosed = true) (hr : FreerRequest v r r')
    (hrest : r.isDirect = true ∨ MayRest v ∨ OtherGuess r r') (hlap : Optimum lowest max v r p lap node)
    (hlap' : Optimum lowest max v r' p' lap' node') :
    lapCost v p' node' lap'.controls ≤ lapCost v p node lap.controls := by
  obtain ⟨cs, h1, h2, h3, h4, h5⟩ := C253_obeys hnd hlap.wellFormed hcl hr hrest hlap.prepared hlap'.prepared hlap'.covers 0 0 le_rfl
    le_rfl _ _ node hlap.fits hlap.nodes hlap.obeys
  have hcl' : r'.isClosed = true := by rw [hr.same]; exact hcl
  exact (hlap'.best h1 h2 h3 fun hc => by rw [hcl'] at hc; cases hc).trans_eq (by rw [lapCost, lapCost, h4, h5])

theorem otherGuess_freer (h : OtherGuess r r') : FreerRequest v r r' :=
  ⟨h.same, h.controls, fun c cv cv' _ h1 h2 _ => .same (h.frames c cv cv' h1 h2)⟩

theorem otherGuess_symm (h : OtherGuess r r') : OtherGuess r' r := by
  refine ⟨?_, h.controls.symm, fun c cv cv' h1 h2 => ?_⟩
  · have := h.same
    obtain ⟨s, cl, di, inp, cs, wm, op⟩ := r
    obtain ⟨s', cl', di', inp', cs', wm', op'⟩ := r'
    simp only [Request.mk.injEq] at this ⊢
    simp [this]
  · have := h.frames c cv' cv h2 h1
    exact ⟨this.kind.symm, this.mesh.symm, this.diss.symm, this.nValues.symm, this.nRates.symm⟩

/-- C252: the best closed lap does not depend on the starting guess. -/
theorem C252_guess (hnd : v.integralNames.Nodup) (hcl : r.isClosed = true) (hr : OtherGuess r r')
    (hlap : Optimum lowest max v r p lap node) (hlap' : Optimum lowest max v r' p' lap' node') :
    lapCost v p' node' lap'.controls = lapCost v p node lap.controls := by
  have hcl' : r'.isClosed = true := by rw [hr.same]; exact hcl
  exact le_antisymm (C253_freer hnd hcl (otherGuess_freer hr) (Or.inr (Or.inr hr)) hlap hlap')
    (C253_freer hnd hcl' (otherGuess_freer (otherGuess_symm hr)) (Or.inr (Or.inr (otherGuess_symm hr))) hlap' hlap)

/-! ### C254: more smoothing -/

theorem smoothing_scaled (v : Vehicle K) (p : Problem K) (nd : Nat → Node K) (f : K) (cs : List (CV K)) :
    smoothing v p nd (cs.map (smoother f)) = f * smoothing v p nd cs := by
  have key : ∀ g : CV K → K, (∀ c, g (smoother f c) = f * g c) → overFullMesh g (cs.map (smoother f)) = f * overFullMesh g cs := by
    intro g hg
    rw [overFullMesh_sum, overFullMesh_sum, ← List.sum_map_mul_left, List.map_map]
    congr 1
    refine List.map_congr_left fun c _ => ?_
    simp only [Function.comp, hg]
    rw [show (smoother f c).kind = c.kind from rfl]
    split
    · rfl
    · simp
  unfold smoothing
  split
  · refine key _ fun c => ?_
    simp only [slopePenalty, Finset.mul_sum]
    refine Finset.sum_congr rfl fun e _ => ?_
    rw [show (smoother f c).dissipation = f * c.dissipation from rfl, show valueAt (smoother f c) = valueAt c from rfl]
    ring
  · refine key _ fun c => ?_
    simp only [codedRatePenalty, Finset.mul_sum]
    refine Finset.sum_congr rfl fun e _ => ?_
    rw [show (smoother f c).dissipation = f * c.dissipation from rfl, show rateAt (smoother f c) = rateAt c from rfl]
    ring

theorem meaningful_smoother (f : K) (c : CV K) : meaningful (smoother f c) = smoother f (meaningful c) := by
  simp only [meaningful, smoother]
  split <;> rename_i h <;> simp [h]

/-- A lap of `r` is also a lap of `r` with the smoothing weights scaled. -/
theorem smoother_lap (f : K) (hr : r' = { r with controls := r.controls.map (smoother f), warm := r'.warm })
    (hnd : v.integralNames.Nodup) (hp : prepare lowest max v r = .ok p) (hp' : prepare lowest max v r' = .ok p')
    {ins : List (Row K)} {ctrls : List (CV K)} {nd : Nat → Node K} (hfit : FitsProblem p ⟨ins, ctrls⟩)
    (hnode : EvaluatedNodes v p ⟨ins, ctrls⟩ nd) (hob : Obeys v p 0 0 ins ctrls nd)
    (hst : r.isClosed = false → SameStart v p ins ctrls) :
    FitsProblem p' ⟨ins, ctrls.map (smoother f)⟩ ∧ EvaluatedNodes v p' ⟨ins, ctrls.map (smoother f)⟩ nd ∧
      Obeys v p' 0 0 ins (ctrls.map (smoother f)) nd ∧ (r'.isClosed = false → SameStart v p' ins (ctrls.map (smoother f))) ∧
      lapDuration v p' nd = lapDuration v p nd ∧ smoothing v p' nd (ctrls.map (smoother f)) = f * smoothing v p nd ctrls := by
  have hg := (prepare_ok hp).2
  have hg' := (prepare_ok hp').2
  have e1 : r'.s = r.s := by rw [hr]
  have e2 : r'.isClosed = r.isClosed := by rw [hr]
  have e3 : r'.isDirect = r.isDirect := by rw [hr]
  have e4 : r'.opts = r.opts := by rw [hr]
  have e5 : r'.inputs = r.inputs := by rw [hr]
  have e6 : r'.controls = r.controls.map (smoother f) := by rw [hr]
  have M : SameMesh v v p p' := ⟨by rw [hg.s, hg'.s, e1, e2], by rw [hg.isClosed, hg'.isClosed, e2],
    by rw [hg.isDirect, hg'.isDirect, e3], by rw [hg.nPoints, hg'.nPoints, e1], by rw [hg.nElements, hg'.nElements, e1, e2],
    by rw [hg.opts, hg'.opts, e4], rfl, rfl, rfl, rfl, rfl, rfl, rfl, rfl, rfl, rfl⟩
  have ho : p'.opts = p.opts := by rw [hg.opts, hg'.opts, e4]
  have hc : p'.controls = p.controls.map (smoother f) := by
    rw [hg.controls, hg'.controls, e6, List.map_map, List.map_map]
    refine List.map_congr_left fun c _ => ?_
    exact meaningful_smoother f c
  have hget : ∀ {cs : List (CV K)} {k : Nat} {cv : CV K}, (cs.map (smoother f))[k]? = some cv →
      ∃ c, cs[k]? = some c ∧ smoother f c = cv := fun h => by
    rw [List.getElem?_map] at h
    exact Option.map_eq_some_iff.1 h
  refine ⟨⟨by rw [M.nPoints]; exact hfit.inputs, ?_, ?_⟩, ?_, ⟨?_, ?_, ?_, ?_, ?_, ?_, ?_, ?_, ?_, ?_⟩, ?_, M.duration nd, ?_⟩
  · rw [hc]
    simpa using hfit.controls
  · intro k cv cv' h1 h2
    rw [hc] at h1
    obtain ⟨c, hc1, rfl⟩ := hget h1
    obtain ⟨c', hc2, rfl⟩ := hget h2
    have := hfit.frames k c c' hc1 hc2
    exact ⟨this.kind, this.mesh, by simp only [smoother, this.diss], this.nValues, this.nRates⟩
  · intro i hi
    rw [M.nPoints] at hi
    obtain ⟨row, s, u, h1, h2, h3, h4, h5⟩ := hnode i hi
    refine ⟨row, s, u, h1, by rw [M.s]; exact h2, by simpa using h3, ?_, h5⟩
    intro k cv d a hcv hd ha
    obtain ⟨c, hc1, rfl⟩ := hget hcv
    exact h4 k c d a hc1 hd ha
  · intro i row si hi hrow hs
    rw [M.s] at hs
    exact hob.lateral i row si ((M.optimised i).1 hi) hrow hs
  · intro i j row hi hj h1 h2 hrow
    rw [ho]
    exact hob.inputs i j row ((M.optimised i).1 hi) hj h1 h2 hrow
  · intro i k cv x hi hcv hk hx
    rw [ho]
    obtain ⟨c, hc1, rfl⟩ := hget hcv
    exact hob.full i k c x ((M.optimised i).1 hi) hc1 hk hx
  · intro k j cv x hcv hk hx
    rw [ho]
    obtain ⟨c, hc1, rfl⟩ := hget hcv
    exact hob.other k j c x hc1 hk hx
  · intro hd i k cv x l u hi hcv hk hx hl hu
    rw [M.isDirect] at hd
    obtain ⟨c, hc1, rfl⟩ := hget hcv
    exact hob.rates hd i k c x l u ((M.optimised i).1 hi) hc1 hk hx hl hu
  · intro e q he hq
    rw [M.nElements] at he
    rw [M.right, M.length, M.sigma]
    exact hob.dynamics e q he hq
  · intro e q he hq
    rw [M.nElements] at he
    rw [M.right]
    exact hob.algebraic e q he hq
  · intro e k sr he hk hs
    rw [M.nElements] at he
    rw [M.s, M.right] at hs
    rw [M.right]
    exact hob.extra e k sr he hk hs
  · intro hd e k cv he hcv hk
    rw [M.isDirect] at hd
    rw [M.nElements] at he
    rw [M.right, M.length, M.sigma]
    obtain ⟨c, hc1, rfl⟩ := hget hcv
    exact hob.integrated hd e k c he hc1 hk
  · intro k q' hk hq'
    obtain ⟨q, q1, q2, q3, q4⟩ := quantities_looser hnd rfl hp hp' (fun nm nm' l u h => ⟨nm', l, u, by
      rw [← e4]; exact h, le_rfl, le_rfl⟩) hk hq'
    rw [M.integral]
    have := hob.quantities k q q1 q2
    exact ⟨by linarith [this.1], by linarith [this.2]⟩
  · intro hcl
    obtain ⟨s1, s2⟩ := hst (e2 ▸ hcl)
    refine ⟨by rw [hg'.inputs, e5, ← hg.inputs]; exact s1, ?_⟩
    intro k cv cv' h1 h2 hk
    rw [hc] at h2
    obtain ⟨c, hc1, rfl⟩ := hget h1
    obtain ⟨c', hc2, rfl⟩ := hget h2
    exact s2 k c c' hc1 hc2 hk
  · rw [M.smoothing, smoothing_scaled]

/-- C254: a larger weight of the smoothing penalty never makes the best lap faster, and never makes its controls rougher. If the
weights of all controls are multiplied by the same factor `f > 1`, the time of the best lap does not get smaller, and its
penalty grows at most by that factor. -/
theorem C254_smoother (f : K) (hf : 1 < f) (hr : r' = { r with controls := r.controls.map (smoother f), warm := r'.warm })
    (hnd : v.integralNames.Nodup) (hlap : Optimum lowest max v r p lap node) (hlap' : Optimum lowest max v r' p' lap' node') :
    lapDuration v p node ≤ lapDuration v p' node' ∧
      smoothing v p' node' lap'.controls ≤ f * smoothing v p node lap.controls := by
  have hf0 : f ≠ 0 := by linarith
  have hback : r = { r' with controls := r'.controls.map (smoother f⁻¹), warm := r.warm } := by
    have : r'.controls.map (smoother f⁻¹) = r.controls := by
      rw [show r'.controls = r.controls.map (smoother f) by rw [hr], List.map_map]
      refine List.map_id'' (fun c => ?_) _
      simp only [Function.comp, smoother]
      rw [inv_mul_cancel_left₀ hf0]
    rw [this, hr]
  obtain ⟨a1, a2, a3, a4, a5, a6⟩ := smoother_lap f hr hnd hlap.prepared hlap'.prepared hlap.fits hlap.nodes hlap.obeys hlap.start
  obtain ⟨b1, b2, b3, b4, b5, b6⟩ := smoother_lap f⁻¹ hback hnd hlap'.prepared hlap.prepared hlap'.fits hlap'.nodes hlap'.obeys
    hlap'.start
  have h1 := hlap'.best a1 a2 a3 a4
  have h2 := hlap.best b1 b2 b3 b4
  rw [lapCost, lapCost, a5, a6] at h1
  rw [lapCost, lapCost, b5, b6] at h2
  obtain ⟨R, hR⟩ : ∃ R, R = f⁻¹ * smoothing v p' node' lap'.controls := ⟨_, rfl⟩
  have hR' : smoothing v p' node' lap'.controls = f * R := by rw [hR, mul_inv_cancel_left₀ hf0]
  rw [← hR] at h2
  rw [hR'] at h1 ⊢
  have h3 : (f - 1) * (R - smoothing v p node lap.controls) ≤ 0 := by linarith
  have h4 : R ≤ smoothing v p node lap.controls := by
    by_contra h
    rw [not_le] at h
    have := mul_pos (show 0 < f - 1 by linarith) (show 0 < R - smoothing v p node lap.controls by linarith)
    linarith
  exact ⟨by linarith, mul_le_mul_of_nonneg_left h4 (by linarith)⟩

/-! ### Lap times -/

/-- No weight of the smoothing penalty. -/
def NoSmoothing (r : Request K) : Prop := ∀ c ∈ r.controls, c.kind = .fullMesh → c.dissipation = 0

theorem Optimum.unsmoothed (h : Optimum lowest max v r p lap node) (hr : NoSmoothing r) :
    smoothing v p node lap.controls = 0 := by
  have hz : ∀ c ∈ lap.controls, c.kind = .fullMesh → c.dissipation = 0 := by
    intro c hc hk
    obtain ⟨d, hd, hfr⟩ := h.fits.mem (cv' := c) hc
    rw [(prepare_ok h.prepared).2.controls] at hd
    obtain ⟨d', hd', rfl⟩ := List.mem_map.1 hd
    have hk' : d'.kind = .fullMesh := hfr.kind.symm.trans hk
    rw [hfr.diss]
    simp [meaningful, hk', hr d' hd' hk']
  have sum0 : ∀ g : CV K → K, (∀ c, c.dissipation = 0 → g c = 0) → overFullMesh g lap.controls = 0 := by
    intro g hg
    rw [overFullMesh_sum]
    refine List.sum_eq_zero fun x hx => ?_
    obtain ⟨c, hc, rfl⟩ := List.mem_map.1 hx
    split
    · rename_i hk
      exact hg c (hz c hc hk)
    · rfl
  unfold smoothing
  split
  · exact sum0 _ fun c hc => by simp [slopePenalty, hc]
  · exact sum0 _ fun c hc => by simp [codedRatePenalty, hc]

/-- C251: without smoothing, looser limits never increase the lap time. -/
theorem C251_laptime (hnd : v.integralNames.Nodup) (hv : LooserVehicle v v') (hr : LooserRequest r r') (hs : NoSmoothing r)
    (hlap : Optimum lowest max v r p lap node) (hlap' : Optimum lowest max v' r' p' lap' node') :
    lap'.laptime ≤ lap.laptime := by
  obtain ⟨nd, t0, n1, n2, n3, n4⟩ := hlap.laptime
  obtain ⟨nd', t0', n1', n2', n3', n4'⟩ := hlap'.laptime
  have h : Optimum lowest max v r p lap nd := { hlap with nodes := n1 }
  have h' : Optimum lowest max v' r' p' lap' nd' := { hlap' with nodes := n1' }
  have := C251_looser hnd hv hr h h'
  rw [lapCost, lapCost, h.unsmoothed hs, h'.unsmoothed (by rw [hr.same]; exact hs), add_zero, add_zero] at this
  rw [n2, n2']
  have ht : t0' = t0 := by
    have hcl : r'.isClosed = r.isClosed := by rw [hr.same]
    cases hc : r.isClosed with
    | true => rw [n3 hc, n3' (hcl.trans hc)]
    | false =>
      have h2 := (prepare_ok h.prepared).1.two
      have hlen := (prepare_ok h.prepared).1.inputs
      obtain ⟨row, hrow⟩ : ∃ row, r.inputs[0]? = some row := ⟨_, List.getElem?_eq_getElem (by omega)⟩
      rw [n4 hc row hrow, n4' (hcl.trans hc) row (by rw [hr.same]; exact hrow), hv.same]
  rw [ht]
  linarith

/-- C252: without smoothing, the lap time does not depend on the starting guess. -/
theorem C252_laptime (hnd : v.integralNames.Nodup) (hcl : r.isClosed = true) (hr : OtherGuess r r') (hs : NoSmoothing r)
    (hs' : NoSmoothing r') (hlap : Optimum lowest max v r p lap node) (hlap' : Optimum lowest max v r' p' lap' node') :
    lap'.laptime = lap.laptime := by
  obtain ⟨nd, t0, n1, n2, n3, -⟩ := hlap.laptime
  obtain ⟨nd', t0', n1', n2', n3', -⟩ := hlap'.laptime
  have h : Optimum lowest max v r p lap nd := { hlap with nodes := n1 }
  have h' : Optimum lowest max v r' p' lap' nd' := { hlap' with nodes := n1' }
  have := C252_guess hnd hcl hr h h'
  rw [lapCost, lapCost, h.unsmoothed hs, h'.unsmoothed hs', add_zero, add_zero] at this
  rw [n2, n2', n3 hcl, n3' (by rw [hr.same]; exact hcl), this]

/-- C253: without smoothing, leaving the controls more freedom never increases the lap time of a closed lap. -/
theorem C253_laptime (hnd : v.integralNames.Nodup) (hcl : r.isClosed = true) (hr : FreerRequest v r r')
    (hrest : r.isDirect = true ∨ MayRest v) (hs : NoSmoothing r) (hs' : NoSmoothing r')
    (hlap : Optimum lowest max v r p lap node) (hlap' : Optimum lowest max v r' p' lap' node') :
    lap'.laptime ≤ lap.laptime := by
  obtain ⟨nd, t0, n1, n2, n3, -⟩ := hlap.laptime
  obtain ⟨nd', t0', n1', n2', n3', -⟩ := hlap'.laptime
  have h : Optimum lowest max v r p lap nd := { hlap with nodes := n1 }
  have h' : Optimum lowest max v r' p' lap' nd' := { hlap' with nodes := n1' }
  have := C253_freer hnd hcl hr (hrest.imp id Or.inl) h h'
  rw [lapCost, lapCost, h.unsmoothed hs, h'.unsmoothed hs', add_zero, add_zero] at this
  rw [n2, n2', n3 hcl, n3' (by rw [hr.same]; exact hcl)]
  linarith

/-- C254: more smoothing never decreases the lap time. -/
theorem C254_laptime (f : K) (hf : 1 < f) (hr : r' = { r with controls := r.controls.map (smoother f), warm := r'.warm })
    (hnd : v.integralNames.Nodup) (hlap : Optimum lowest max v r p lap node) (hlap' : Optimum lowest max v r' p' lap' node') :
    lap.laptime ≤ lap'.laptime := by
  obtain ⟨nd, t0, n1, n2, n3, n4⟩ := hlap.laptime
  obtain ⟨nd', t0', n1', n2', n3', n4'⟩ := hlap'.laptime
  have h : Optimum lowest max v r p lap nd := { hlap with nodes := n1 }
  have h' : Optimum lowest max v r' p' lap' nd' := { hlap' with nodes := n1' }
  have := (C254_smoother f hf hr hnd h h').1
  rw [n2, n2']
  have ht : t0' = t0 := by
    have hcl : r'.isClosed = r.isClosed := by rw [hr]
    cases hc : r.isClosed with
    | true => rw [n3 hc, n3' (hcl.trans hc)]
    | false =>
      have h2 := (prepare_ok h.prepared).1.two
      have hlen := (prepare_ok h.prepared).1.inputs
      obtain ⟨row, hrow⟩ : ∃ row, r.inputs[0]? = some row := ⟨_, List.getElem?_eq_getElem (by omega)⟩
      rw [n4 hc row hrow, n4' (hcl.trans hc) row (by rw [hr]; exact hrow)]
  rw [ht]
  linarith

end

/-! ### Concrete laps -/

section ex

/-- A vehicle with one control that moves freely across a closed track of 30 m and half width `w`, at a pace (time per metre)
that depends on where it is and on the control. -/
def lane (pace : ℝ → ℝ → ℝ) (w : ℝ) : Vehicle ℝ :=
  { nInputs := 2, iTime := 0, sTime := 0, nExtra := 0, timeIds := [], algIds := [1], controlsDef := [0],
    dcontrolsLb := [-10], dcontrolsUb := [10], extraLb := fun _ _ => 0, extraUb := fun _ _ => 0,
    trackLength := 30, leftLimit := fun _ => w, rightLimit := fun _ => w, integralNames := [],
    eval := fun row u _ => ⟨row, fun k => if k = 0 then pace (row 1) (u.getD 0 0) else 0, fun _ => 0, fun _ => 1⟩, ready := true }

theorem lane_wf (pace : ℝ → ℝ → ℝ) (w : ℝ) : (lane pace w).WellFormed 1 := ⟨show 0 + 1 < 2 by decide, rfl, rfl⟩

theorem lane_clockFree (pace : ℝ → ℝ → ℝ) (w : ℝ) : ClockFree (lane pace w) where
  same := by
    intro row row' u s h
    have : row 1 = row' 1 := h 1 (show 1 < 2 by decide) (show 1 ≠ 0 by decide)
    refine ⟨?_, rfl, rfl, fun q hq => by cases hq⟩
    simp only [lane, this]

/-- A closed lap over the nodes at 0, 10 and 20 m in direct form, started at the lateral displacement `x`. -/
noncomputable def laneRequest (c : CV ℝ) (x lb ub : ℝ) : Request ℝ :=
  { s := [0, 10, 20], isClosed := true, isDirect := true, inputs := [fun _ => x, fun _ => x, fun _ => x], controls := [c],
    warm := none,
    opts := { inputsLb := fun _ => -1, inputsUb := fun _ => 1, controlsLb := fun _ => lb, controlsUb := fun _ => ub,
              integral := [], sigma := 1 / 2 } }

/-- The control is `u` everywhere, in one of three definitions. -/
def Always (u : ℝ) (c : CV ℝ) : Prop :=
  c = createDontOptimize ∧ u = 0 ∨ c = createConstant u ∨ ∃ diss, 0 ≤ diss ∧ c = createFullMesh [u, u, u] diss

/-- If no lateral displacement within the track and no control within its bounds is faster than those of the request, the
request is answered with a best lap. -/
theorem lane_best {pace : ℝ → ℝ → ℝ} {w x u lb ub : ℝ} {c : CV ℝ} (hc : Always u c) (hx : -w ≤ x ∧ x ≤ w) (hu : lb ≤ u ∧ u ≤ ub)
    (hpace : ∀ y a, -w ≤ y → y ≤ w → (c.kind = .dontOptimize → a = 0) → (c.kind ≠ .dontOptimize → lb ≤ a ∧ a ≤ ub) →
      pace x u ≤ pace y a) :
    ∃ (p : Problem ℝ) (lap : Lap ℝ) (node : Nat → Node ℝ),
      Optimum (-10 ^ 9) (10 ^ 9) (lane pace w) (laneRequest c x lb ub) p lap node := by
  obtain ⟨r, hr⟩ : ∃ r, r = laneRequest c x lb ub := ⟨_, rfl⟩
  rw [← hr]
  have hwf : (lane pace w).WellFormed r.controls.length := by rw [hr]; exact lane_wf pace w
  have hm : meaningful c = c := by
    rcases hc with ⟨rfl, -⟩ | rfl | ⟨d, hd, rfl⟩ <;> rfl
  have hcov : ∀ p, prepare (-10 ^ 9) (10 ^ 9) (lane pace w) r = .ok p → HypermeshCovers p := by
    intro p hp d hd hk
    rw [(prepare_ok hp).2.controls, hr, show (laneRequest c x lb ub).controls = [c] from rfl, List.map_singleton, hm,
      List.mem_singleton] at hd
    subst hd
    exfalso
    rcases hc with ⟨rfl, -⟩ | rfl | ⟨d, hd, rfl⟩ <;> cases hk
  have hacc : Acceptable (lane pace w) r := by
    subst hr
    refine ⟨by simp [laneRequest], ?_, (fun h => by cases h), rfl, ?_, ?_, ?_, rfl⟩
    · intro _ x y hx hy
      simp [laneRequest] at hx hy
      subst hx hy
      norm_num [lane]
    · intro d hd'
      simp only [laneRequest, List.mem_singleton] at hd'
      subst hd'
      rcases hc with ⟨rfl, -⟩ | rfl | ⟨d, hd, rfl⟩
      · exact .dontOptimize rfl rfl rfl rfl
      · exact .constant rfl rfl rfl rfl
      · exact .fullMesh rfl rfl (Or.inl rfl) hd
    · intro d hd' hk
      simp only [laneRequest, List.mem_singleton] at hd'
      subst hd'
      rcases hc with ⟨rfl, -⟩ | rfl | ⟨d, hd, rfl⟩
      · cases hk
      · cases hk
      · exact ⟨rfl, rfl⟩
    · intro x hx
      cases hx
  obtain ⟨p, ini, nlp, hp, _, _, h4, _⟩ := C189_set_up (-10 ^ 9) (10 ^ 9) (lane pace w) r hwf hacc hcov
    (fun h => by rw [hr] at h; cases h)
  have hset := h4 (Or.inl (by rw [hr]; rfl))
  have hg := (prepare_ok hp).2
  rw [hr] at hg
  have hn : p.nPoints = 3 := hg.nPoints
  have he : p.nElements = 3 := hg.nElements
  have hs : p.s = [0, 10, 20] := hg.s
  have hdi : p.isDirect = true := hg.isDirect
  have hin : p.inputs = [fun _ => x, fun _ => x, fun _ => x] := hg.inputs
  have hcs : p.controls = [c] := by
    rw [hg.controls, show (laneRequest c x lb ub).controls = [c] from rfl, List.map_singleton, hm]
  have hlb : p.opts.controlsLb = fun _ => lb := by rw [hg.opts]; rfl
  have hub : p.opts.controlsUb = fun _ => ub := by rw [hg.opts]; rfl
  have hσ : p.opts.sigma = 1 / 2 := by rw [hg.opts]; rfl
  have hq0 : p.quantities = [] := List.length_eq_zero_iff.1 hg.nQuantities
  have hopt : ∀ i, i < 3 → Optimised p i := fun i hi => by
    have hcl : p.isClosed = true := hg.isClosed
    simp [Optimised, hn, hcl, firstNode]
    omega
  have hnode : ∀ (st : Loaded ℝ) (nd : Nat → Node ℝ), FitsProblem p st → EvaluatedNodes (lane pace w) p st nd → ∀ (i : Nat), i < 3 →
      ∃ row cv a, st.inputs[i]? = some row ∧ st.controls[0]? = some cv ∧ SameFrame c cv ∧ ExpectedControl cv 0 i (10 * i) a ∧
        p.s[i]? = some (10 * (i : ℝ)) ∧
        (nd i).s = 10 * i ∧ dtds (lane pace w) (nd i).eq = pace (row 1) a ∧ (nd i).eq.dstates 1 = 0 := by
    intro st nd hf hn' i hi
    obtain ⟨row, s, u, e1, e2, e3, e4, e5⟩ := hn' i (by omega)
    have : s = 10 * i := by
      rw [hs] at e2
      interval_cases i <;> simp at e2 <;> rw [← e2] <;> norm_num
    subst this
    have hl : st.controls.length = 1 := by rw [hf.controls, hcs]; rfl
    obtain ⟨cv, hcv⟩ : ∃ cv, st.controls[0]? = some cv := ⟨_, List.getElem?_eq_getElem (by omega)⟩
    obtain ⟨a, ha⟩ : ∃ a, u[0]? = some a := ⟨_, List.getElem?_eq_getElem (by omega)⟩
    refine ⟨row, cv, a, e1, hcv, hf.frames 0 c cv (by rw [hcs]; rfl) hcv, e4 0 cv 0 a hcv rfl ha, e2, by rw [e5], ?_, ?_⟩
    · rw [e5]
      simp [dtds, lane, List.getD_eq_getElem?_getD, ha]
    · rw [e5]
      simp [lane]
  have hself : FitsProblem p ⟨p.inputs, p.controls⟩ := by
    refine ⟨by rw [hin, hn]; rfl, rfl, fun k cv cv' h1 h2 => ?_⟩
    obtain rfl := Option.some.inj (h1.symm.trans h2)
    exact ⟨rfl, rfl, rfl, rfl, rfl⟩
  have hvalue : ∀ i s a, i < 3 → ExpectedControl c 0 i s a → a = u := by
    intro i s a hi h
    rcases hc with ⟨rfl, rfl⟩ | rfl | ⟨d, hd, rfl⟩
    · simpa [ExpectedControl, createDontOptimize] using h
    · simpa [ExpectedControl, createConstant, eq_comm] using h
    · interval_cases i <;> simpa [ExpectedControl, createFullMesh, eq_comm] using h
  have hfirst : ∀ (nd : Nat → Node ℝ), EvaluatedNodes (lane pace w) p ⟨p.inputs, p.controls⟩ nd → ∀ i, i < 3 →
      (nd i).s = 10 * i ∧ dtds (lane pace w) (nd i).eq = pace x u := by
    intro nd hn' i hi
    obtain ⟨row, cv, a, e1, e2, e3, e4, -, e5, e6, -⟩ := hnode _ nd hself hn' i hi
    refine ⟨e5, ?_⟩
    simp only [hcs, List.getElem?_cons_zero, Option.some.injEq] at e2
    subst e2
    simp only [hin] at e1
    have := List.mem_of_getElem? e1
    simp at this
    rw [e6, this, hvalue i _ a hi e4]
  have hdur : ∀ (nd : Nat → Node ℝ) (a b c : ℝ), (nd 0).s = 10 * (0 : Nat) → (nd 1).s = 10 * (1 : Nat) → (nd 2).s = 10 * (2 : Nat) →
      dtds (lane pace w) (nd 0).eq = a → dtds (lane pace w) (nd 1).eq = b → dtds (lane pace w) (nd 2).eq = c →
      lapDuration (lane pace w) p nd = 10 * (a + b + c) := by
    intro nd a b c s0 s1 s2 e0 e1 e2
    simp only [lapDuration, quadrature, quadratureTo, he, hσ, Finset.sum_range_succ, Finset.sum_range_zero, elementLength,
      rightNode, hn, e0, e1, e2, s0, s1, s2]
    norm_num [show (lane pace w).trackLength = 30 from rfl, e0, e1, e2, s0, s1, s2]
    ring
  have hsum : ∀ (ctrls : List (CV ℝ)) (ins : List (Row ℝ)) (nd : Nat → Node ℝ), FitsProblem p ⟨ins, ctrls⟩ →
      EvaluatedNodes (lane pace w) p ⟨ins, ctrls⟩ nd → 0 ≤ smoothing (lane pace w) p nd ctrls := by
    intro ctrls ins nd hfit hnd
    simp only [smoothing, hdi, if_true, overFullMesh]
    refine List.sum_nonneg ?_
    intro x hx
    obtain ⟨cv, hcv, rfl⟩ := List.mem_map.1 hx
    obtain ⟨cv', hcv', hfr⟩ := hfit.mem (cv' := cv) (List.mem_filter.1 hcv).1
    refine Finset.sum_nonneg fun e hee => mul_nonneg (mul_nonneg ?_ (sq_nonneg _)) ?_
    · rw [hcs, List.mem_singleton] at hcv'
      rw [hfr.diss, hcv']
      rcases hc with ⟨rfl, -⟩ | rfl | ⟨d, hd, rfl⟩
      · exact le_rfl
      · exact le_rfl
      · exact hd
    · rw [he, Finset.mem_range] at hee
      obtain ⟨_, _, _, -, -, -, -, -, s0, -⟩ := hnode _ nd hfit hnd 0 (by omega)
      obtain ⟨_, _, _, -, -, -, -, -, s1, -⟩ := hnode _ nd hfit hnd 1 (by omega)
      obtain ⟨_, _, _, -, -, -, -, -, s2, -⟩ := hnode _ nd hfit hnd 2 (by omega)
      interval_cases e <;> simp [elementLength, hn, s0, s1, s2, lane] <;> norm_num
  have hflat : ∀ nd, smoothing (lane pace w) p nd p.controls = 0 := by
    intro nd
    rw [hcs]
    simp only [smoothing, hdi, if_true, overFullMesh]
    rcases hc with ⟨rfl, -⟩ | rfl | ⟨d, hd, rfl⟩
    · simp [createDontOptimize]
    · simp [createConstant]
    · simp [createFullMesh, slopePenalty, he, Finset.sum_range_succ, valueAt, rightNode, hn]
  have hs : (LapVehicles.bestOpt nlp).success = true := by
    refine LapVehicles.bestOpt_success hwf (lane_clockFree pace w) hset (hcov p hp) (fun node hnd => ?_) ?_
    · have hrow : ∀ (i : Nat) (row : Row ℝ), p.inputs[i]? = some row → ∀ k, row k = x := by
        intro i row h k
        rw [hin] at h
        have := List.mem_of_getElem? h
        simp at this
        rw [this]
      have hone : ∀ (k : Nat) (cv : CV ℝ), p.controls[k]? = some cv → cv = c := fun k cv h => by
        rw [hcs] at h
        simpa using List.mem_of_getElem? h
      have hall : ∀ a ∈ c.controls, a = u := by
        intro a ha
        rcases hc with ⟨rfl, -⟩ | rfl | ⟨d, hd, rfl⟩
        · cases ha
        · simpa [createConstant] using ha
        · simpa [createFullMesh] using ha
      refine ⟨?_, ?_, ?_, ?_, ?_, ?_, ?_, ?_, ?_, ?_⟩
      · intro i row si _ h _
        rw [hrow i row h]
        simpa [lane] using hx
      · intro i j row _ hj h0 h1 _
        exfalso
        have hj : j < 2 := hj
        have h0 : j ≠ 0 := h0
        have h1 : j ≠ 0 + 1 := h1
        omega
      · intro i k cv a _ h _ ha
        rw [hone k cv h] at ha
        rw [hall a (List.mem_of_getElem? ha), hlb, hub]
        simpa using hu
      · intro k j cv a h _ ha
        rw [hone k cv h] at ha
        rw [hall a (List.mem_of_getElem? ha), hlb, hub]
        simpa using hu
      · intro h
        rw [hdi] at h
        cases h
      · intro e k _ hk
        cases hk
      · intro e k _ hk
        obtain rfl : k = 1 := by simpa [lane] using hk
        obtain ⟨_, _, _, -, -, -, -, -, -, -, h0⟩ := hnode _ node hself hnd (rightNode p e) (by unfold rightNode; split <;> omega)
        rw [h0]
        simp
      · intro e k sr _ hk
        cases hk
      · intro h
        rw [hdi] at h
        cases h
      · intro k q hk
        rw [hq0] at hk
        cases hk
    · intro ins ctrls node node0 hfit hnd hob _ hnd0
      have hnot : ∀ i, i < 3 → (node i).s = 10 * i ∧ pace x u ≤ dtds (lane pace w) (node i).eq := by
        intro i hi
        obtain ⟨row, cv, a, e1, e2, e3, e4, e7, e5, e6, -⟩ := hnode _ node hfit hnd i hi
        refine ⟨e5, ?_⟩
        rw [e6]
        have hl := hob.lateral i row _ (hopt i hi) e1 e7
        rw [show (lane pace w).leftLimit = fun _ => w from rfl, show (lane pace w).rightLimit = fun _ => w from rfl,
          show (lane pace w).iTime = 0 from rfl] at hl
        refine hpace _ _ (by simpa using hl.1) (by simpa using hl.2) (fun hk => ?_) (fun hk => ?_)
        · rw [← e3.kind] at hk
          simpa [ExpectedControl, hk] using e4
        · rw [← e3.kind] at hk
          cases hk' : cv.kind with
          | dontOptimize => exact absurd hk' hk
          | constant =>
            have h := hob.other 0 0 cv a e2 (Or.inl hk') (by
              have h1 : cv.controls = [a] := by simpa [ExpectedControl, hk'] using e4
              rw [h1]
              rfl)
            simpa [hlb, hub] using h
          | unknown => simp [ExpectedControl, hk'] at e4
          | hypermesh =>
            exfalso
            rw [e3.kind] at hk'
            rcases hc with ⟨rfl, -⟩ | rfl | ⟨d, hd, rfl⟩ <;> cases hk'
          | fullMesh =>
            have h := hob.full i 0 cv a (hopt i hi) e2 hk' (by simpa [ExpectedControl, hk'] using e4)
            simpa [hlb, hub] using h
      obtain ⟨s0, t0⟩ := hnot 0 (by omega)
      obtain ⟨s1, t1⟩ := hnot 1 (by omega)
      obtain ⟨s2, t2⟩ := hnot 2 (by omega)
      obtain ⟨z0, w0⟩ := hfirst node0 hnd0 0 (by omega)
      obtain ⟨z1, w1⟩ := hfirst node0 hnd0 1 (by omega)
      obtain ⟨z2, w2⟩ := hfirst node0 hnd0 2 (by omega)
      rw [hflat, hdur node _ _ _ s0 s1 s2 rfl rfl rfl, hdur node0 _ _ _ z0 z1 z2 w0 w1 w2]
      have := hsum ctrls ins node hfit hnd
      linarith
  obtain ⟨lap, g1, g2, _⟩ := (C189_returned _ _ _ _ hwf p ini nlp hset (hcov p hp) LapVehicles.bestOpt
    LapVehicles.bestOpt_sizes true).1 (Or.inl hs)
  obtain ⟨node, t0, -, -, -, -, hnd, -⟩ := C190_own_times _ _ _ _ hwf (lane_clockFree pace w) p ini nlp hset (hcov p hp)
    LapVehicles.bestOpt LapVehicles.bestOpt_sizes true lap g1
  exact ⟨p, lap, node, hwf, lane_clockFree pace w, hcov p hp, ⟨ini, nlp, LapVehicles.bestOpt, true, hset, LapVehicles.bestOpt_sizes,
    LapVehicles.bestOpt_reliable, LapVehicles.bestOpt_minimises, g1⟩, g2.trans hs, hnd⟩

/-- C251: a best lap 2 m right of the centre, at the edge of a track of half width 2 m and inside one of 4 m. -/
example : ∃ (p p' : Problem ℝ) (lap lap' : Lap ℝ) (node node' : Nat → Node ℝ),
    Optimum (-10 ^ 9) (10 ^ 9) (lane (fun x _ => 1 + (x - 2) ^ 2) 2) (laneRequest (createConstant 0) 2 0 1) p lap node ∧
    Optimum (-10 ^ 9) (10 ^ 9) (lane (fun x _ => 1 + (x - 2) ^ 2) 4) (laneRequest (createConstant 0) 2 (-1) 1) p' lap' node' ∧
    lapCost (lane (fun x _ => 1 + (x - 2) ^ 2) 4) p' node' lap'.controls ≤
      lapCost (lane (fun x _ => 1 + (x - 2) ^ 2) 2) p node lap.controls ∧ lap'.laptime ≤ lap.laptime := by
  obtain ⟨pace, hpd⟩ : ∃ pace : ℝ → ℝ → ℝ, pace = fun x _ => 1 + (x - 2) ^ 2 := ⟨_, rfl⟩
  rw [← hpd]
  have hpace : ∀ y a, pace 2 0 ≤ pace y a := fun y a => by
    rw [hpd]
    have := sq_nonneg (y - 2)
    norm_num
    linarith
  obtain ⟨p, lap, node, h⟩ := lane_best (pace := pace) (w := 2) (x := 2) (u := 0) (lb := 0) (ub := 1) (c := createConstant 0)
    (Or.inr (Or.inl rfl)) (by norm_num) (by norm_num) (fun y a _ _ _ _ => hpace y a)
  obtain ⟨p', lap', node', h'⟩ := lane_best (pace := pace) (w := 4) (x := 2) (u := 0) (lb := -1) (ub := 1) (c := createConstant 0)
    (Or.inr (Or.inl rfl)) (by norm_num) (by norm_num) (fun y a _ _ _ _ => hpace y a)
  have hv : LooserVehicle (lane pace 2) (lane pace 4) := ⟨rfl, fun _ => by norm_num [lane], fun _ => by norm_num [lane],
    fun _ _ => le_rfl, fun _ _ => le_rfl, fun c l h => ⟨l, h, le_rfl⟩, fun c l h => ⟨l, h, le_rfl⟩⟩
  have hr : LooserRequest (laneRequest (createConstant 0) 2 0 1) (laneRequest (createConstant 0) 2 (-1) 1) :=
    ⟨rfl, rfl, fun _ => le_rfl, fun _ => le_rfl, fun _ => by norm_num [laneRequest], fun _ => le_rfl,
      fun nm nm' l u h => by simp [laneRequest, lastRequest] at h⟩
  exact ⟨p, p', lap, lap', node, node', h, h', C251_looser List.nodup_nil hv hr h h',
    C251_laptime List.nodup_nil hv hr (by intro c hc hk; simp [laneRequest] at hc; subst hc; cases hk) h h'⟩

/-- C252: a pace that does not depend on the control; laps started with the control at 0 and at 1 take as long. -/
example : ∃ (p p' : Problem ℝ) (lap lap' : Lap ℝ) (node node' : Nat → Node ℝ),
    Optimum (-10 ^ 9) (10 ^ 9) (lane (fun x _ => 5 - x) 2) (laneRequest (createFullMesh [0, 0, 0] 3) 2 0 1) p lap node ∧
    Optimum (-10 ^ 9) (10 ^ 9) (lane (fun x _ => 5 - x) 2) (laneRequest (createFullMesh [1, 1, 1] 3) 2 0 1) p' lap' node' ∧
    lapCost (lane (fun x _ => 5 - x) 2) p' node' lap'.controls = lapCost (lane (fun x _ => 5 - x) 2) p node lap.controls := by
  obtain ⟨p, lap, node, h⟩ := lane_best (pace := fun x _ => 5 - x) (w := 2) (x := 2) (u := 0) (lb := 0) (ub := 1)
    (c := createFullMesh [0, 0, 0] 3) (Or.inr (Or.inr ⟨3, by norm_num, rfl⟩)) (by norm_num) (by norm_num)
    (fun y a _ h _ _ => by linarith)
  obtain ⟨p', lap', node', h'⟩ := lane_best (pace := fun x _ => 5 - x) (w := 2) (x := 2) (u := 1) (lb := 0) (ub := 1)
    (c := createFullMesh [1, 1, 1] 3) (Or.inr (Or.inr ⟨3, by norm_num, rfl⟩)) (by norm_num) (by norm_num)
    (fun y a _ h _ _ => by linarith)
  have hr : OtherGuess (laneRequest (createFullMesh [0, 0, 0] 3) 2 0 1) (laneRequest (createFullMesh [1, 1, 1] 3) 2 0 1) := by
    refine ⟨rfl, rfl, ?_⟩
    intro c cv cv' h1 h2
    have h3 := List.mem_of_getElem? h1
    have h4 := List.mem_of_getElem? h2
    simp only [laneRequest, List.mem_singleton] at h3 h4
    subst h3 h4
    exact ⟨rfl, rfl, rfl, rfl, rfl⟩
  exact ⟨p, p', lap, lap', node, node', h, h', C252_guess List.nodup_nil rfl hr h h'⟩

/-- C253: a pace that is fastest with the control at 1. With the control left at its default 0 the lap takes 60 s, with a constant
control 30 s. -/
example : ∃ (p p' : Problem ℝ) (lap lap' : Lap ℝ) (node node' : Nat → Node ℝ),
    Optimum (-10 ^ 9) (10 ^ 9) (lane (fun _ u => 2 - u) 2) (laneRequest createDontOptimize 0 0 1) p lap node ∧
    Optimum (-10 ^ 9) (10 ^ 9) (lane (fun _ u => 2 - u) 2) (laneRequest (createConstant 1) 0 0 1) p' lap' node' ∧
    lapCost (lane (fun _ u => 2 - u) 2) p' node' lap'.controls ≤ lapCost (lane (fun _ u => 2 - u) 2) p node lap.controls ∧
    lap'.laptime ≤ lap.laptime := by
  obtain ⟨p, lap, node, h⟩ := lane_best (pace := fun _ u => 2 - u) (w := 2) (x := 0) (u := 0) (lb := 0) (ub := 1)
    (c := createDontOptimize) (Or.inl ⟨rfl, rfl⟩) (by norm_num) (by norm_num) (fun y a _ _ h _ => by rw [h rfl])
  obtain ⟨p', lap', node', h'⟩ := lane_best (pace := fun _ u => 2 - u) (w := 2) (x := 0) (u := 1) (lb := 0) (ub := 1)
    (c := createConstant 1) (Or.inr (Or.inl rfl)) (by norm_num) (by norm_num)
    (fun y a _ _ _ h => by have := (h (fun h => by cases h)).2; linarith)
  have hr : FreerRequest (lane (fun _ u => 2 - u) 2) (laneRequest createDontOptimize 0 0 1) (laneRequest (createConstant 1) 0 0 1) := by
    refine ⟨rfl, rfl, ?_⟩
    intro c cv cv' d h1 h2 h3
    have h4 := List.mem_of_getElem? h1
    have h5 := List.mem_of_getElem? h2
    have h6 := List.mem_of_getElem? h3
    simp only [laneRequest, lane, List.mem_singleton] at h4 h5 h6
    subst h4 h5 h6
    exact .optimised rfl (fun h => by cases h) le_rfl (by norm_num [laneRequest])
  have ns : ∀ c : CV ℝ, c.kind ≠ .fullMesh → NoSmoothing (laneRequest c 0 0 1) := fun c hk c' hc hk' => by
    simp only [laneRequest, List.mem_singleton] at hc
    exact absurd (hc ▸ hk') hk
  exact ⟨p, p', lap, lap', node, node', h, h', C253_freer List.nodup_nil rfl hr (Or.inl rfl) h h',
    C253_laptime List.nodup_nil rfl hr (Or.inl rfl) (ns _ (fun h => by cases h)) (ns _ (fun h => by cases h)) h h'⟩

/-- C254: the best laps with the weights 1 and 2 of the smoothing penalty. -/
example : ∃ (p p' : Problem ℝ) (lap lap' : Lap ℝ) (node node' : Nat → Node ℝ),
    Optimum (-10 ^ 9) (10 ^ 9) (lane (fun _ u => 2 - u) 2) (laneRequest (createFullMesh [1, 1, 1] 1) 0 0 1) p lap node ∧
    Optimum (-10 ^ 9) (10 ^ 9) (lane (fun _ u => 2 - u) 2) (laneRequest (createFullMesh [1, 1, 1] 2) 0 0 1) p' lap' node' ∧
    lap.laptime ≤ lap'.laptime := by
  obtain ⟨p, lap, node, h⟩ := lane_best (pace := fun _ u => 2 - u) (w := 2) (x := 0) (u := 1) (lb := 0) (ub := 1)
    (c := createFullMesh [1, 1, 1] 1) (Or.inr (Or.inr ⟨1, by norm_num, rfl⟩)) (by norm_num) (by norm_num)
    (fun y a _ _ _ h => by have := (h (fun h => by cases h)).2; linarith)
  obtain ⟨p', lap', node', h'⟩ := lane_best (pace := fun _ u => 2 - u) (w := 2) (x := 0) (u := 1) (lb := 0) (ub := 1)
    (c := createFullMesh [1, 1, 1] 2) (Or.inr (Or.inr ⟨2, by norm_num, rfl⟩)) (by norm_num) (by norm_num)
    (fun y a _ _ _ h => by have := (h (fun h => by cases h)).2; linarith)
  exact ⟨p, p', lap, lap', node, node', h, h', C254_laptime 2 (by norm_num)
    (by simp [laneRequest, smoother, createFullMesh]) List.nodup_nil h h'⟩

end ex

end Verif.Transcription
