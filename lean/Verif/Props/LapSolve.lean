import Verif.Lemmas.LapRestart

/-! # A computed lap (C188..C192)

From the request through the optimiser to the lap that is returned. The optimiser is a parameter;
what is assumed of it is stated in each theorem (`RightSizes`, `Reliable`, `Minimises`, see
Spec/LapSolve). -/

set_option autoImplicit false

namespace Verif.Transcription

open Verif.Control

section
variable {K : Type*} [Field K] [LinearOrder K]

/-! ## C188: the cost function has no memory -/

/-- C188: whatever vectors were evaluated before, the cost function gives at `x` what a new one
gives there, and neither evaluation fails. -/
theorem C188_no_memory (lowest max : K) (v : Vehicle K) (r : Request K) (hv : v.WellFormed r.controls.length)
    (p : Problem K) (ini : Initial K) (nlp : Nlp K) (hset : setUp lowest max v r = .ok (p, ini, nlp))
    (hcov : HypermeshCovers p) (xs : List (List K)) (hxs : ∀ y ∈ xs, y.length = nlp.start.length)
    (x : List K) (hx : x.length = nlp.start.length) :
    ∃ st fg st', visitAll v p ini xs (initialLoaded p) = .ok st ∧ fgOf v p ini st x = .ok (fg, st') ∧
      nlp.value x = .ok fg := by
  obtain ⟨es, b, h⟩ := setUp_ready hv hset hcov
  rw [h.start.1] at hx
  obtain ⟨st, h1, h2⟩ := h.run.visitAll_fresh xs _ (fresh_initial v p)
    (fun y hy => (hxs y hy).trans h.start.1)
  obtain ⟨st', h3, _, h5⟩ := h.run.load_fresh h2 hx
  obtain ⟨node, hn⟩ := h.run.nodes h5.fits
  obtain ⟨c, h6, _⟩ := h.run.value_at h3 h5.fits hn
  obtain ⟨c', h7, _⟩ := h.run.value_at ((h.run.load_same (fresh_initial v p) h2 hx).trans h3) h5.fits hn
  refine ⟨st, _, st', h1, h6, ?_⟩
  have : c' = c := by
    rw [fgOf_eq, h.run.load_same (fresh_initial v p) h2 hx, ← fgOf_eq, h6] at h7
    simpa using (Res.ok.inj h7).symm
  subst this
  rw [h.nlp]
  simp only [nlpOf, h7]
  rfl

/-! ## C189: when a lap is returned -/

/-- C189: a request that is accepted is handed to the optimiser, unless multipliers of a wrong size
are given: then an exception is thrown. In the derivative form the vehicle must bound the rates of
the controls, and no control may be constant (else C04, C103). -/
theorem C189_set_up (lowest max : K) (v : Vehicle K) (r : Request K) (hv : v.WellFormed r.controls.length)
    (hacc : Acceptable v r) (hcov : ∀ p, prepare lowest max v r = .ok p → HypermeshCovers p)
    (hd : r.isDirect = false → v.RatesBounded r.controls ∧ ∀ c ∈ r.controls, c.kind ≠ .constant) :
    ∃ (p : Problem K) (ini : Initial K) (nlp : Nlp K), prepare lowest max v r = .ok p ∧
      nlp.start.length = nVariables v p ∧ nlp.conBounds.length = nConstraints v p ∧
      ((r.warm = none ∨ ∃ zl zu lambda, r.warm = some (zl, zu, lambda) ∧ zl.length = nlp.start.length ∧
          zu.length = nlp.start.length ∧ lambda.length = nlp.conBounds.length) →
        setUp lowest max v r = .ok (p, ini, nlp)) ∧
      (∀ zl zu lambda, r.warm = some (zl, zu, lambda) → ¬ (zl.length = nlp.start.length ∧
          zu.length = nlp.start.length ∧ lambda.length = nlp.conBounds.length) →
        setUp lowest max v r = .throw) := by
  obtain ⟨p, hp, hg⟩ := prepare_accepted lowest max v r hacc
  have hs := prepare_shape hp
  obtain ⟨ini, hi⟩ := initialOf_ok hs (prepare_consistent hp) (wellFormed_defaults hv hp) (hcov p hp)
  obtain ⟨es, he⟩ := packOf_ok hv.lateral hs lowest max (fun hd' => by
    rw [hg.isDirect] at hd'
    exact ⟨ratesBounded hp (hd hd').1, noConstant hp (hd hd').2⟩)
  obtain ⟨b, hb1, hb2, _⟩ := C64_constraint_bounds lowest max v r hv p hp
  have hl := (packOf_layout hv.lateral hs he).1.length
  refine ⟨p, ini, nlpOf v p ini es b, hp, by simpa [nlpOf] using hl, hb2, ?_⟩
  have hst : (nlpOf v p ini es b).start.length = nVariables v p := by simpa [nlpOf] using hl
  have hcb : (nlpOf v p ini es b).conBounds.length = nConstraints v p := hb2
  simp only [setUp, hp, hi, he, hb1, Res.bind_ok, hst, hcb]
  unfold checkWarm
  rw [hg.warm]
  constructor
  · rintro (hw | ⟨zl, zu, la, hw, e1, e2, e3⟩)
    · simp [hw, Res.bind]
    · simp [hw, e1, e2, e3, Res.bind]
  · intro zl zu la hw he
    rw [hw]
    by_cases e1 : zl.length = nVariables v p <;> by_cases e2 : zu.length = nVariables v p <;>
      by_cases e3 : la.length = nConstraints v p <;> simp_all [Res.bind]

/-- C189: any other request ends in an exception before the optimiser is called. -/
theorem C189_refused (lowest max : K) (v : Vehicle K) (r : Request K) (h : ¬ Acceptable v r)
    (opt : Optimiser K) (tf : Bool) : solveLap lowest max v tf opt r = .throw := by
  rw [solveLap, setUp, prepare_rejected lowest max v r h]
  rfl

/-- C189: with a problem set up, a lap is returned exactly when the optimiser converges or failures
are tolerated; otherwise an exception is thrown. The lap carries the verdict and the vectors of the
optimiser. -/
theorem C189_returned (lowest max : K) (v : Vehicle K) (r : Request K) (hv : v.WellFormed r.controls.length)
    (p : Problem K) (ini : Initial K) (nlp : Nlp K) (hset : setUp lowest max v r = .ok (p, ini, nlp))
    (hcov : HypermeshCovers p) (opt : Optimiser K) (hopt : RightSizes opt) (tf : Bool) :
    ((opt nlp).success = true ∨ tf = false → ∃ lap, solveLap lowest max v tf opt r = .ok lap ∧
      lap.success = (opt nlp).success ∧ lap.x = (opt nlp).x ∧ lap.zl = (opt nlp).zl ∧ lap.zu = (opt nlp).zu ∧
      lap.lambda = (opt nlp).lambda) ∧
    ((opt nlp).success = false → tf = true → solveLap lowest max v tf opt r = .throw) := by
  obtain ⟨es, b, h⟩ := setUp_ready hv hset hcov
  obtain ⟨st, row0, h1, h2, h3, h4, h5⟩ := h.solve hset hopt tf
  obtain ⟨node, hn⟩ := h.run.nodes h3.fits
  rw [h5 node hn]
  constructor
  · intro hs
    refine ⟨_, if_neg ?_, rfl, rfl, rfl, rfl, rfl⟩
    rcases hs with hs | hs <;> simp [hs]
  · intro hs ht
    exact if_pos (by simp [hs, ht])

/-! ## C190: the lap that is returned -/

/-- C190: the times, the lap time and the integral quantities of a returned lap are those of its
own inputs and controls (converged or not); it is given over the mesh of the request. Its clock
starts at zero on a closed track, at the time of the first requested node otherwise, where it also
starts with the requested inputs and controls. -/
theorem C190_own_times (lowest max : K) (v : Vehicle K) (r : Request K) (hv : v.WellFormed r.controls.length)
    (hcf : ClockFree v)
    (p : Problem K) (ini : Initial K) (nlp : Nlp K) (hset : setUp lowest max v r = .ok (p, ini, nlp))
    (hcov : HypermeshCovers p) (opt : Optimiser K) (hopt : RightSizes opt) (tf : Bool) (lap : Lap K)
    (hlap : solveLap lowest max v tf opt r = .ok lap) :
    ∃ (node : Nat → Node K) (t0 : K), lap.s = p.s ∧ lap.isClosed = r.isClosed ∧ lap.isDirect = r.isDirect ∧
      FitsProblem p ⟨lap.inputs, lap.controls⟩ ∧ EvaluatedNodes v p ⟨lap.inputs, lap.controls⟩ node ∧
      (∀ (i : Nat) (row : Row K), lap.inputs[i]? = some row →
        row v.iTime = t0 + quadratureTo v p node (fun nd => dtds v nd.eq) i) ∧
      lap.laptime = t0 + lapDuration v p node ∧
      lap.quantities.length = p.quantities.length ∧
      (∀ (k : Nat) (q : Quantity K), p.quantities[k]? = some q →
        lap.quantities[k]? = some { q with value := codedIntegral v p node k }) ∧
      (r.isClosed = true → t0 = 0) ∧
      (r.isClosed = false → SameStart v p lap.inputs lap.controls ∧
        ∀ row, r.inputs[0]? = some row → t0 = row v.iTime) := by
  obtain ⟨es, b, h⟩ := setUp_ready hv hset hcov
  obtain ⟨st, row0, node, h1, h2, h3, h4, h5, h6, h7, h8⟩ := h.lap hset hopt hlap
  have hg := (prepare_ok h.run.prepared).2
  have htwo := h.run.shape.two
  have hctl : lap.controls = st.controls := by rw [h6]; rfl
  obtain ⟨f, hf1, _⟩ := evaluated_reclock hcf h7 h8 (controls := st.controls) h5
  obtain ⟨i1, i2⟩ := h.run.initial_spec
  refine ⟨reclock node f, row0 v.iTime, by rw [h6]; rfl, by rw [h6]; exact hg.isClosed, by rw [h6]; exact hg.isDirect,
    ⟨h7.trans h3.fits.inputs, by rw [hctl]; exact h3.fits.controls, by rw [hctl]; exact h3.fits.frames⟩,
    by rw [hctl]; exact hf1, ?_, by rw [h6]; rfl, by rw [h6]; simp [lapOf], ?_, ?_, ?_⟩
  · intro i row hr
    rw [h6] at hr
    simp only [lapOf, setTimes, List.getElem?_zipWith] at hr
    split at hr
    · rename_i x y hx hy
      rw [← Option.some.inj hr, Function.update_self]
      rw [List.getElem?_map] at hy
      obtain ⟨k, hk1, hk2⟩ := Option.map_eq_some_iff.1 hy
      rw [List.getElem?_range (by
        by_contra hlt
        rw [List.getElem?_eq_none (by simpa using hlt)] at hk1
        simp at hk1)] at hk1
      obtain rfl := Option.some.inj hk1
      exact hk2.symm
    · simp at hr
  · intro k q hq
    have hk := (List.getElem?_eq_some_iff.1 hq).1
    rw [h6]
    simp only [lapOf, List.getElem?_zipWith, hq, List.getElem?_map, List.getElem?_range hk, Option.map_some]
    rfl
  · intro hc
    exact h3.rows 0 row0 ⟨by rw [hg.isClosed, hc]; exact Nat.le_refl 0, by omega⟩ h4 v.iTime (Or.inl rfl)
  · intro hc
    rw [← hg.isClosed] at hc
    have e0 := h2.firstInputs hc
    rw [h4] at e0
    have e0 := Option.some.inj e0
    refine ⟨⟨?_, ?_⟩, ?_⟩
    · intro row row' hr hr' j hj ht
      rw [i1] at hr'
      rw [← Option.some.inj hr', ← e0]
      exact (h8 0 row0 row trivial h4 hr j hj ht).symm
    · intro c cv cv' hcv hcv' hk
      rw [hctl] at hcv
      have hkk := (h3.fits.frames c cv' cv hcv' hcv)
      obtain ⟨j1, j2⟩ := h2.firstControls hc c cv hcv (hkk.kind.trans hk)
      refine ⟨j1.trans (i2 c cv' hcv' hk).1, ?_⟩
      cases hd : p.isDirect with
      | false => exact (j2 hd).trans ((i2 c cv' hcv' hk).2 hd)
      | true =>
        have e1 := h.run.shape.rates cv' (List.mem_of_getElem? hcv') hk
        have e2 := hkk.nRates
        rw [e1, hd] at e2
        rw [hd] at e1
        rw [List.eq_nil_of_length_eq_zero e1, List.eq_nil_of_length_eq_zero e2]
    · intro row hr
      rw [← hg.inputs, i1] at hr
      rw [e0, ← Option.some.inj hr]

variable [IsStrictOrderedRing K]

/-- C190: when the optimiser reports success, the lap obeys the equations of motion and every limit
up to its tolerances. -/
theorem C190_lap_obeys (lowest max : K) (v : Vehicle K) (r : Request K) (hv : v.WellFormed r.controls.length)
    (hcf : ClockFree v)
    (p : Problem K) (ini : Initial K) (nlp : Nlp K) (hset : setUp lowest max v r = .ok (p, ini, nlp))
    (hcov : HypermeshCovers p) (opt : Optimiser K) (hopt : RightSizes opt) (tolB tolC : K)
    (hrel : Reliable tolB tolC opt) (tf : Bool) (lap : Lap K) (hlap : solveLap lowest max v tf opt r = .ok lap)
    (hsuc : lap.success = true) (node : Nat → Node K)
    (hnode : EvaluatedNodes v p ⟨lap.inputs, lap.controls⟩ node) :
    Obeys v p tolB tolC lap.inputs lap.controls node := by
  obtain ⟨es, b, h⟩ := setUp_ready hv hset hcov
  obtain ⟨st, row0, nd, h1, h2, h3, h4, h5, h6, h7, h8⟩ := h.lap hset hopt hlap
  have hctl : lap.controls = st.controls := by rw [h6]; rfl
  have hs : (opt nlp).success = true := by rw [← hsuc, h6]; rfl
  obtain ⟨f, hf1, hf2⟩ := evaluated_reclock hcf (b := st.inputs) h7.symm
    (fun i ra rb _ ha hb j hj ht => (h8 i rb ra trivial hb ha j hj ht).symm) hnode
  rw [hctl] at hf1
  obtain ⟨c, k1, k2⟩ := h.run.value_at h1 h3.fits hf1
  obtain ⟨w1, w2⟩ := hrel nlp _ c hs (by rw [h.nlp] at k1 ⊢; simp only [nlpOf] at k1 ⊢; rw [k1]; rfl)
  rw [h.nlp] at w1 w2
  have ho := obeys_of_within hv.lateral h.run.shape h.layout h.bounds h3.fits h2.holds k2
    (by rw [h.nlp]; exact w1) (by exact w2)
  rw [hctl]
  have back : reclock (reclock node f) (fun i => (node i).eq.states) = node := rfl
  rw [← back]
  refine Obeys.reclock hv.lateral h.run.shape h7 h8 ?_ ho
  intro i hi q hq
  exact (hf2 i hi q hq).symm

/-! ## C191: no lap is faster -/

/-- C191: when the optimiser reports success and is a global minimiser, no lap over the same mesh
that obeys the equations and limits exactly (and starts as requested, on an open track) has a lower
time plus smoothing penalty. -/
theorem C191_no_better_lap (lowest max : K) (v : Vehicle K) (r : Request K) (hv : v.WellFormed r.controls.length)
    (hcf : ClockFree v)
    (p : Problem K) (ini : Initial K) (nlp : Nlp K) (hset : setUp lowest max v r = .ok (p, ini, nlp))
    (hcov : HypermeshCovers p) (opt : Optimiser K) (hopt : RightSizes opt)
    (hmin : Minimises opt) (tf : Bool) (lap : Lap K) (hlap : solveLap lowest max v tf opt r = .ok lap)
    (hsuc : lap.success = true) (node : Nat → Node K)
    (hnode : EvaluatedNodes v p ⟨lap.inputs, lap.controls⟩ node)
    (ins : List (Row K)) (ctrls : List (CV K)) (node' : Nat → Node K) (hfit : FitsProblem p ⟨ins, ctrls⟩)
    (hnode' : EvaluatedNodes v p ⟨ins, ctrls⟩ node') (hob : Obeys v p 0 0 ins ctrls node')
    (hst : r.isClosed = false → SameStart v p ins ctrls) :
    lapDuration v p node + smoothing v p node lap.controls ≤ lapDuration v p node' + smoothing v p node' ctrls := by
  obtain ⟨es, b, h⟩ := setUp_ready hv hset hcov
  obtain ⟨st, row0, nd, h1, h2, h3, h4, h5, h6, h7, h8⟩ := h.lap hset hopt hlap
  have hg := (prepare_ok h.run.prepared).2
  have hctl : lap.controls = st.controls := by rw [h6]; rfl
  have hs : (opt nlp).success = true := by rw [← hsuc, h6]; rfl
  obtain ⟨f, hf1, _⟩ := evaluated_reclock hcf (b := st.inputs) h7.symm
    (fun i ra rb _ ha hb j hj ht => (h8 i rb ra trivial hb ha j hj ht).symm) hnode
  rw [hctl] at hf1
  obtain ⟨c, k1, k2⟩ := h.run.value_at h1 h3.fits hf1
  obtain ⟨y, y1, y2⟩ := exists_vector hv.lateral h.run.shape h.rates hfit
  obtain ⟨su, l1, l2, l3, l4⟩ := h.run.load_lap hfit (fun hc => hst (hg.isClosed ▸ hc)) y1 y2
  have hlen : su.inputs.length = ins.length := l2.fits.inputs.trans hfit.inputs.symm
  obtain ⟨f', g1, g2⟩ := evaluated_reclock hcf hlen l4 hnode'
  rw [← l3] at g1
  obtain ⟨c', m1, m2⟩ := h.run.value_at l1 l2.fits g1
  have hob' : Obeys v p 0 0 su.inputs su.controls (reclock node' f') := by
    rw [l3]
    exact Obeys.reclock hv.lateral h.run.shape hlen l4 g2 hob
  have hyd : Holds v p su.inputs su.controls y := by
    rw [l3]
    exact y2.sameInputs hlen l4
  obtain ⟨w1, w2⟩ := within_of_obeys hv.lateral hv.equations h.run.shape h.layout h.bounds l2.fits y1 hyd m2 hob'
  have := hmin nlp _ c y _ c' hs
    (by rw [h.nlp] at k1 ⊢; simp only [nlpOf] at k1 ⊢; rw [k1]; rfl)
    (y1.trans h.start.1.symm) (by rw [h.nlp]; exact w1)
    (by rw [h.nlp]; simp only [nlpOf]; rw [m1]; rfl) (by rw [h.nlp]; exact w2)
  rw [l3] at this
  rw [hctl]
  exact this

/-- C191: without dissipation, no such lap has a lower time. -/
theorem C191_fastest (lowest max : K) (v : Vehicle K) (r : Request K) (hv : v.WellFormed r.controls.length)
    (hcf : ClockFree v)
    (p : Problem K) (ini : Initial K) (nlp : Nlp K) (hset : setUp lowest max v r = .ok (p, ini, nlp))
    (hcov : HypermeshCovers p) (opt : Optimiser K) (hopt : RightSizes opt)
    (hmin : Minimises opt) (tf : Bool) (lap : Lap K) (hlap : solveLap lowest max v tf opt r = .ok lap)
    (hsuc : lap.success = true)
    (hdiss : ∀ c ∈ r.controls, c.kind = .fullMesh → c.dissipation = 0)
    (ins : List (Row K)) (ctrls : List (CV K)) (node' : Nat → Node K) (hfit : FitsProblem p ⟨ins, ctrls⟩)
    (hnode' : EvaluatedNodes v p ⟨ins, ctrls⟩ node') (hob : Obeys v p 0 0 ins ctrls node')
    (hst : r.isClosed = false → SameStart v p ins ctrls) :
    ∃ t0, (r.isClosed = true → t0 = 0) ∧
      (r.isClosed = false → ∀ row, r.inputs[0]? = some row → t0 = row v.iTime) ∧
      lap.laptime ≤ t0 + lapDuration v p node' := by
  obtain ⟨node, t0, _, _, _, a1, a2, _, a4, _, _, a5, a6⟩ := C190_own_times lowest max v r hv hcf p ini nlp hset hcov
    opt hopt tf lap hlap
  have hp : prepare lowest max v r = .ok p := by
    obtain ⟨es, b, h⟩ := setUp_ready hv hset hcov
    exact h.run.prepared
  have hz : ∀ (nd : Nat → Node K) (ii : List (Row K)) (cs : List (CV K)), FitsProblem p ⟨ii, cs⟩ →
      smoothing v p nd cs = 0 := by
    intro nd ii cs hf
    have hz : ∀ c ∈ cs, c.kind = .fullMesh → c.dissipation = 0 := by
      intro c hc hk
      obtain ⟨d, hd, hfr⟩ := hf.mem (cv' := c) hc
      rw [(prepare_ok hp).2.controls] at hd
      obtain ⟨e, he, rfl⟩ := List.mem_map.1 hd
      have hke : e.kind = .fullMesh := hfr.kind.symm.trans hk
      rw [hfr.diss]
      simp only [meaningful, hke, if_true]
      exact hdiss e he hke
    have sum0 : ∀ g : CV K → K, (∀ c ∈ cs, c.kind = .fullMesh → g c = 0) → overFullMesh g cs = 0 := by
      intro g hg
      unfold overFullMesh
      apply List.sum_eq_zero
      intro a ha
      obtain ⟨c, hc, rfl⟩ := List.mem_map.1 ha
      rw [List.mem_filter] at hc
      exact hg c hc.1 (by simpa using hc.2)
    unfold smoothing
    split
    · exact sum0 _ (fun c hc hk => by simp [slopePenalty, hz c hc hk])
    · exact sum0 _ (fun c hc hk => by simp [codedRatePenalty, hz c hc hk])
  have := C191_no_better_lap lowest max v r hv hcf p ini nlp hset hcov opt hopt hmin tf lap hlap hsuc node a2 ins ctrls
    node' hfit hnode' hob hst
  rw [hz node _ _ a1, hz node' _ _ hfit, add_zero, add_zero] at this
  refine ⟨t0, a5, fun hc => (a6 hc).2, ?_⟩
  rw [a4]
  exact add_le_add (le_refl t0) this

/-! ## C192: restarting from a lap -/

/-- C192: a lap (of the optimiser, converged or not) can be used as warm start with any options that
ask for the same integral constraints: the request is accepted, the optimiser starts from the vector
of the lap and gets its multipliers in the order lambda, zl, zu. -/
theorem C192_warm_start (lowest max : K) (v : Vehicle K) (r : Request K) (hv : v.WellFormed r.controls.length)
    (p : Problem K) (ini : Initial K) (nlp : Nlp K) (hset : setUp lowest max v r = .ok (p, ini, nlp))
    (hcov : HypermeshCovers p) (opt : Optimiser K) (hopt : RightSizes opt) (tf : Bool) (lap : Lap K)
    (hlap : solveLap lowest max v tf opt r = .ok lap) (o : Options K) (ho : o.integral = r.opts.integral) :
    ∃ p2 ini2 nlp2, setUp lowest max v (restart lap o) = .ok (p2, ini2, nlp2) ∧ HypermeshCovers p2 ∧
      nlp2.start = lap.x ∧ nlp2.warm = some (lap.lambda, lap.zl, lap.zu) ∧ p2.opts = o ∧
      (o = r.opts → nlp2.bounds = nlp.bounds ∧ nlp2.conBounds = nlp.conBounds ∧
        ∀ y : List K, y.length = lap.x.length → nlp2.value y = nlp.value y) := by
  obtain ⟨es, b, h⟩ := setUp_ready hv hset hcov
  obtain ⟨st, row0, node, h1, h2, h3, h4, h5, h6, h7, h8⟩ := h.lap hset hopt hlap
  have hg := (prepare_ok h.run.prepared).2
  have hs := h.run.shape
  have hctl : lap.controls = st.controls := by rw [h6]; rfl
  have hfit : FitsProblem p ⟨lap.inputs, lap.controls⟩ :=
    ⟨h7.trans h3.fits.inputs, by rw [hctl]; exact h3.fits.controls, by rw [hctl]; exact h3.fits.frames⟩
  have hfit' : FitsProblem { p with opts := o } ⟨lap.inputs, lap.controls⟩ :=
    ⟨hfit.inputs, hfit.controls, hfit.frames⟩
  have hs' : Shape { p with opts := o } := ⟨hs.two, hs.s, hs.inputs, hs.elements, hs.const1, hs.values, hs.rates,
    hs.noRates, hs.idle, hs.consistent, hs.full, hs.other⟩
  have hx : lap.x = (opt nlp).x := by rw [h6]; rfl
  have hzl : lap.zl = (opt nlp).zl := by rw [h6]; rfl
  have hzu : lap.zu = (opt nlp).zu := by rw [h6]; rfl
  have hla : lap.lambda = (opt nlp).lambda := by rw [h6]; rfl
  have hreq : restart lap o =
      ⟨p.s, p.isClosed, p.isDirect, lap.inputs, lap.controls, some (lap.zl, lap.zu, lap.lambda), o⟩ := by
    rw [restart, h6]; rfl
  have hprep := restart_prepare h.run.prepared hfit (some (lap.zl, lap.zu, lap.lambda)) o ho
  rw [← hreq] at hprep
  generalize hw : some (lap.zl, lap.zu, lap.lambda) = w at hprep
  generalize hp2 : withData { p with opts := o } lap.inputs lap.controls w = p2 at hprep
  have e_s : p2.s = p.s := by rw [← hp2]; rfl
  have e_cl : p2.isClosed = p.isClosed := by rw [← hp2]; rfl
  have e_di : p2.isDirect = p.isDirect := by rw [← hp2]; rfl
  have e_nv : nVariables v p2 = nVariables v p := by rw [← hp2]; rfl
  have e_nc : nConstraints v p2 = nConstraints v p := by rw [← hp2]; rfl
  have e_c : p2.controls = lap.controls := by rw [← hp2]; rfl
  have e_i : p2.inputs = lap.inputs := by rw [← hp2]; rfl
  have e_w : p2.warm = w := by rw [← hp2]; rfl
  have hwf : v.WellFormed (restart lap o).controls.length := by
    have : (restart lap o).controls.length = r.controls.length := by
      rw [hreq]
      exact hfit.controls.trans (by rw [hg.controls, List.length_map])
    rw [this]
    exact hv
  have hcov2 : HypermeshCovers p2 := by
    intro c hc hk
    rw [e_c] at hc
    obtain ⟨d, hd, hf⟩ := hfit.mem (cv' := c) hc
    rw [e_s, hf.mesh]
    exact hcov d hd (hf.kind.symm.trans hk)
  have hs2 := prepare_shape hprep
  obtain ⟨ini2, hi2⟩ := initialOf_ok hs2 (prepare_consistent hprep) (wellFormed_defaults hwf hprep) hcov2
  obtain ⟨es2, he2⟩ := packOf_ok hwf.lateral hs2 lowest max (fun hd => by
    rw [e_di] at hd
    rw [e_c]
    exact hfit.rates (h.rates hd))
  have hl2 := (packOf_layout hwf.lateral hs2 he2).1
  obtain ⟨b2, hb1, hb2, _⟩ := C64_constraint_bounds lowest max v _ hwf p2 hprep
  have hwarm : checkWarm v p2 = .ok () := by
    unfold checkWarm
    rw [e_w, ← hw]
    simp only [e_nv, e_nc]
    rw [hzl, hzu, hla, hopt.zl, hopt.zu, hopt.lambda, h.start.1, h.start.2]
    simp
  have hset2 : setUp lowest max v (restart lap o) = .ok (p2, ini2, nlpOf v p2 ini2 es2 b2) := by
    simp only [setUp, hprep, hi2, he2, hb1, hwarm, Res.bind_ok]
  refine ⟨p2, ini2, nlpOf v p2 ini2 es2 b2, hset2, hcov2, ?_, ?_, by rw [← hp2]; rfl, ?_⟩
  · have k1 := hl2.holds hs2
    rw [e_i, e_c] at k1
    rw [← hp2] at k1
    have k2 := withData_holds hfit' w k1
    have k3 : Holds v p lap.inputs lap.controls (es2.map Entry.start) := ⟨k2.inputs, k2.full, k2.rates, k2.other⟩
    have k4 : Holds v p lap.inputs lap.controls lap.x := by
      rw [hctl, hx]
      exact h2.holds.sameInputs h7 h8
    exact Holds.unique hv.lateral hs hfit.inputs hfit.controls hfit.frames
      (by simp only [nlpOf]; rw [List.length_map, hl2.length, e_nv]) (by rw [hx, hopt.x, h.start.1]) k3 k4
  · simp only [nlpOf, e_w, ← hw, Option.map_some]
  · rintro rfl
    have hpo : ({ p with opts := r.opts } : Problem K) = p := by
      rw [← hg.opts]
    rw [hpo] at hp2
    have hrun2 : Run lowest max v (restart lap r.opts) p2 ini2 := by
      refine ⟨hwf, hprep, ?_, hcov2⟩
      rw [← (prepare_ok hprep).2.isDirect]
      exact hi2
    refine ⟨?_, ?_, ?_⟩
    · rw [h.nlp]
      rw [← hp2] at hl2
      exact withData_layout hfit w hs h.layout hl2
    · rw [h.nlp]
      simp only [nlpOf]
      rw [← hp2, withData_bounds hfit, h.con] at hb1
      exact (Res.ok.inj hb1).symm
    · intro y hy
      rw [hx, hopt.x, h.start.1] at hy
      obtain ⟨su, l1, l2, l3⟩ := h.run.load_fresh (fresh_initial v p) hy
      obtain ⟨su2, m1, m2, m3⟩ := hrun2.load_fresh (fresh_initial v p2) (hy.trans e_nv.symm)
      obtain ⟨i1, i2⟩ := h.run.initial_spec
      obtain ⟨j1, j2⟩ := hrun2.initial_spec
      have e_ini : initialLoaded p2 = initialLoaded p := by rw [← hp2]; exact withData_initial hfit w
      have m2' : Decoded v p ini2 (initialLoaded p) su2 y := by
        refine ⟨withData_fits hfit w (by rw [hp2]; exact m2.fits), withData_holds hfit w (by rw [hp2]; exact m2.holds),
          ?_, ?_, ?_, ?_⟩
        · intro i ra rb hi hra hrb
          rw [← e_ini] at hra
          exact m2.time i ra rb (by rw [← hp2]; exact hi) hra hrb
        · intro hc
          exact m2.firstInputs (e_cl.trans hc)
        · intro hc c cv hcv hk
          obtain ⟨n1, n2⟩ := m2.firstControls (e_cl.trans hc) c cv hcv hk
          exact ⟨n1, fun hd => n2 (e_di.trans hd)⟩
        · intro c cv cv' hcv
          rw [← e_ini] at hcv
          exact m2.others c cv cv' hcv
      have m3' : Fresh v p su2 := ⟨m2'.fits, fun i row hi hr => m3.rows i row (by rw [← hp2]; exact hi) hr⟩
      have heq : su = su2 := by
        refine fresh_eq hs l2 m2' l3 m3' ?_ ?_
        · intro hc
          have e0 := h2.firstInputs hc
          rw [h4] at e0
          have e0 := Option.some.inj e0
          rw [← e0]
          rw [e_i] at j1
          rw [h6] at j1
          have htwo := hs.two
          simp only [lapOf, setTimes, List.getElem?_zipWith, h4, List.getElem?_map,
            List.getElem?_range (show 0 < p.nPoints by omega), Option.map_some, Option.some.injEq] at j1
          rw [← j1]
          simp [quadratureTo]
        · intro hc c cv hcv hk
          obtain ⟨cw, hcw⟩ := exists_get_of_length h3.fits.controls hcv
          have hkw := (h3.fits.kinds c cv cw hcv hcw).trans hk
          obtain ⟨n1, n2⟩ := h2.firstControls hc c cw hcw hkw
          obtain ⟨q1, q2⟩ := j2 c cw (by rw [e_c, hctl]; exact hcw) hkw
          exact ⟨n1.symm.trans q1.symm, fun hd => (n2 hd).symm.trans (q2 (e_di.trans hd)).symm⟩
      subst heq
      obtain ⟨nd, hn⟩ := h.run.nodes l3.fits
      have hn2 : EvaluatedNodes v p2 su nd := by
        rw [← hp2]; exact hn
      obtain ⟨c, a1, a2⟩ := h.run.value_at l1 l3.fits hn
      obtain ⟨c2, b1, b2'⟩ := hrun2.value_at m1 m3.fits hn2
      have hc : c2 = c := by
        rw [← hp2] at b2'
        exact RowsAre.unique hv.equations l3.fits.controls l3.fits.kinds (withData_rows hfit w b2') a2
      rw [h.nlp]
      simp only [nlpOf]
      rw [a1, b1, hc, ← hp2]
      rfl

end

/-! ## A concrete lap -/

section ex

/-- A vehicle that needs two seconds per metre and keeps its first input. -/
def exSlow : Vehicle ℚ :=
  { exVehicle with eval := fun row _ s => ⟨row, fun j => if j = 1 then 2 else 0, fun j => s + j, fun _ => 0⟩ }

/-- A closed or open lap with constant controls, one of them given at every node. -/
def exLapRequest (closed : Bool) : Request ℚ :=
  { s := [0, 10, 20], isClosed := closed, isDirect := true,
    inputs := [fun j => j, fun j => 2 * j, fun j => 3 * j],
    controls := [createDontOptimize, createConstant 1, createHypermesh [0, 15] [1, 2], createFullMesh [3, 3, 3] 1],
    warm := none, opts := { exOptions with integral := [(['b'], -1, 1)] } }

theorem exSlow_clockFree : ClockFree exSlow := by
  refine ⟨fun row row' u s h => ⟨rfl, rfl, rfl, ?_⟩⟩
  intro q hq
  simp only [exSlow, exVehicle, List.mem_singleton] at hq
  subst hq
  exact h 0 (by decide) (by decide)

theorem exSlow_wf (closed : Bool) : exSlow.WellFormed (exLapRequest closed).controls.length :=
  ⟨by decide, by decide, rfl⟩

theorem exLap_acceptable (closed : Bool) : Acceptable exSlow (exLapRequest closed) := by
  refine ⟨by simp [exLapRequest], ?_, ?_, rfl, ?_, ?_, ?_, rfl⟩
  · intro _ a b ha hb
    simp [exLapRequest] at ha hb; subst ha; subst hb
    norm_num [exSlow, exVehicle]
  · intro _ a b ha hb
    simp [exLapRequest] at ha hb; subst ha; subst hb
    norm_num [exSlow, exVehicle]
  · intro c hc
    simp only [exLapRequest, List.mem_cons, List.not_mem_nil, or_false] at hc
    rcases hc with rfl | rfl | rfl | rfl
    · exact .dontOptimize rfl rfl rfl rfl
    · exact .constant rfl rfl rfl rfl
    · exact .hypermesh rfl rfl rfl
    · exact .fullMesh rfl rfl (Or.inl rfl) (by norm_num [createFullMesh])
  · intro c hc hk
    simp only [exLapRequest, List.mem_cons, List.not_mem_nil, or_false] at hc
    rcases hc with rfl | rfl | rfl | rfl <;> try simp [createDontOptimize, createConstant, createHypermesh] at hk
    exact ⟨rfl, rfl⟩
  · intro q hq
    simp only [exLapRequest, List.mem_cons, List.not_mem_nil, or_false] at hq
    subst hq
    simp [exSlow, exVehicle]

theorem exLap_covers (closed : Bool) (p : Problem ℚ)
    (hp : prepare (-10 ^ 9) (10 ^ 9) exSlow (exLapRequest closed) = .ok p) : HypermeshCovers p := by
  have g := (prepare_ok hp).2
  have hs : p.s = [0, 10, 20] := by rw [g.s]; cases closed <;> rfl
  intro c hc hk
  rw [g.controls] at hc
  simp only [exLapRequest, List.map_cons, List.map_nil, List.mem_cons, List.not_mem_nil, or_false] at hc
  rcases hc with rfl | rfl | rfl | rfl <;>
    try simp [createDontOptimize, createConstant, createFullMesh, meaningful] at hk
  refine ⟨by simp [createHypermesh, meaningful], 0, rfl, ?_⟩
  rw [hs]; simp

theorem exLap_setUp (closed : Bool) : ∃ p ini nlp,
    setUp (-10 ^ 9) (10 ^ 9) exSlow (exLapRequest closed) = .ok (p, ini, nlp) ∧ HypermeshCovers p := by
  obtain ⟨p, ini, nlp, h1, _, _, h4, _⟩ := C189_set_up (-10 ^ 9) (10 ^ 9) exSlow (exLapRequest closed) (exSlow_wf closed)
    (exLap_acceptable closed) (exLap_covers closed) (fun h => by simp [exLapRequest] at h)
  exact ⟨p, ini, nlp, h4 (Or.inl rfl), exLap_covers closed p h1⟩

/-- An optimiser that returns the starting point, and claims success when that is a feasible
minimum. -/
noncomputable def exOpt : Optimiser ℚ := fun nlp =>
  { success := @decide ((∀ cost c, nlp.value nlp.start = .ok (cost :: c) →
        Within 0 nlp.start nlp.bounds ∧ Within 0 c nlp.conBounds) ∧
      ∀ cost c y cost' c', nlp.value nlp.start = .ok (cost :: c) → y.length = nlp.start.length →
        Within 0 y nlp.bounds → nlp.value y = .ok (cost' :: c') → Within 0 c' nlp.conBounds → cost ≤ cost')
      (Classical.propDecidable _)
    x := nlp.start, zl := nlp.start.map fun _ => 0, zu := nlp.start.map fun _ => 1
    lambda := nlp.conBounds.map fun _ => 2, visited := [nlp.start, nlp.start.map fun a => a + 1] }

theorem exOpt_sizes : RightSizes exOpt :=
  ⟨fun _ => rfl, fun _ => by simp [exOpt], fun _ => by simp [exOpt], fun _ => by simp [exOpt], fun nlp y hy => by
    simp only [exOpt, List.mem_cons, List.not_mem_nil, or_false] at hy
    rcases hy with rfl | rfl <;> simp⟩

theorem exOpt_reliable : Reliable 0 0 exOpt := fun _ cost c hs hv =>
  ((@decide_eq_true_iff _ (Classical.propDecidable _)).1 hs).1 cost c hv

theorem exOpt_minimises : Minimises exOpt := fun _ cost c y cost' c' hs hv h1 h2 h3 h4 =>
  ((@decide_eq_true_iff _ (Classical.propDecidable _)).1 hs).2 cost c y cost' c' hv h1 h2 h3 h4

/-- The nodes of `exSlow`. -/
theorem exSlow_node {p : Problem ℚ} {st : Loaded ℚ} {node : Nat → Node ℚ} (hn : EvaluatedNodes exSlow p st node)
    {i : Nat} (hi : i < p.nPoints) : ∃ row si, st.inputs[i]? = some row ∧ p.s[i]? = some si ∧
      (node i).s = si ∧ (node i).eq = ⟨row, fun j => if j = 1 then 2 else 0, fun j => si + j, fun _ => 0⟩ := by
  obtain ⟨row, si, u, h1, h2, _, _, h5⟩ := hn i hi
  exact ⟨row, si, h1, h2, by rw [h5], by rw [h5]; rfl⟩

theorem exSlow_duration {p : Problem ℚ} (hp : Shape p) {st su : Loaded ℚ} {a b : Nat → Node ℚ}
    (ha : EvaluatedNodes exSlow p st a) (hb : EvaluatedNodes exSlow p su b) :
    lapDuration exSlow p a = lapDuration exSlow p b := by
  have hs : ∀ i, i < p.nPoints → (a i).s = (b i).s ∧ dtds exSlow (a i).eq = 2 ∧ dtds exSlow (b i).eq = 2 := by
    intro i hi
    obtain ⟨r1, s1, _, h2, h3, h4⟩ := exSlow_node ha hi
    obtain ⟨r2, s2, _, g2, g3, g4⟩ := exSlow_node hb hi
    rw [h2] at g2
    obtain rfl := Option.some.inj g2
    exact ⟨h3.trans g3.symm, by rw [h4]; rfl, by rw [g4]; rfl⟩
  unfold lapDuration quadrature quadratureTo
  apply Finset.sum_congr rfl
  intro e he
  have he' := element_lt hp (Finset.mem_range.1 he)
  obtain ⟨e1, e2, e3⟩ := hs e he'
  obtain ⟨_, e5, e6⟩ := hs (rightNode p e) (rightNode_lt hp e)
  have : elementLength exSlow p a e = elementLength exSlow p b e := by
    unfold elementLength
    split
    · rename_i hlt
      rw [(hs (e + 1) hlt).1, e1]
    · rw [e1]
  simp only [this, e2, e3, e5, e6]

/-- The requested lap obeys. -/
theorem exLap_obeys (closed : Bool) {p : Problem ℚ}
    (hp : prepare (-10 ^ 9) (10 ^ 9) exSlow (exLapRequest closed) = .ok p) {node : Nat → Node ℚ}
    (hn : EvaluatedNodes exSlow p ⟨p.inputs, p.controls⟩ node) : Obeys exSlow p 0 0 p.inputs p.controls node := by
  have g := (prepare_ok hp).2
  have hsh := prepare_shape hp
  have hs : p.s = [0, 10, 20] := by rw [g.s]; cases closed <;> rfl
  have hi : p.inputs = [fun j : Nat => (j : ℚ), fun j : Nat => 2 * (j : ℚ), fun j : Nat => 3 * (j : ℚ)] := g.inputs
  have ho : p.opts = { exOptions with integral := [(['b'], -1, 1)] } := g.opts
  have hc : p.controls = [createDontOptimize, createConstant 1, createHypermesh [0, 15] [1, 2],
      createFullMesh [3, 3, 3] 1] := by
    rw [g.controls]
    simp [exLapRequest, meaningful, createDontOptimize, createConstant, createHypermesh, createFullMesh]
  have hd : p.isDirect = true := g.isDirect
  have hzero : ∀ i, i < p.nPoints → (node i).eq.states 0 = 0 := by
    intro i hi'
    obtain ⟨row, si, h1, _, _, h4⟩ := exSlow_node hn hi'
    rw [h4]
    simp only at h1
    rw [hi] at h1
    match i, h1 with
    | 0, h1 => simp at h1; rw [← h1]; simp
    | 1, h1 => simp at h1; rw [← h1]; simp
    | 2, h1 => simp at h1; rw [← h1]; simp
  refine ⟨?_, ?_, ?_, ?_, by simp [hd], ?_, ?_, ?_, by simp [hd], ?_⟩
  · intro i row si _ hr hsi
    rw [hi] at hr
    rw [hs] at hsi
    match i, hr, hsi with
    | 0, hr, hsi => simp at hr hsi; subst hr; subst hsi; norm_num [exSlow, exVehicle]
    | 1, hr, hsi => simp at hr hsi; subst hr; subst hsi; norm_num [exSlow, exVehicle]
    | 2, hr, hsi => simp at hr hsi; subst hr; subst hsi; norm_num [exSlow, exVehicle]
  · intro i j row _ hj ht hl hr
    have hj0 : j = 0 := by
      simp only [exSlow, exVehicle] at hj ht hl
      omega
    subst hj0
    rw [hi] at hr
    rw [ho]
    match i, hr with
    | 0, hr => simp at hr; subst hr; norm_num [exOptions]
    | 1, hr => simp at hr; subst hr; norm_num [exOptions]
    | 2, hr => simp at hr; subst hr; norm_num [exOptions]
  · intro i c cv a _ hcv hk ha
    rw [hc] at hcv
    rw [ho]
    match c, hcv with
    | 0, hcv => simp at hcv; subst hcv; simp [createDontOptimize] at hk
    | 1, hcv => simp at hcv; subst hcv; simp [createConstant] at hk
    | 2, hcv => simp at hcv; subst hcv; simp [createHypermesh] at hk
    | 3, hcv =>
      simp at hcv; subst hcv
      have : a = 3 := by
        have := List.mem_of_getElem? ha
        simpa [createFullMesh] using this
      subst this
      norm_num [exOptions]
  · intro c k cv a hcv hk ha
    rw [hc] at hcv
    rw [ho]
    match c, hcv with
    | 0, hcv => simp at hcv; subst hcv; simp [createDontOptimize] at hk
    | 1, hcv =>
      simp at hcv; subst hcv
      have : a = 1 := by simpa [createConstant] using List.mem_of_getElem? ha
      subst this
      norm_num [exOptions]
    | 2, hcv =>
      simp at hcv; subst hcv
      have : a = 1 ∨ a = 2 := by simpa [createHypermesh] using List.mem_of_getElem? ha
      rcases this with rfl | rfl <;> norm_num [exOptions]
    | 3, hcv => simp at hcv; subst hcv; simp [createFullMesh] at hk
  · intro e q he hq
    have hq0 : q = 0 := by simpa [exSlow, exVehicle] using hq
    subst hq0
    obtain ⟨_, _, _, _, _, h4⟩ := exSlow_node hn (element_lt hsh he)
    obtain ⟨_, _, _, _, _, h5⟩ := exSlow_node hn (rightNode_lt hsh e)
    rw [hzero _ (element_lt hsh he), hzero _ (rightNode_lt hsh e), h4, h5]
    simp
  · intro e q he hq
    have hq0 : q = 2 := by simpa [exSlow, exVehicle] using hq
    subst hq0
    obtain ⟨_, _, _, _, _, h5⟩ := exSlow_node hn (rightNode_lt hsh e)
    rw [h5]
    simp
  · intro e k sr he hk hsr
    obtain ⟨_, si, _, h2, _, h5⟩ := exSlow_node hn (rightNode_lt hsh e)
    rw [hsr] at h2
    obtain rfl := Option.some.inj h2
    rw [h5]
    simp [exSlow, exVehicle]
  · intro k q hq hr
    have hz : codedIntegral exSlow p node k = 0 := by
      unfold codedIntegral
      apply Finset.sum_eq_zero
      intro e he
      have he' := element_lt hsh (Finset.mem_range.1 he)
      obtain ⟨_, _, _, _, _, h4⟩ := exSlow_node hn he'
      obtain ⟨_, _, _, _, _, h5⟩ := exSlow_node hn (rightNode_lt hsh e)
      simp only [integrand, h4, h5]
      simp
    have hnd : exSlow.integralNames.Nodup := by decide
    have hq' := g.quantities hnd
    rw [hz]
    have hk := (List.getElem?_eq_some_iff.1 hq).1
    rw [g.nQuantities] at hk
    match k, hk with
    | 0, _ =>
      rw [hq' 0 ['a'] rfl] at hq
      simp [lastRequest, exLapRequest] at hq
      rw [← hq] at hr
      simp at hr
    | 1, _ =>
      rw [hq' 1 ['b'] rfl] at hq
      simp [lastRequest, exLapRequest] at hq
      rw [← hq]
      norm_num

theorem fits_self (p : Problem ℚ) (hp : Shape p) : FitsProblem p ⟨p.inputs, p.controls⟩ := by
  refine ⟨hp.inputs, rfl, ?_⟩
  intro c a b ha hb
  simp only at hb
  rw [ha] at hb
  obtain rfl := Option.some.inj hb
  exact ⟨rfl, rfl, rfl, rfl, rfl⟩

/-- The optimiser of the example converges on the example. -/
theorem exOpt_success (closed : Bool) {p : Problem ℚ} {ini : Initial ℚ} {nlp : Nlp ℚ}
    (hset : setUp (-10 ^ 9) (10 ^ 9) exSlow (exLapRequest closed) = .ok (p, ini, nlp)) (hcov : HypermeshCovers p) :
    (exOpt nlp).success = true := by
  obtain ⟨es, b, h⟩ := setUp_ready (exSlow_wf closed) hset hcov
  have g := (prepare_ok h.run.prepared).2
  have hsh := h.run.shape
  have hf := fits_self p hsh
  obtain ⟨node, hn⟩ := h.run.nodes hf
  have hst : nlp.start = es.map Entry.start := by rw [h.nlp]; rfl
  have hlen : nlp.start.length = nVariables exSlow p := h.start.1
  have hh : Holds exSlow p p.inputs p.controls nlp.start := by rw [hst]; exact h.layout.holds hsh
  obtain ⟨su, l1, l2, l3, l4⟩ := h.run.load_lap hf (fun _ => ⟨fun row row' h1 h2 j _ _ => by
      rw [h1] at h2
      rw [Option.some.inj h2], fun c a b ha hb _ => by
      rw [ha] at hb
      obtain rfl := Option.some.inj hb
      exact ⟨rfl, rfl⟩⟩) hlen hh
  have hl : su.inputs.length = p.inputs.length := l2.fits.inputs.trans hf.inputs.symm
  obtain ⟨f, g1, g2⟩ := evaluated_reclock exSlow_clockFree hl l4 hn
  rw [← l3] at g1
  obtain ⟨c0, m1, m2⟩ := h.run.value_at l1 l2.fits g1
  have hval : nlp.value nlp.start =
      .ok ((lapDuration exSlow p (reclock node f) + smoothing exSlow p (reclock node f) su.controls) :: c0) := by
    have : nlp.value = fun x => (fgOf exSlow p ini (initialLoaded p) x).map Prod.fst := by rw [h.nlp]; rfl
    rw [this]
    simp only [m1]
    rfl
  have hob := (exLap_obeys closed h.run.prepared hn).reclock h.run.wf.lateral hsh hl l4 g2
  rw [← l3] at hob
  have hy : Holds exSlow p su.inputs su.controls nlp.start := by rw [l3]; exact hh.sameInputs hl l4
  have hw := within_of_obeys h.run.wf.lateral h.run.wf.equations hsh h.layout h.bounds l2.fits hlen hy m2 hob
  have hsm : smoothing exSlow p (reclock node f) su.controls = 0 := by
    rw [l3, smoothing, if_pos (show p.isDirect = true from g.isDirect)]
    have hc : p.controls = [createDontOptimize, createConstant 1, createHypermesh [0, 15] [1, 2],
        createFullMesh [3, 3, 3] 1] := by
      rw [g.controls]
      simp [exLapRequest, meaningful, createDontOptimize, createConstant, createHypermesh, createFullMesh]
    rw [hc]
    simp only [overFullMesh, createDontOptimize, createConstant, createHypermesh, createFullMesh, List.filter_cons,
      List.filter_nil]
    simp only [reduceCtorEq, decide_false, Bool.false_eq_true, if_false, decide_true, if_true, List.map_cons,
      List.map_nil, List.sum_cons, List.sum_nil, add_zero, slopePenalty]
    apply Finset.sum_eq_zero
    intro e he
    have hn3 : p.nPoints = 3 := g.nPoints
    have he3 : e < 3 := by rw [← hn3]; exact element_lt hsh (Finset.mem_range.1 he)
    have hr3 : rightNode p e < 3 := by rw [← hn3]; exact rightNode_lt hsh e
    have val : ∀ i, i < 3 → ([3, 3, 3] : List ℚ).getD i 0 = 3 := by decide
    simp only [valueAt, val e he3, val _ hr3]
    simp
  have hinc : p.s.Pairwise (· < ·) := by
    have hs : p.s = [0, 10, 20] := by rw [g.s]; cases closed <;> rfl
    rw [hs]; norm_num
  refine (@decide_eq_true_iff _ (Classical.propDecidable _)).2 ⟨?_, ?_⟩
  · intro cost c hv
    rw [hval] at hv
    have hv := Res.ok.inj hv
    simp only [List.cons.injEq] at hv
    rw [← hv.2]
    rw [h.nlp] at hw ⊢
    exact hw
  · intro cost c y cost' c' hv hyl _ hv' _
    rw [hval] at hv
    have hv := Res.ok.inj hv
    simp only [List.cons.injEq] at hv
    rw [← hv.1, hsm, add_zero]
    obtain ⟨sy, n1, _, n3⟩ := h.run.load_fresh (fresh_initial _ p) (hyl.trans hlen)
    obtain ⟨ny, hny⟩ := h.run.nodes n3.fits
    obtain ⟨cy, n4, _⟩ := h.run.value_at n1 n3.fits hny
    have hval' : nlp.value y = .ok ((lapDuration exSlow p ny + smoothing exSlow p ny sy.controls) :: cy) := by
      have : nlp.value = fun x => (fgOf exSlow p ini (initialLoaded p) x).map Prod.fst := by rw [h.nlp]; rfl
      rw [this]
      simp only [n4]
      rfl
    rw [hval'] at hv'
    have hv' := Res.ok.inj hv'
    simp only [List.cons.injEq] at hv'
    rw [← hv'.1, exSlow_duration hsh g1 hny]
    have : 0 ≤ smoothing exSlow p ny sy.controls := by
      rw [smoothing, if_pos (show p.isDirect = true from g.isDirect)]
      exact overFullMesh_nonneg fun c hc hk => slopePenalty_nonneg (h.run.dissipation n3.fits c hc hk) fun e he =>
        elementLength_nonneg hsh hny (hinc.imp le_of_lt) (fun hcl b hb => (h.run.closedEnd hcl b hb).le) he
    linarith

/-- C188 on the example, after two evaluations. -/
example (closed : Bool) : ∃ (p : Problem ℚ) (ini : Initial ℚ) (nlp : Nlp ℚ) (st : Loaded ℚ) (fg : List ℚ) (st' : Loaded ℚ),
      visitAll exSlow p ini [nlp.start, nlp.start.map fun a => a + 1]
      (initialLoaded p) = .ok st ∧ fgOf exSlow p ini st nlp.start = .ok (fg, st') ∧ nlp.value nlp.start = .ok fg ∧
      nlp.start ≠ [] := by
  obtain ⟨p, ini, nlp, h, hc⟩ := exLap_setUp closed
  obtain ⟨st, fg, st', h1, h2, h3⟩ := C188_no_memory _ _ exSlow _ (exSlow_wf closed) p ini nlp h hc
    [nlp.start, nlp.start.map fun a => a + 1] (by intro y hy; simp at hy; rcases hy with rfl | rfl <;> simp)
    nlp.start rfl
  refine ⟨p, ini, nlp, st, fg, st', h1, h2, h3, ?_⟩
  intro hn
  obtain ⟨es, b, hr⟩ := setUp_ready (exSlow_wf closed) h hc
  have e1 := hr.start.1
  have g := (prepare_ok hr.run.prepared).2
  rw [hn, nVariables, g.stats] at e1
  cases closed <;> simp [exLapRequest, createDontOptimize, createConstant, createHypermesh, createFullMesh] at e1

/-- C189, C190, C191, C192 on the example: a lap is returned, it obeys, nothing is faster, and it
can be used to start again. -/
example (closed : Bool) : ∃ (p : Problem ℚ) (ini : Initial ℚ) (nlp : Nlp ℚ) (lap : Lap ℚ),
    setUp (-10 ^ 9) (10 ^ 9) exSlow (exLapRequest closed) = .ok (p, ini, nlp) ∧
    HypermeshCovers p ∧ solveLap (-10 ^ 9) (10 ^ 9) exSlow true exOpt (exLapRequest closed) = .ok lap ∧
    lap.success = true ∧ (∃ node, Obeys exSlow p 0 0 lap.inputs lap.controls node) ∧
    (∃ (p2 : Problem ℚ) (ini2 : Initial ℚ) (nlp2 : Nlp ℚ), setUp (-10 ^ 9) (10 ^ 9) exSlow (restart lap (exLapRequest closed).opts) = .ok (p2, ini2, nlp2) ∧
      nlp2.start = lap.x) := by
  obtain ⟨p, ini, nlp, h, hc⟩ := exLap_setUp closed
  have hs := exOpt_success closed h hc
  obtain ⟨lap, h1, h2, _⟩ := (C189_returned _ _ exSlow _ (exSlow_wf closed) p ini nlp h hc exOpt exOpt_sizes true).1
    (Or.inl hs)
  obtain ⟨node, t0, _, _, _, _, hn, _⟩ := C190_own_times _ _ exSlow _ (exSlow_wf closed) exSlow_clockFree p ini nlp h hc
    exOpt exOpt_sizes true lap h1
  obtain ⟨p2, ini2, nlp2, r1, _, r3, _⟩ := C192_warm_start _ _ exSlow _ (exSlow_wf closed) p ini nlp h hc exOpt
    exOpt_sizes true lap h1 (exLapRequest closed).opts rfl
  exact ⟨p, ini, nlp, lap, h, hc, h1, h2.trans hs, ⟨node, C190_lap_obeys _ _ exSlow _ (exSlow_wf closed) exSlow_clockFree
    p ini nlp h hc exOpt exOpt_sizes 0 0 exOpt_reliable true lap h1 (h2.trans hs) node hn⟩, p2, ini2, nlp2, r1, r3⟩

/-- C191 on the example, with the requested lap as competitor. -/
example (closed : Bool) : ∃ (p : Problem ℚ) (lap : Lap ℚ) (node node' : Nat → Node ℚ),
    solveLap (-10 ^ 9) (10 ^ 9) exSlow true exOpt (exLapRequest closed) = .ok lap ∧
    EvaluatedNodes exSlow p ⟨lap.inputs, lap.controls⟩ node ∧ Obeys exSlow p 0 0 p.inputs p.controls node' ∧
    lapDuration exSlow p node + smoothing exSlow p node lap.controls ≤
      lapDuration exSlow p node' + smoothing exSlow p node' p.controls := by
  obtain ⟨p, ini, nlp, h, hc⟩ := exLap_setUp closed
  have hs := exOpt_success closed h hc
  obtain ⟨es, b, hr⟩ := setUp_ready (exSlow_wf closed) h hc
  obtain ⟨lap, h1, h2, _⟩ := (C189_returned _ _ exSlow _ (exSlow_wf closed) p ini nlp h hc exOpt exOpt_sizes true).1
    (Or.inl hs)
  obtain ⟨node, t0, _, _, _, _, hn, _⟩ := C190_own_times _ _ exSlow _ (exSlow_wf closed) exSlow_clockFree p ini nlp h hc
    exOpt exOpt_sizes true lap h1
  have hf := fits_self p hr.run.shape
  obtain ⟨node', hn'⟩ := hr.run.nodes hf
  have ho := exLap_obeys closed hr.run.prepared hn'
  refine ⟨p, lap, node, node', h1, hn, ho, C191_no_better_lap _ _ exSlow _ (exSlow_wf closed) exSlow_clockFree p ini nlp h
    hc exOpt exOpt_sizes exOpt_minimises true lap h1 (h2.trans hs) node hn p.inputs p.controls node' hf hn' ho ?_⟩
  intro _
  refine ⟨fun row row' h1 h2 j _ _ => ?_, fun c a b ha hb _ => ?_⟩
  · rw [h1] at h2
    rw [Option.some.inj h2]
  · rw [ha] at hb
    obtain rfl := Option.some.inj hb
    exact ⟨rfl, rfl⟩

/-- C189: an optimiser that never converges, with and without the option to tolerate it. -/
example : ∃ lap, solveLap (-10 ^ 9) (10 ^ 9) exSlow false (fun n => { exOpt n with success := false })
      (exLapRequest true) = .ok lap ∧ lap.success = false ∧
    solveLap (-10 ^ 9) (10 ^ 9) exSlow true (fun n => { exOpt n with success := false }) (exLapRequest true) = .throw := by
  obtain ⟨p, ini, nlp, h, hc⟩ := exLap_setUp true
  have hz : RightSizes (K := ℚ) (fun n => { exOpt n with success := false }) :=
    ⟨exOpt_sizes.x, exOpt_sizes.zl, exOpt_sizes.zu, exOpt_sizes.lambda, exOpt_sizes.visited⟩
  obtain ⟨lap, h1, h2, _⟩ := (C189_returned _ _ exSlow _ (exSlow_wf true) p ini nlp h hc _ hz false).1 (Or.inr rfl)
  exact ⟨lap, h1, h2, (C189_returned _ _ exSlow _ (exSlow_wf true) p ini nlp h hc _ hz true).2 rfl rfl⟩

end ex

end Verif.Transcription
