import Verif.Lemmas.LapSolve
import Mathlib.Algebra.Order.Group.Abs

/-! Helper lemmas of the computed lap: from the request to the lap, limits and constraints, and
warm starts. -/

set_option autoImplicit false
set_option linter.unusedSectionVars false

namespace Verif.Transcription

open Verif.Control

variable {K : Type*}

section
variable [Field K] [LinearOrder K]

/-- The lap of the content `st`, whose first node is at time `t0`. -/
def lapOf (v : Vehicle K) (p : Problem K) (o : Outcome K) (st : Loaded K) (t0 : K) (node : Nat → Node K) : Lap K :=
  { s := p.s, isClosed := p.isClosed, isDirect := p.isDirect
    inputs := setTimes v st.inputs
      ((List.range p.nPoints).map fun i => t0 + quadratureTo v p node (fun nd => dtds v nd.eq) i)
    controls := st.controls
    quantities := List.zipWith (fun q a => { q with value := a }) p.quantities
      ((List.range p.quantities.length).map (codedIntegral v p node))
    laptime := t0 + lapDuration v p node
    success := o.success, x := o.x, zl := o.zl, zu := o.zu, lambda := o.lambda }

namespace Run

variable {lowest max : K} {v : Vehicle K} {r : Request K} {p : Problem K} {ini : Initial K}

/-- Value of the cost function with any evaluation of the nodes. -/
theorem value_at (h : Run lowest max v r p ini) {st st' : Loaded K} {x : List K}
    (hl : loadOf v p ini st x = .ok (st', [])) (hst : FitsProblem p st') {node : Nat → Node K}
    (hn : EvaluatedNodes v p st' node) :
    ∃ c, fgOf v p ini st x = .ok ((lapDuration v p node + smoothing v p node st'.controls) :: c, st') ∧
      RowsAre v p st'.controls node (codedIntegral v p node) c := by
  have hev := evalNodes_eq h.shape h.consistent h.defaults h.covers hst hn
  have hw : withIntegrals p = true ∨ nConstrained p.quantities = 0 := by
    rw [withIntegrals, nRestricted_eq]; simp; omega
  have he : ∃ c vals, evaluateOf v p (withIntegrals p) st' =
      .ok ⟨lapDuration v p node + smoothing v p node st'.controls, c, vals⟩ ∧
      RowsAre v p st'.controls node (codedIntegral v p node) c := by
    unfold evaluateOf lapDuration smoothing
    cases hd : p.isDirect with
    | true =>
      obtain ⟨c, h1, h2⟩ := evaluateDirect_ok h.wf.equations h.shape hd hst hev hn _ hw
      exact ⟨c, _, h1, h2⟩
    | false =>
      obtain ⟨c, h1, h2⟩ := evaluateDerivative_ok h.wf.equations h.shape hd hst hev hn _ hw
      exact ⟨c, _, h1, h2⟩
  obtain ⟨c, vals, h1, h2⟩ := he
  refine ⟨c, ?_, h2⟩
  rw [fgOf_eq, hl, Res.bind_ok, h1, Res.bind_ok, fillFg_ok h.shape _ h2.size, Res.bind_ok]

theorem nodes (h : Run lowest max v r p ini) {st : Loaded K} (hst : FitsProblem p st) :
    ∃ node, EvaluatedNodes v p st node := by
  obtain ⟨node, _, h2⟩ := evalNodes_ok h.shape h.consistent h.defaults h.covers hst
  exact ⟨node, h2⟩

/-- From the result of the optimiser to the lap. -/
theorem finish_eq (h : Run lowest max v r p ini) (tf : Bool) (o : Outcome K) (hx : o.x.length = nVariables v p)
    (hvis : ∀ y ∈ o.visited, y.length = nVariables v p) :
    ∃ (st' : Loaded K) (row0 : Row K), loadOf v p ini (initialLoaded p) o.x = .ok (st', []) ∧
      Decoded v p ini (initialLoaded p) st' o.x ∧ Fresh v p st' ∧ st'.inputs[0]? = some row0 ∧
      ∀ node, EvaluatedNodes v p st' node →
        finish v tf p ini o = if !o.success && tf then .throw else .ok (lapOf v p o st' (row0 v.iTime) node) := by
  obtain ⟨st', h1, h2, h3⟩ := h.load_fresh (fresh_initial v p) hx
  obtain ⟨st, g1, g2⟩ := h.visitAll_fresh o.visited _ (fresh_initial v p) hvis
  obtain ⟨row0, h0⟩ := h.row0 h3.fits
  refine ⟨st', row0, h1, h2, h3, h0, ?_⟩
  intro node hn
  obtain ⟨c, e1, e2⟩ := h.evaluate h3.fits hn
  have hload : loadOf v p ini st o.x = .ok (st', []) := (h.load_same g2 (fresh_initial v p) hx).trans h1
  have hexp : exportSolution v p ini st o.x = .ok (⟨st'.inputs, st'.controls,
      List.zipWith (fun q a => { q with value := a }) p.quantities
        ((List.range p.quantities.length).map (codedIntegral v p node))⟩, st') := by
    unfold exportSolution
    rw [hload, Res.bind_ok]
    simp only
    rw [e1, Res.bind_ok, fillFg_ok h.shape _ e2.size, Res.bind_ok, ← h3.fits.inputs, mapRes_idx_self, Res.bind_ok,
      exportControls_same h.shape h3.fits, Res.bind_ok]
  have hst2 : (if p.isDirect then Res.ok st' else (fgOf v p ini st' o.x).map Prod.snd) = .ok st' := by
    cases hd : p.isDirect with
    | true => rfl
    | false =>
      obtain ⟨c', v1, _⟩ := h.value_at ((h.load_same h3 (fresh_initial v p) hx).trans h1) h3.fits hn
      rw [if_neg (by simp), v1]; rfl
  unfold finish
  rw [g1, Res.bind_ok]
  split
  · rfl
  · rw [hexp, Res.bind_ok]
    simp only
    rw [hst2, Res.bind_ok,
      report_eq h.shape h0 (evalNodes_eq h.shape h.consistent h.defaults h.covers h3.fits hn), Res.bind_ok]
    rfl

theorem initial_spec (h : Run lowest max v r p ini) : p.inputs[0]? = some ini.inputs ∧
    ∀ (c : Nat) (cv : CV K), p.controls[c]? = some cv → cv.kind = .fullMesh →
      (ini.controls[c]?).map Prod.fst = cv.controls[0]? ∧
      (p.isDirect = false → (ini.controls[c]?).map Prod.snd = cv.dcontrolsDt[0]?) := by
  have hi := h.initial
  rw [← h.isDirect] at hi
  cases hd : p.isDirect
  · rw [hd] at hi
    obtain ⟨_, h2, h3⟩ := initialDerivative_spec h.defaults hi
    exact ⟨h2, fun c cv hc hk => ⟨(h3 c cv hc hk).1, fun _ => (h3 c cv hc hk).2⟩⟩
  · rw [hd] at hi
    obtain ⟨_, h2, h3⟩ := initialDirect_spec h.defaults hi
    exact ⟨h2, fun c cv hc hk => ⟨h3 c cv hc hk, by simp⟩⟩

end Run

theorem initialOf_ok {v : Vehicle K} {p : Problem K} (hp : Shape p) (hcon : ∀ c ∈ p.controls, Consistent c)
    (hdef : v.controlsDef.length = p.controls.length) (hcov : HypermeshCovers p) :
    ∃ ini, initialOf v p = .ok ini := by
  have h2 := hp.two
  obtain ⟨s0, hs0⟩ : ∃ s0, p.s[0]? = some s0 := ⟨_, List.getElem?_eq_getElem (by rw [hp.s]; omega)⟩
  obtain ⟨row, hr⟩ : ∃ row, p.inputs[0]? = some row := ⟨_, List.getElem?_eq_getElem (by rw [hp.inputs]; omega)⟩
  have hmesh : ∀ c ∈ p.controls, c.kind = .hypermesh →
      c.sHypermesh.Pairwise (· < ·) ∧ ∃ x0, c.sHypermesh[0]? = some x0 ∧ x0 ≤ s0 := by
    intro c hc hk
    obtain ⟨g1, x0, g2, g3⟩ := hcov c hc hk
    exact ⟨g1, x0, g2, g3 _ (List.mem_of_getElem? hs0)⟩
  unfold initialOf
  cases hd : p.isDirect with
  | true =>
    obtain ⟨u, h3, _⟩ := C21_control_array p.controls v.controlsDef 0 s0 hdef.symm hcon (fun c hc =>
      ⟨fun hk => ⟨by rw [hp.values c hc hk]; omega, by simp⟩, hmesh c hc⟩)
    refine ⟨⟨row, u.map fun a => (a, 0)⟩, ?_⟩
    simp only [if_true, initialDirect, idx_eq_ok.2 hs0, idx_eq_ok.2 hr, h3, Res.bind_ok]
  | false =>
    obtain ⟨u, h3, _⟩ := C21_control_array_and_derivative p.controls v.controlsDef 0 s0 hdef.symm hcon (fun c hc =>
      ⟨fun hk => ⟨by rw [hp.values c hc hk]; omega, fun _ => by
        have := hp.rates c hc hk
        rw [this, hd]; simp; omega⟩, hmesh c hc⟩)
    refine ⟨⟨row, u⟩, ?_⟩
    simp only [Bool.false_eq_true, if_false, initialDerivative, idx_eq_ok.2 hs0, idx_eq_ok.2 hr, h3, Res.bind_ok]

/-- The derivative form is only packed with rate bounds and without constant controls. -/
theorem packOf_layout {v : Vehicle K} {p : Problem K} (hv : v.iTime + 1 < v.nInputs) (hp : Shape p)
    {lo hi : K} {es : List (Entry K)} (h : packOf lo hi v p = .ok es) :
    Layout v p es ∧ (p.isDirect = false → v.RatesBounded p.controls ∧ ∀ c ∈ p.controls, c.kind ≠ .constant) := by
  unfold packOf at h
  cases hd : p.isDirect with
  | true =>
    rw [hd, if_pos rfl] at h
    obtain ⟨es', h1, h2⟩ := packDirect_layout v p hp hd hv lo hi
    rw [h] at h1
    obtain rfl := Res.ok.inj h1
    exact ⟨h2, by simp⟩
  | false =>
    rw [hd, if_neg (by simp)] at h
    by_cases hr : v.RatesBounded p.controls
    swap
    · rw [packDerivative_unbounded v p hp hr] at h
      simp at h
    by_cases hc : ∀ c ∈ p.controls, c.kind ≠ .constant
    · obtain ⟨es', h1, h2⟩ := packDerivative_layout v p hp hd hr hv hc lo hi
      rw [h] at h1
      obtain rfl := Res.ok.inj h1
      exact ⟨h2, fun _ => ⟨hr, hc⟩⟩
    · have hc' : ∃ c ∈ p.controls, c.kind = .constant := by
        by_contra hh
        exact hc (fun c hm hk => hh ⟨c, hm, hk⟩)
      obtain ⟨c, hm, hk⟩ := hc'
      rw [packDerivative_ub v p hp hd hv c hm hk] at h
      simp at h

theorem packOf_ok {v : Vehicle K} {p : Problem K} (hv : v.iTime + 1 < v.nInputs) (hp : Shape p) (lo hi : K)
    (h : p.isDirect = false → v.RatesBounded p.controls ∧ ∀ c ∈ p.controls, c.kind ≠ .constant) :
    ∃ es, packOf lo hi v p = .ok es := by
  unfold packOf
  cases hd : p.isDirect with
  | true =>
    obtain ⟨es, h1, _⟩ := packDirect_layout v p hp hd hv lo hi
    exact ⟨es, h1⟩
  | false =>
    obtain ⟨es, h1, _⟩ := packDerivative_layout v p hp hd (h hd).1 hv (h hd).2 lo hi
    exact ⟨es, h1⟩

/-- What is known once the problem is set up. -/
structure Ready (lowest max : K) (v : Vehicle K) (r : Request K) (p : Problem K) (ini : Initial K) (nlp : Nlp K)
    (es : List (Entry K)) (b : List (K × K)) : Prop where
  run : Run lowest max v r p ini
  packed : packOf lowest max v p = .ok es
  layout : Layout v p es
  rates : p.isDirect = false → v.RatesBounded p.controls ∧ ∀ c ∈ p.controls, c.kind ≠ .constant
  bounds : BoundsAre v p b
  nCon : b.length = nConstraints v p
  con : constraintBounds v p = .ok b
  warm : checkWarm v p = .ok ()
  nlp : nlp = nlpOf v p ini es b

theorem setUp_ready {lowest max : K} {v : Vehicle K} {r : Request K} {p : Problem K} {ini : Initial K} {nlp : Nlp K}
    (hv : v.WellFormed r.controls.length) (hset : setUp lowest max v r = .ok (p, ini, nlp))
    (hcov : HypermeshCovers p) : ∃ es b, Ready lowest max v r p ini nlp es b := by
  simp only [setUp, Res.bind_eq_ok] at hset
  obtain ⟨p', h1, ini', h2, es, h3, b, h4, u, h5, h6⟩ := hset
  simp only [Res.ok.injEq, Prod.mk.injEq] at h6
  obtain ⟨rfl, rfl, h6⟩ := h6
  have hs := prepare_shape h1
  obtain ⟨l1, l2⟩ := packOf_layout hv.lateral hs h3
  obtain ⟨b', c1, c2, c3⟩ := C64_constraint_bounds lowest max v r hv p' h1
  rw [h4] at c1
  obtain rfl := Res.ok.inj c1
  refine ⟨es, b, ⟨hv, h1, ?_, hcov⟩, h3, l1, l2, c3, c2, h4, h5, h6.symm⟩
  rw [← (prepare_ok h1).2.isDirect]
  exact h2

theorem Ready.start {lowest max : K} {v : Vehicle K} {r : Request K} {p : Problem K} {ini : Initial K} {nlp : Nlp K}
    {es : List (Entry K)} {b : List (K × K)} (h : Ready lowest max v r p ini nlp es b) :
    nlp.start.length = nVariables v p ∧ nlp.conBounds.length = nConstraints v p := by
  rw [h.nlp]
  exact ⟨by simpa [nlpOf] using h.layout.length, h.nCon⟩

/-- The computation in closed form. -/
theorem Ready.solve {lowest max : K} {v : Vehicle K} {r : Request K} {p : Problem K} {ini : Initial K} {nlp : Nlp K}
    {es : List (Entry K)} {b : List (K × K)} (h : Ready lowest max v r p ini nlp es b)
    (hset : setUp lowest max v r = .ok (p, ini, nlp)) {opt : Optimiser K} (hopt : RightSizes opt) (tf : Bool) :
    ∃ (st' : Loaded K) (row0 : Row K), loadOf v p ini (initialLoaded p) (opt nlp).x = .ok (st', []) ∧
      Decoded v p ini (initialLoaded p) st' (opt nlp).x ∧ Fresh v p st' ∧ st'.inputs[0]? = some row0 ∧
      ∀ node, EvaluatedNodes v p st' node → solveLap lowest max v tf opt r =
        if !(opt nlp).success && tf then .throw else .ok (lapOf v p (opt nlp) st' (row0 v.iTime) node) := by
  obtain ⟨st', row0, h1, h2, h3, h4, h5⟩ := h.run.finish_eq tf (opt nlp)
    ((hopt.x nlp).trans h.start.1) (fun y hy => (hopt.visited nlp y hy).trans h.start.1)
  refine ⟨st', row0, h1, h2, h3, h4, fun node hn => ?_⟩
  rw [solveLap, hset, Res.bind_ok]
  exact h5 node hn

/-! ### Same motion, other clock -/

/-- The nodes with other states. -/
def reclock (node : Nat → Node K) (f : Nat → Row K) : Nat → Node K := fun i =>
  ⟨(node i).s, ⟨f i, (node i).eq.dstates, (node i).eq.extra, (node i).eq.integrals⟩⟩

theorem evaluated_reclock {v : Vehicle K} (hcf : ClockFree v) {p : Problem K} {a b : List (Row K)}
    {controls : List (CV K)} (hlen : b.length = a.length)
    (hs : SameInputsButTime v (fun _ => True) a b) {node : Nat → Node K}
    (hn : EvaluatedNodes v p ⟨a, controls⟩ node) :
    ∃ f, EvaluatedNodes v p ⟨b, controls⟩ (reclock node f) ∧
      ∀ i, i < p.nPoints → ∀ q ∈ v.timeIds, f i q = (node i).eq.states q := by
  have key : ∀ i, ∃ fi : Row K, i < p.nPoints → EvaluatedAt v p ⟨b, controls⟩ i
      ⟨(node i).s, ⟨fi, (node i).eq.dstates, (node i).eq.extra, (node i).eq.integrals⟩⟩ ∧
      ∀ q ∈ v.timeIds, fi q = (node i).eq.states q := by
    intro i
    by_cases hi : i < p.nPoints
    · obtain ⟨row, si, u, h1, h2, h3, h4, h5⟩ := hn i hi
      obtain ⟨row', hr'⟩ := exists_get_of_length hlen h1
      obtain ⟨c1, c2, c3, c4⟩ := hcf.same row row' u si (hs i row row' trivial h1 hr')
      refine ⟨(v.eval row' u si).states, fun _ => ⟨⟨row', si, u, hr', h2, h3, h4, ?_⟩, ?_⟩⟩
      · rw [h5]
        simp only [c1, c2, c3]
      · intro q hq
        rw [h5]
        exact (c4 q hq).symm
    · exact ⟨fun _ => 0, fun h => absurd h hi⟩
  choose f hf using key
  exact ⟨f, fun i hi => (hf i hi).1, fun i hi => (hf i hi).2⟩

theorem element_lt {p : Problem K} (hp : Shape p) {e : Nat} (he : e < p.nElements) : e < p.nPoints := by
  have := hp.elements
  omega

theorem Obeys.reclock {v : Vehicle K} (hv : v.iTime + 1 < v.nInputs) {p : Problem K} (hp : Shape p) {tB tC : K}
    {a b : List (Row K)} {controls : List (CV K)} {node : Nat → Node K} {f : Nat → Row K}
    (hlen : b.length = a.length) (hs : SameInputsButTime v (fun _ => True) a b)
    (hf : ∀ i, i < p.nPoints → ∀ q ∈ v.timeIds, f i q = (node i).eq.states q)
    (h : Obeys v p tB tC a controls node) : Obeys v p tB tC b controls (reclock node f) := by
  refine ⟨?_, ?_, h.full, h.other, h.rates, ?_, h.algebraic, h.extra, h.integrated, h.quantities⟩
  · intro i row si hi hr hsi
    obtain ⟨row', hr'⟩ := exists_get_of_length hlen.symm hr
    rw [← hs i row' row trivial hr' hr (v.iTime + 1) hv (by omega)]
    exact h.lateral i row' si hi hr' hsi
  · intro i j row hi hj ht hl hr
    obtain ⟨row', hr'⟩ := exists_get_of_length hlen.symm hr
    rw [← hs i row' row trivial hr' hr j hj ht]
    exact h.inputs i j row' hi hj ht hl hr'
  · intro e q he hq
    have := h.dynamics e q he hq
    rw [← hf _ (rightNode_lt hp e) q hq, ← hf _ (element_lt hp he) q hq] at this
    exact this

end

/-! ### Positions -/

/-- Every index of the vector is the position of an input, a value, a rate, or a value after the
blocks. -/
theorem position_cases {v : Vehicle K} {p : Problem K} (hp : Shape p) {k : Nat} (hk : k < nVariables v p) :
    (∃ i j, Optimised p i ∧ j < v.nInputs ∧ j ≠ v.iTime ∧ inputPos v p i j = k) ∨
    (∃ i c cv, Optimised p i ∧ p.controls[c]? = some cv ∧ cv.kind = .fullMesh ∧ fullPos v p i c = k) ∨
    (p.isDirect = false ∧ ∃ i c cv, Optimised p i ∧ p.controls[c]? = some cv ∧ cv.kind = .fullMesh ∧
      ratePos v p i c = k) ∨
    ∃ c q cv, p.controls[c]? = some cv ∧ (cv.kind = .constant ∨ cv.kind = .hypermesh) ∧
      q < cv.controls.length ∧ otherPos v p c q = k := by
  have hnv := nVariables_eq v p hp
  have hfn : firstNode p.isClosed ≤ 1 := by unfold firstNode; split <;> omega
  have htwo := hp.two
  by_cases hb : k < (p.nPoints - firstNode p.isClosed) * blockSize v p.isDirect p.controls
  · have hB : 0 < blockSize v p.isDirect p.controls := by
      rcases Nat.eq_zero_or_pos (blockSize v p.isDirect p.controls) with h | h
      · rw [h] at hb; simp at hb
      · exact h
    have hq : k / blockSize v p.isDirect p.controls < p.nPoints - firstNode p.isClosed :=
      (Nat.div_lt_iff_lt_mul hB).2 hb
    have hm := Nat.mod_lt k hB
    have hdm := Nat.div_add_mod k (blockSize v p.isDirect p.controls)
    have hopt : Optimised p (k / blockSize v p.isDirect p.controls + firstNode p.isClosed) :=
      ⟨Nat.le_add_left _ _, by omega⟩
    have hstart : blockStart v p (k / blockSize v p.isDirect p.controls + firstNode p.isClosed) +
        k % blockSize v p.isDirect p.controls = k := by
      rw [blockStart, Nat.add_sub_cancel, Nat.mul_comm]; exact hdm
    generalize k / blockSize v p.isDirect p.controls + firstNode p.isClosed = i at hopt hstart
    generalize k % blockSize v p.isDirect p.controls = r at hm hstart
    by_cases h1 : r < v.nInputs - 1
    · left
      have hj : ∃ j, j < v.nInputs ∧ j ≠ v.iTime ∧ inputSlot v j = r := by
        by_cases hlt : r < v.iTime
        · exact ⟨r, by omega, by omega, by simp [inputSlot, hlt]⟩
        · refine ⟨r + 1, by omega, by omega, ?_⟩
          unfold inputSlot; rw [if_neg (by omega)]; omega
      obtain ⟨j, hj1, hj2, hj3⟩ := hj
      exact ⟨i, j, hopt, hj1, hj2, by rw [inputPos, hj3, hstart]⟩
    · right
      by_cases h2 : r < v.nInputs - 1 + nFullMesh p.controls
      · left
        obtain ⟨c, cv, c1, c2, c3⟩ := exists_full_of_lt p.controls (r - (v.nInputs - 1)) (by omega)
        exact ⟨i, c, cv, hopt, c1, c2, by rw [fullPos, c3]; omega⟩
      · right; left
        cases hd : p.isDirect with
        | true =>
          exfalso
          have : blockSize v p.isDirect p.controls = v.nInputs - 1 + nFullMesh p.controls := by
            simp [blockSize, hd]
          omega
        | false =>
          have : blockSize v p.isDirect p.controls = v.nInputs - 1 + 2 * nFullMesh p.controls := by
            simp [blockSize, hd]
          obtain ⟨c, cv, c1, c2, c3⟩ := exists_full_of_lt p.controls
            (r - (v.nInputs - 1 + nFullMesh p.controls)) (by omega)
          exact ⟨rfl, i, c, cv, hopt, c1, c2, by rw [ratePos, c3]; omega⟩
  · right; right; right
    obtain ⟨c, q, cv, c1, c2, c3, c4⟩ := exists_other_of_lt p.controls
      (k - (p.nPoints - firstNode p.isClosed) * blockSize v p.isDirect p.controls) (by omega)
    exact ⟨c, q, cv, c1, c2, c3, by rw [otherPos, Nat.add_assoc, c4]; omega⟩

theorem exists_constrained_of_lt (qs : List (Quantity K)) : ∀ q, q < nConstrained qs →
    ∃ (k : Nat) (qu : Quantity K), qs[k]? = some qu ∧ qu.restrict = true ∧ nConstrained (qs.take k) = q := by
  have cons : ∀ (d : Quantity K) (qs : List (Quantity K)),
      nConstrained (d :: qs) = (if d.restrict then 1 else 0) + nConstrained qs := by
    intro d qs
    unfold nConstrained
    rw [List.filter_cons]
    split <;> simp [Nat.add_comm]
  induction qs with
  | nil => intro q hq; simp [nConstrained] at hq
  | cons d qs ih =>
    intro q hq
    rw [cons] at hq
    cases hd : d.restrict with
    | true =>
      rw [hd, if_pos rfl] at hq
      cases q with
      | zero => exact ⟨0, d, rfl, hd, rfl⟩
      | succ q =>
        obtain ⟨k, qu, h1, h2, h3⟩ := ih q (by omega)
        exact ⟨k + 1, qu, by simpa using h1, h2, by rw [List.take_succ_cons, cons, hd, h3]; simp; omega⟩
    | false =>
      rw [hd, if_neg (by simp)] at hq
      obtain ⟨k, qu, h1, h2, h3⟩ := ih q (by omega)
      exact ⟨k + 1, qu, by simpa using h1, h2, by rw [List.take_succ_cons, cons, hd, h3]; simp⟩

/-- Every constraint is one of those of an element, or an integral one. -/
theorem row_cases {v : Vehicle K} (hv : v.timeIds.length + v.algIds.length = v.nInputs - 1) {p : Problem K} {k : Nat}
    (hk : k < p.nElements * rowsPerElement v p + nConstrained p.quantities) :
    (∃ e t q, e < p.nElements ∧ v.timeIds[t]? = some q ∧ e * rowsPerElement v p + t = k) ∨
    (∃ e t q, e < p.nElements ∧ v.algIds[t]? = some q ∧ e * rowsPerElement v p + v.timeIds.length + t = k) ∨
    (∃ e t, e < p.nElements ∧ t < v.nExtra ∧ e * rowsPerElement v p + (v.nInputs - 1) + t = k) ∨
    (p.isDirect = false ∧ ∃ e j cv, e < p.nElements ∧ p.controls[j]? = some cv ∧ cv.kind = .fullMesh ∧
      e * rowsPerElement v p + (v.nInputs - 1 + v.nExtra) + nFullMesh (p.controls.take j) = k) ∨
    ∃ t q, p.quantities[t]? = some q ∧ q.restrict = true ∧
      p.nElements * rowsPerElement v p + nConstrained (p.quantities.take t) = k := by
  by_cases hb : k < p.nElements * rowsPerElement v p
  · have hB : 0 < rowsPerElement v p := by
      rcases Nat.eq_zero_or_pos (rowsPerElement v p) with h | h
      · rw [h] at hb; simp at hb
      · exact h
    have he : k / rowsPerElement v p < p.nElements := (Nat.div_lt_iff_lt_mul hB).2 hb
    have hm := Nat.mod_lt k hB
    have hdm : k / rowsPerElement v p * rowsPerElement v p + k % rowsPerElement v p = k := by
      rw [Nat.mul_comm]; exact Nat.div_add_mod k _
    generalize k / rowsPerElement v p = e at he hdm
    generalize k % rowsPerElement v p = t at hm hdm
    by_cases h1 : t < v.timeIds.length
    · exact Or.inl ⟨e, t, _, he, List.getElem?_eq_getElem h1, hdm⟩
    by_cases h2 : t < v.nInputs - 1
    · exact Or.inr (Or.inl ⟨e, t - v.timeIds.length, _, he, List.getElem?_eq_getElem (by omega), by omega⟩)
    by_cases h3 : t < v.nInputs - 1 + v.nExtra
    · exact Or.inr (Or.inr (Or.inl ⟨e, t - (v.nInputs - 1), he, by omega, by omega⟩))
    · refine Or.inr (Or.inr (Or.inr (Or.inl ?_)))
      cases hd : p.isDirect with
      | true =>
        exfalso
        have : rowsPerElement v p = v.nInputs - 1 + v.nExtra := by simp [rowsPerElement, hd]
        omega
      | false =>
        have : rowsPerElement v p = v.nInputs - 1 + v.nExtra + nFullMesh p.controls := by simp [rowsPerElement, hd]
        obtain ⟨c, cv, c1, c2, c3⟩ := exists_full_of_lt p.controls (t - (v.nInputs - 1 + v.nExtra)) (by omega)
        exact ⟨rfl, e, c, cv, he, c1, c2, by rw [c3]; omega⟩
  · obtain ⟨t, q, h1, h2, h3⟩ := exists_constrained_of_lt p.quantities
      (k - p.nElements * rowsPerElement v p) (by omega)
    exact Or.inr (Or.inr (Or.inr (Or.inr ⟨t, q, h1, h2, by omega⟩)))

/-! ### Bounds -/

section ordered
variable [Field K] [LinearOrder K] [IsStrictOrderedRing K]

/-- Variables and constraints within their bounds mean that the lap obeys. -/
theorem obeys_of_within {v : Vehicle K} (hv : v.iTime + 1 < v.nInputs) {p : Problem K} (hp : Shape p)
    {es : List (Entry K)} (hl : Layout v p es) {b : List (K × K)} (hb : BoundsAre v p b) {st : Loaded K}
    (hst : FitsProblem p st) {x : List K} (hx : Holds v p st.inputs st.controls x) {node : Nat → Node K} {c : List K}
    (hc : RowsAre v p st.controls node (codedIntegral v p node) c) {tB tC : K}
    (wx : Within tB x (es.map fun e => (e.lb, e.ub))) (wc : Within tC c b) :
    Obeys v p tB tC st.inputs st.controls node := by
  have hB := boundsAsAsked hv hp hl
  have zero : ∀ {a : K}, (0 : K) - tC ≤ a ∧ a ≤ 0 + tC → |a| ≤ tC := by
    intro a h
    rw [abs_le]
    exact ⟨by linarith [h.1], by linarith [h.2]⟩
  have take : ∀ j, nFullMesh (st.controls.take j) = nFullMesh (p.controls.take j) :=
    nFullMesh_take_congr hst.controls hst.kinds
  refine ⟨?_, ?_, ?_, ?_, ?_, ?_, ?_, ?_, ?_, ?_⟩
  · intro i row si hi hr hs
    obtain ⟨a, ha⟩ := hB.lateral i si hi hs
    exact wx _ _ _ _ (hx.inputs i (v.iTime + 1) row hi hv (by omega) hr) (by simp [ha])
  · intro i j row hi hj ht hn hr
    obtain ⟨a, ha⟩ := hB.inputs i j hi hj ht hn
    exact wx _ _ _ _ (hx.inputs i j row hi hj ht hr) (by simp [ha])
  · intro i c cv a hi hcv hk ha
    obtain ⟨cw, hcw⟩ := exists_get_of_length hst.controls.symm hcv
    obtain ⟨y, hy⟩ := hB.full i c cw hi hcw ((hst.kinds c cw cv hcw hcv).symm.trans hk)
    obtain ⟨a', h1, h2⟩ := hx.full i c cv hi hcv hk
    rw [ha] at h1
    obtain rfl := Option.some.inj h1
    exact wx _ _ _ _ h2 (by simp [hy])
  · intro c k cv a hcv hk ha
    obtain ⟨cw, hcw⟩ := exists_get_of_length hst.controls.symm hcv
    have hf := hst.frames c cw cv hcw hcv
    have hkl : k < cv.controls.length := (List.getElem?_eq_some_iff.1 ha).1
    obtain ⟨y, hy⟩ := hB.other c k cw hcw (by rw [← hf.kind]; exact hk) (by rw [← hf.nValues]; exact hkl)
    obtain ⟨a', h1, h2⟩ := hx.other c k cv hcv hk hkl
    rw [ha] at h1
    obtain rfl := Option.some.inj h1
    exact wx _ _ _ _ h2 (by simp [hy])
  · intro hd i c cv a l u hi hcv hk ha hlo hup
    obtain ⟨cw, hcw⟩ := exists_get_of_length hst.controls.symm hcv
    obtain ⟨y, l', u', e1, e2, hy⟩ := hB.rates hd i c cw hi hcw ((hst.kinds c cw cv hcw hcv).symm.trans hk)
    rw [hlo] at e1; rw [hup] at e2
    obtain rfl := Option.some.inj e1
    obtain rfl := Option.some.inj e2
    obtain ⟨a', h1, h2⟩ := hx.rates hd i c cv hi hcv hk
    rw [ha] at h1
    obtain rfl := Option.some.inj h1
    exact wx _ _ _ _ h2 (by simp [hy])
  · intro e q he hq
    obtain ⟨k, hk, rfl⟩ := List.getElem_of_mem hq
    exact zero (wc _ _ _ _ (hc.time e k _ he (List.getElem?_eq_getElem hk)) (hb.time e k he hk))
  · intro e q he hq
    obtain ⟨k, hk, rfl⟩ := List.getElem_of_mem hq
    exact zero (wc _ _ _ _ (hc.algebraic e k _ he (List.getElem?_eq_getElem hk)) (hb.algebraic e k he hk))
  · intro e k sr he hk hsr
    exact wc _ _ _ _ (hc.extra e k he hk) (hb.extra e k sr he hk hsr)
  · intro hd e j cv he hcv hk
    obtain ⟨cw, hcw⟩ := exists_get_of_length hst.controls.symm hcv
    have h1 := hc.control hd e j cv he hcv hk
    rw [take] at h1
    exact zero (wc _ _ _ _ h1 (hb.control hd e j cw he hcw ((hst.kinds j cw cv hcw hcv).symm.trans hk)))
  · intro k q hq hr
    exact wc _ _ _ _ (hc.quantities k q hq hr) (hb.quantities k q hq hr)

/-- And the other way round. -/
theorem within_of_obeys {v : Vehicle K} (hv : v.iTime + 1 < v.nInputs)
    (heq : v.timeIds.length + v.algIds.length = v.nInputs - 1) {p : Problem K} (hp : Shape p)
    {es : List (Entry K)} (hl : Layout v p es) {b : List (K × K)} (hb : BoundsAre v p b) {st : Loaded K}
    (hst : FitsProblem p st) {x : List K} (hxl : x.length = nVariables v p)
    (hx : Holds v p st.inputs st.controls x) {node : Nat → Node K} {c : List K}
    (hc : RowsAre v p st.controls node (codedIntegral v p node) c) {tB tC : K}
    (ho : Obeys v p tB tC st.inputs st.controls node) :
    Within tB x (es.map fun e => (e.lb, e.ub)) ∧ Within tC c b := by
  have hB := boundsAsAsked hv hp hl
  have zero : ∀ {a : K}, |a| ≤ tC → (0 : K) - tC ≤ a ∧ a ≤ 0 + tC := by
    intro a h
    rw [abs_le] at h
    exact ⟨by linarith [h.1], by linarith [h.2]⟩
  have take : ∀ j, nFullMesh (st.controls.take j) = nFullMesh (p.controls.take j) :=
    nFullMesh_take_congr hst.controls hst.kinds
  constructor
  · intro k a l u ha hlu
    have pair : ∀ {y l' u' : K}, es[k]? = some ⟨y, l', u'⟩ → l' = l ∧ u' = u := by
      intro y l' u' h
      simpa [h] using hlu
    have val : ∀ {a' : K}, x[k]? = some a' → a' = a := by
      intro a' h
      rw [h] at ha
      exact Option.some.inj ha
    rcases position_cases (v := v) hp (k := k) (by rw [← hxl]; exact (List.getElem?_eq_some_iff.1 ha).1) with
      ⟨i, j, hi, hj, ht, rfl⟩ | ⟨i, c, cv, hi, hcv, hk, rfl⟩ | ⟨hd, i, c, cv, hi, hcv, hk, rfl⟩ |
      ⟨c, q, cv, hcv, hk, hq, rfl⟩
    · obtain ⟨row, hr⟩ : ∃ row, st.inputs[i]? = some row :=
        ⟨_, List.getElem?_eq_getElem (by rw [hst.inputs]; exact hi.2)⟩
      obtain ⟨si, hs⟩ : ∃ si, p.s[i]? = some si := ⟨_, List.getElem?_eq_getElem (by rw [hp.s]; exact hi.2)⟩
      obtain rfl := val (hx.inputs i j row hi hj ht hr)
      by_cases hlat : j = v.iTime + 1
      · subst hlat
        obtain ⟨y, hy⟩ := hB.lateral i si hi hs
        obtain ⟨rfl, rfl⟩ := pair hy
        exact ho.lateral i row si hi hr hs
      · obtain ⟨y, hy⟩ := hB.inputs i j hi hj ht hlat
        obtain ⟨rfl, rfl⟩ := pair hy
        exact ho.inputs i j row hi hj ht hlat hr
    · obtain ⟨cw, hcw⟩ := exists_get_of_length hst.controls hcv
      have hkw := (hst.kinds c cv cw hcv hcw).trans hk
      obtain ⟨y, hy⟩ := hB.full i c cv hi hcv hk
      obtain ⟨rfl, rfl⟩ := pair hy
      obtain ⟨a', h1, h2⟩ := hx.full i c cw hi hcw hkw
      obtain rfl := val h2
      exact ho.full i c cw a' hi hcw hkw h1
    · obtain ⟨cw, hcw⟩ := exists_get_of_length hst.controls hcv
      have hkw := (hst.kinds c cv cw hcv hcw).trans hk
      obtain ⟨y, l', u', e1, e2, hy⟩ := hB.rates hd i c cv hi hcv hk
      obtain ⟨rfl, rfl⟩ := pair hy
      obtain ⟨a', h1, h2⟩ := hx.rates hd i c cw hi hcw hkw
      obtain rfl := val h2
      exact ho.rates hd i c cw a' l' u' hi hcw hkw h1 e1 e2
    · obtain ⟨cw, hcw⟩ := exists_get_of_length hst.controls hcv
      have hf := hst.frames c cv cw hcv hcw
      have hkw : cw.kind = .constant ∨ cw.kind = .hypermesh := by rw [hf.kind]; exact hk
      obtain ⟨y, hy⟩ := hB.other c q cv hcv hk hq
      obtain ⟨rfl, rfl⟩ := pair hy
      obtain ⟨a', h1, h2⟩ := hx.other c q cw hcw hkw (by rw [hf.nValues]; exact hq)
      obtain rfl := val h2
      exact ho.other c q cw a' hcw hkw h1
  · intro k a l u ha hlu
    have pair : ∀ {l' u' : K}, b[k]? = some (l', u') → l' = l ∧ u' = u := by
      intro l' u' h
      simpa [h] using hlu
    have val : ∀ {a' : K}, c[k]? = some a' → a' = a := by
      intro a' h
      rw [h] at ha
      exact Option.some.inj ha
    rcases row_cases heq (k := k) (by rw [← hc.size]; exact (List.getElem?_eq_some_iff.1 ha).1) with
      ⟨e, t, q, he, hq, rfl⟩ | ⟨e, t, q, he, hq, rfl⟩ | ⟨e, t, he, ht, rfl⟩ | ⟨hd, e, j, cv, he, hcv, hk, rfl⟩ |
      ⟨t, q, hq, hr, rfl⟩
    · obtain rfl := val (hc.time e t q he hq)
      obtain ⟨rfl, rfl⟩ := pair (hb.time e t he (List.getElem?_eq_some_iff.1 hq).1)
      exact zero (ho.dynamics e q he (List.mem_of_getElem? hq))
    · obtain rfl := val (hc.algebraic e t q he hq)
      obtain ⟨rfl, rfl⟩ := pair (hb.algebraic e t he (List.getElem?_eq_some_iff.1 hq).1)
      exact zero (ho.algebraic e q he (List.mem_of_getElem? hq))
    · obtain ⟨sr, hs⟩ : ∃ sr, p.s[rightNode p e]? = some sr :=
        ⟨_, List.getElem?_eq_getElem (by rw [hp.s]; exact rightNode_lt hp e)⟩
      obtain rfl := val (hc.extra e t he ht)
      obtain ⟨rfl, rfl⟩ := pair (hb.extra e t sr he ht hs)
      exact ho.extra e t sr he ht hs
    · obtain ⟨cw, hcw⟩ := exists_get_of_length hst.controls hcv
      have hkw := (hst.kinds j cv cw hcv hcw).trans hk
      have h1 := hc.control hd e j cw he hcw hkw
      rw [take] at h1
      obtain rfl := val h1
      obtain ⟨rfl, rfl⟩ := pair (hb.control hd e j cv he hcv hk)
      exact zero (ho.integrated hd e j cw he hcw hkw)
    · obtain rfl := val (hc.quantities t q hq hr)
      obtain ⟨rfl, rfl⟩ := pair (hb.quantities t q hq hr)
      exact ho.quantities t q hq hr

end ordered

end Verif.Transcription
