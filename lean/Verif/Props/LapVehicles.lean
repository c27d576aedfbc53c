import Verif.Lemmas.LapVehicles

/-! Properties of the laps of the F1 car and of the kart (C193..C195). -/

set_option autoImplicit false

namespace Verif.LapVehicles

open Verif.Road Verif.Chassis Verif.Control Verif.Transcription

/-! ## C193: the vehicles fit the optimal lap -/

section
variable (car : ℝ → F1.Car) (bias0 power : ℝ) (junk : Nat → F1.Limits) (ready : Bool) (t : Circuit)
variable (solve : Vec3 × Vec3 × Vec3 → Vec3 → Vec3) (kart : ℝ → Kart.Vehicle) (direct : Bool)

theorem f1_wf : (f1Vehicle car bias0 power junk ready t).WellFormed 4 := by
  refine ⟨by simp [f1Vehicle, F1.nInputs], ?_, rfl⟩
  show (idsOf (F1.classify t.elevated)).1.length + (idsOf (F1.classify t.elevated)).2.length = 13
  cases t.elevated <;> decide

theorem kart_wf : (kartVehicle solve kart direct junk ready t).WellFormed 2 := by
  refine ⟨by simp [kartVehicle, Kart.nInputs, Kart.iRoad], ?_, rfl⟩
  show (idsOf (F1.classifyBase Kart.nInputs Kart.iRoad)).1.length +
    (idsOf (F1.classifyBase Kart.nInputs Kart.iRoad)).2.length = 12
  decide

theorem setState_clock (c : F1.Car) (row row' u : Nat → ℝ) (h : ∀ j, j < 14 → j ≠ 11 → row j = row' j) :
    F1.setState c row u = { F1.setState c row' u with road1 := row 11 } := by
  have e (j : Nat) (h1 : j < 14) (h2 : j ≠ 11) := h j h1 h2
  simp only [F1.setState, F1.frontStart, F1.rearStart, F1.chassisStart, F1.loadStart, F1.roadStart, Nat.reduceAdd,
    e 0 (by decide) (by decide), e 1 (by decide) (by decide), e 2 (by decide) (by decide), e 3 (by decide) (by decide),
    e 4 (by decide) (by decide), e 5 (by decide) (by decide), e 6 (by decide) (by decide), e 7 (by decide) (by decide),
    e 8 (by decide) (by decide), e 9 (by decide) (by decide), e 10 (by decide) (by decide),
    e 12 (by decide) (by decide), e 13 (by decide) (by decide)]

theorem states_clock (c : F1.Car) (m : F1.Members) (r : F1.RoadOut) (x : ℝ) :
    (F1.evaluate c { m with road1 := x } r).states = (F1.evaluate c m r).states.set 11 x := by
  have h : F1.carUpdate c { m with road1 := x } r = F1.carUpdate c m r := rfl
  simp only [F1.evaluate, F1.allStates, h]
  generalize F1.carUpdate c m r = o
  rfl

theorem getD_set_ne {l : List ℝ} {i j : Nat} (h : j ≠ i) (x : ℝ) : (l.set i x).getD j 0 = l.getD j 0 := by
  simp [List.getD, List.getElem?_set_ne h.symm]

theorem f1Eval_clock (row row' : Nat → ℝ) (u : List ℝ) (s : ℝ) (h : ∀ j, j < 14 → j ≠ 11 → row j = row' j) :
    f1Eval car power t row u s = { f1Eval car power t row' u s with
      states := fun k => ((F1.evaluate (car s) (F1.setState (car s) row' (arrayOf u))
        (F1.roadCurvilinear (t.at_ s) (F1.setState (car s) row' (arrayOf u)))).states.set 11 (row 11)).getD k 0 } := by
  have hm := setState_clock (car s) row row' (arrayOf u) h
  have h1 (m : F1.Members) (x : ℝ) : F1.roadCurvilinear (t.at_ s) { m with road1 := x } = F1.roadCurvilinear (t.at_ s) m := rfl
  have h2 (m : F1.Members) (r : F1.RoadOut) (x : ℝ) : F1.carUpdate (car s) { m with road1 := x } r = F1.carUpdate (car s) m r := rfl
  have h3 (m : F1.Members) (r : F1.RoadOut) (x : ℝ) :
      (F1.evaluate (car s) { m with road1 := x } r).dstates = (F1.evaluate (car s) m r).dstates := by
    simp only [F1.evaluate, F1.allStates, h2]
    generalize F1.carUpdate (car s) m r = o
    rfl
  simp only [f1Eval, hm, h1, h2, h3, states_clock]
  rfl

theorem f1_clockFree : ClockFree (f1Vehicle car bias0 power junk ready t) := by
  refine ⟨fun row row' u s h => ?_⟩
  have he := f1Eval_clock car power t row row' u s h
  have k4 : ∀ q ∈ (f1Vehicle car bias0 power junk ready t).timeIds,
      (f1Eval car power t row u s).states q = (f1Eval car power t row' u s).states q := by
    intro q hq
    have hq' : q ≠ 11 := by
      rintro rfl
      revert hq
      show 11 ∈ (idsOf (F1.classify t.elevated)).1 → False
      cases t.elevated <;> decide
    rw [he]
    exact getD_set_ne hq' _
  have k1 : (f1Eval car power t row u s).dstates = (f1Eval car power t row' u s).dstates := by rw [he]
  have k2 : (f1Eval car power t row u s).extra = (f1Eval car power t row' u s).extra := by rw [he]
  have k3 : (f1Eval car power t row u s).integrals = (f1Eval car power t row' u s).integrals := by rw [he]
  exact ⟨k1, k2, k3, k4⟩

theorem kart_setState_clock (row row' u : Nat → ℝ) (h : ∀ j, j < 13 → j ≠ 10 → row j = row' j) :
    Kart.setState row u = { Kart.setState row' u with road1 := row 10 } := by
  have e (j : Nat) (h1 : j < 13) (h2 : j ≠ 10) := h j h1 h2
  simp only [Kart.setState, Kart.iAxle, Kart.iChassis, Kart.iBody, Kart.iRoad, Nat.reduceAdd,
    e 0 (by decide) (by decide), e 1 (by decide) (by decide), e 2 (by decide) (by decide), e 3 (by decide) (by decide),
    e 4 (by decide) (by decide), e 5 (by decide) (by decide), e 6 (by decide) (by decide), e 7 (by decide) (by decide),
    e 8 (by decide) (by decide), e 9 (by decide) (by decide), e 11 (by decide) (by decide),
    e 12 (by decide) (by decide)]

theorem kart_clockFree : ClockFree (kartVehicle solve kart direct junk ready t) := by
  refine ⟨fun row row' u s h => ?_⟩
  have hm := kart_setState_clock row row' (arrayOf u) h
  have he : Kart.evaluate solve (kart s) (Kart.setState row (arrayOf u))
      (Kart.roadCurvilinear (t.at_ s) (Kart.setState row (arrayOf u))) =
    ⟨(Kart.evaluate solve (kart s) (Kart.setState row' (arrayOf u))
      (Kart.roadCurvilinear (t.at_ s) (Kart.setState row' (arrayOf u)))).states.set 10 (row 10),
     (Kart.evaluate solve (kart s) (Kart.setState row' (arrayOf u))
      (Kart.roadCurvilinear (t.at_ s) (Kart.setState row' (arrayOf u)))).dstates⟩ := by
    rw [hm]
    have g1 (m : Kart.Members) (x : ℝ) : Kart.frontAxle (kart s) { m with road1 := x } = Kart.frontAxle (kart s) m := rfl
    have g2 (m : Kart.Members) (x : ℝ) : Kart.rearAxle (kart s) { m with road1 := x } = Kart.rearAxle (kart s) m := rfl
    have g3 (m : Kart.Members) (x hd : ℝ) : Kart.aeroForce (kart s) { m with road1 := x } hd =
      Kart.aeroForce (kart s) m hd := rfl
    have h1 (m : Kart.Members) (x hd : ℝ) : Kart.dvdt (kart s) { m with road1 := x } hd = Kart.dvdt (kart s) m hd := by
      simp only [Kart.dvdt, Kart.totalForce, Kart.newtonLhs, g1, g2, g3]
    have h2 (m : Kart.Members) (x hd : ℝ) : Kart.angularAcceleration solve (kart s) { m with road1 := x } hd =
      Kart.angularAcceleration solve (kart s) m hd := by
      simp only [Kart.angularAcceleration, Kart.totalTorque, Kart.eulerM, Kart.eulerLhs, Kart.comPosition, g1, g2, g3, h1]
    have h3 (m : Kart.Members) (x : ℝ) : Kart.axleAcceleration (kart s) { m with road1 := x } =
      Kart.axleAcceleration (kart s) m := by
      simp only [Kart.axleAcceleration, g2]
    simp only [Kart.evaluate, Kart.allStates, h1, h2, h3]
    rfl
  have k1 : (kartEval solve kart t row u s).dstates = (kartEval solve kart t row' u s).dstates := by
    simp only [kartEval, he]
  have k2 : (kartEval solve kart t row u s).extra = (kartEval solve kart t row' u s).extra := by
    have h1 (m : Kart.Members) (x : ℝ) : Kart.frontAxle (kart s) { m with road1 := x } = Kart.frontAxle (kart s) m := rfl
    have h2 (m : Kart.Members) (x : ℝ) : Kart.rearAxle (kart s) { m with road1 := x } = Kart.rearAxle (kart s) m := rfl
    simp only [kartEval, Kart.extraConstraints, hm, h1, h2]
  have k4 : ∀ q ∈ (kartVehicle solve kart direct junk ready t).timeIds,
      (kartEval solve kart t row u s).states q = (kartEval solve kart t row' u s).states q := by
    intro q hq
    have hq' : q ≠ 10 := by
      rintro rfl
      revert hq
      show 10 ∈ (idsOf (F1.classifyBase Kart.nInputs Kart.iRoad)).1 → False
      decide
    simp only [kartEval, he, getD_set_ne hq']
  exact ⟨k1, k2, rfl, k4⟩

/-- C193: the F1 car bounds the rates of all the controls given at every node, unless the brake bias is one. -/
theorem f1_rates (controls : List (CV ℝ)) (h4 : controls.length = 4) :
    (f1Vehicle car bias0 power junk ready t).RatesBounded controls ↔
      ∀ cv, controls[3]? = some cv → cv.kind ≠ .fullMesh := by
  have e : ∀ c, (c < (f1Vehicle car bias0 power junk ready t).dcontrolsLb.length ∧
      c < (f1Vehicle car bias0 power junk ready t).dcontrolsUb.length) ↔ c < 3 := by
    intro c
    show (c < 3 ∧ c < 3) ↔ _
    simp
  constructor
  · intro h cv hcv hk
    have := (e 3).1 (h 3 cv hcv hk)
    omega
  · intro h c cv hcv hk
    rw [e]
    have hc := (List.getElem?_eq_some_iff.1 hcv).1
    have : c ≠ 3 := by
      rintro rfl
      exact h cv hcv hk
    omega

theorem kart_rates (controls : List (CV ℝ)) (h2 : controls.length = 2) :
    (kartVehicle solve kart direct junk ready t).RatesBounded controls := by
  intro c cv hcv _
  have hc := (List.getElem?_eq_some_iff.1 hcv).1
  rw [h2] at hc
  have : (kartVehicle solve kart direct junk ready t).dcontrolsLb.length = 2 ∧
      (kartVehicle solve kart direct junk ready t).dcontrolsUb.length = 2 := by
    cases direct <;> exact ⟨rfl, rfl⟩
  omega

/-- C193: every acceptable request for a lap of the F1 car (four controls) reaches the optimiser. In the derivative
form no control may be constant and the brake bias may not be given at every node. -/
theorem C193_f1_partial (lowest max : ℝ) (r : Request ℝ) (h4 : r.controls.length = 4)
    (hacc : Acceptable (f1Vehicle car bias0 power junk ready t) r) (hw : r.warm = none)
    (hcov : ∀ p, prepare lowest max (f1Vehicle car bias0 power junk ready t) r = .ok p → HypermeshCovers p)
    (hd : r.isDirect = false → (∀ c ∈ r.controls, c.kind ≠ .constant) ∧
      ∀ cv, r.controls[3]? = some cv → cv.kind ≠ .fullMesh) :
    ∃ (p : Problem ℝ) (ini : Initial ℝ) (nlp : Nlp ℝ),
      setUp lowest max (f1Vehicle car bias0 power junk ready t) r = .ok (p, ini, nlp) := by
  obtain ⟨p, ini, nlp, -, -, -, h, -⟩ := C189_set_up lowest max (f1Vehicle car bias0 power junk ready t) r
    (h4 ▸ f1_wf car bias0 power junk ready t) hacc hcov
    (fun h => ⟨(f1_rates car bias0 power junk ready t _ h4).2 (hd h).2, (hd h).1⟩)
  exact ⟨p, ini, nlp, h (.inl hw)⟩

/-- C193 is broken by the F1 car: when the brake bias is given at every node in the derivative form the behaviour is
undefined, however acceptable the request. -/
theorem C193_f1_false (lowest max : ℝ) (r : Request ℝ) (h4 : r.controls.length = 4)
    (hacc : Acceptable (f1Vehicle car bias0 power junk ready t) r)
    (hcov : ∀ p, prepare lowest max (f1Vehicle car bias0 power junk ready t) r = .ok p → HypermeshCovers p)
    (hd : r.isDirect = false) (cv : CV ℝ) (hcv : r.controls[3]? = some cv) (hk : cv.kind = .fullMesh) :
    setUp lowest max (f1Vehicle car bias0 power junk ready t) r = .ub := by
  have hv : (f1Vehicle car bias0 power junk ready t).WellFormed r.controls.length := h4 ▸ f1_wf car bias0 power junk ready t
  obtain ⟨p, hp, hg⟩ := prepare_accepted lowest max _ r hacc
  obtain ⟨ini, hi⟩ := initialOf_ok (prepare_shape hp) (prepare_consistent hp) (wellFormed_defaults hv hp) (hcov p hp)
  have hub := ((C103_derivative_built_iff lowest max _ r hv hd p hp).2).2 fun h =>
    (f1_rates car bias0 power junk ready t _ h4).1 h.1 cv hcv hk
  have hpd : p.isDirect = false := hg.isDirect.trans hd
  simp only [setUp, hp, hi, Res.bind_ok, packOf, hpd, hub]
  rfl

/-- C193: every acceptable request for a lap of the kart (two controls) reaches the optimiser; in the derivative form
no control may be constant. -/
theorem C193_kart (lowest max : ℝ) (r : Request ℝ) (h2 : r.controls.length = 2)
    (hacc : Acceptable (kartVehicle solve kart direct junk ready t) r) (hw : r.warm = none)
    (hcov : ∀ p, prepare lowest max (kartVehicle solve kart direct junk ready t) r = .ok p → HypermeshCovers p)
    (hd : r.isDirect = false → ∀ c ∈ r.controls, c.kind ≠ .constant) :
    ∃ (p : Problem ℝ) (ini : Initial ℝ) (nlp : Nlp ℝ),
      setUp lowest max (kartVehicle solve kart direct junk ready t) r = .ok (p, ini, nlp) := by
  obtain ⟨p, ini, nlp, -, -, -, h, -⟩ := C189_set_up lowest max (kartVehicle solve kart direct junk ready t) r
    (h2 ▸ kart_wf junk ready t solve kart direct) hacc hcov
    (fun h => ⟨kart_rates junk ready t solve kart direct _ h2, hd h⟩)
  exact ⟨p, ini, nlp, h (.inl hw)⟩

end

/-! ## C194: a lap of the F1 car -/

/-- The nodes of a lap evaluated by a vehicle. -/
theorem lap_nodes {v : Transcription.Vehicle ℝ} {p : Problem ℝ} {lap : Lap ℝ} {defaults s : Nat → ℝ} {q u : Nat → Nat → ℝ}
    (hd : LapData p lap defaults s q u) (n : Nat) (hn : lap.controls.length = n)
    (hdef : v.controlsDef = (List.range n).map defaults) :
    EvaluatedNodes v p ⟨lap.inputs, lap.controls⟩
      (fun i => ⟨s i, v.eval (q i) ((List.range n).map (u i)) (s i)⟩) := by
  intro i hi
  obtain ⟨h1, h2, h3⟩ := hd i hi
  refine ⟨q i, s i, (List.range n).map (u i), h1, h2, by simp [hn], ?_, rfl⟩
  intro c cv d a hcv hdc ha
  have hc : c < n := hn ▸ (List.getElem?_eq_some_iff.1 hcv).1
  simp only at hcv
  rw [hdef] at hdc
  simp [hc] at hdc ha
  rw [← hdc, ← ha]
  exact h3 c cv hcv

theorem optimised_right {p : Problem ℝ} (hp : Shape p) {i : Nat} (hi : Optimised p i) :
    ∃ e, e < p.nElements ∧ rightNode p e = i := by
  obtain ⟨h1, h2⟩ := hi
  have he := hp.elements
  have := hp.two
  rcases Nat.eq_zero_or_pos i with rfl | h0
  · have hf : firstNode p.isClosed = 0 := Nat.le_zero.1 h1
    refine ⟨p.nPoints - 1, by omega, ?_⟩
    rw [rightNode, if_neg (by omega)]
  · have hf : firstNode p.isClosed ≤ 1 := by unfold firstNode; split <;> omega
    refine ⟨i - 1, by omega, ?_⟩
    rw [rightNode, if_pos (by omega)]
    omega

theorem f1Out_array (c : F1.Car) (f : TrackPoint) (q u : Nat → ℝ) :
    f1Out c f q (arrayOf ((List.range 4).map u)) = f1Out c f q u := by
  have : F1.setState c q (arrayOf ((List.range 4).map u)) = F1.setState c q u := rfl
  simp only [f1Out, this]

theorem kart_array (q u : Nat → ℝ) : Kart.setState q (arrayOf ((List.range 2).map u)) = Kart.setState q u := rfl

theorem kartForce_array (c : Kart.Vehicle) (f : TrackPoint) (q u : Nat → ℝ) :
    kartForce c f q (arrayOf ((List.range 2).map u)) = kartForce c f q u := by
  simp only [kartForce, kart_array]

/-- C194: when the optimiser reports success, a lap of the F1 car on a flat track obeys the laws of motion over every
element, and at every optimised node the loads, moments, slip angles and wheels are as they should, up to the
tolerance of the optimiser on the constraints. -/
theorem C194_f1_lap (car : ℝ → F1.Car) (bias0 power : ℝ) (junk : Nat → F1.Limits) (ready : Bool) (t : Circuit)
    (hflat : t.elevated = false) (hf : ∀ x, F1.Flat (t.at_ x))
    (hg : ∀ x, 0 < (car x).chassis.g0) (hm : ∀ x, 0 < (car x).chassis.mass)
    (lowest max : ℝ) (r : Request ℝ) (h4 : r.controls.length = 4)
    (p : Problem ℝ) (ini : Initial ℝ) (nlp : Nlp ℝ)
    (hset : setUp lowest max (f1Vehicle car bias0 power junk ready t) r = .ok (p, ini, nlp))
    (hcov : HypermeshCovers p) (opt : Optimiser ℝ) (hopt : RightSizes opt) (tolB tol : ℝ)
    (hrel : Reliable tolB tol opt) (tf : Bool) (lap : Lap ℝ)
    (hlap : solveLap lowest max (f1Vehicle car bias0 power junk ready t) tf opt r = .ok lap)
    (hsuc : lap.success = true) (s : Nat → ℝ) (q u : Nat → Nat → ℝ)
    (hdata : LapData p lap (fun k => (F1.controlLimits bias0 junk k).default) s q u)
    (hpace : ∀ i, i < p.nPoints → f1Pace (t.at_ (s i)) (q i) ≠ 0) :
    (∀ e, e < p.nElements →
      F1Element p.opts.sigma (lengthOf p t.length s e) tol (car (s e)) (t.at_ (s e)) (q e) (u e)
        (car (s (rightNode p e))) (t.at_ (s (rightNode p e))) (q (rightNode p e)) (u (rightNode p e))) ∧
    ∀ i, Optimised p i →
      F1Node tol (car (s i)) (t.at_ (s i)) (t.left (s i)) (t.right (s i)) (q i) (u i) ∧
      -(t.left (s i)) - tolB ≤ q i 12 ∧ q i 12 ≤ t.right (s i) + tolB := by
  have hv : (f1Vehicle car bias0 power junk ready t).WellFormed r.controls.length := h4 ▸ f1_wf car bias0 power junk ready t
  obtain ⟨es, b, h⟩ := setUp_ready hv hset hcov
  have hsh := h.run.shape
  have hlen : lap.controls.length = 4 := by
    obtain ⟨st, row0, nd, h1, h2, h3, h4', h5, h6, h7, h8⟩ := h.lap hset hopt hlap
    have : lap.controls = st.controls := by rw [h6]; rfl
    rw [this, h3.fits.controls, (prepare_ok h.run.prepared).2.controls, List.length_map, h4]
  have hn := lap_nodes (v := f1Vehicle car bias0 power junk ready t) hdata 4 hlen rfl
  have ho := C190_lap_obeys lowest max _ r hv (f1_clockFree car bias0 power junk ready t) p ini nlp hset hcov opt hopt
    tolB tol hrel tf lap hlap hsuc _ hn
  have hids : idsOf (F1.classify t.elevated) = ([0, 1, 2, 3, 4, 5, 6, 12, 13], [7, 8, 9, 10]) := by rw [hflat]; decide
  have hti : (f1Vehicle car bias0 power junk ready t).timeIds = [0, 1, 2, 3, 4, 5, 6, 12, 13] := congrArg Prod.fst hids
  have hai : (f1Vehicle car bias0 power junk ready t).algIds = [7, 8, 9, 10] := congrArg Prod.snd hids
  refine ⟨fun e he => ?_, fun i hi => ?_⟩
  · have hel := element_lt hsh he
    have her := rightNode_lt hsh e
    have dyn := ho.dynamics e
    rw [hti] at dyn
    have L : elementLength (f1Vehicle car bias0 power junk ready t) p
      (fun i => ⟨s i, (f1Vehicle car bias0 power junk ready t).eval (q i) ((List.range 4).map (u i)) (s i)⟩) e
        = lengthOf p t.length s e := rfl
    rw [L] at dyn
    obtain ⟨a4, a5, a6, a12, a13, -⟩ := f1_rows car power t (q e) ((List.range 4).map (u e)) (s e) (hf _) (hpace e hel)
    obtain ⟨b4, b5, b6, b12, b13, -⟩ := f1_rows car power t (q (rightNode p e)) ((List.range 4).map (u (rightNode p e)))
      (s (rightNode p e)) (hf _) (hpace _ her)
    simp only [f1Out_array] at a4 a5 a6 b4 b5 b6
    have go (k : Nat) (hk : k ∈ [0, 1, 2, 3, 4, 5, 6, 12, 13]) {x x' y y' : ℝ}
        (h1 : (f1Eval car power t (q e) ((List.range 4).map (u e)) (s e)).states k = x ∧
          (f1Eval car power t (q e) ((List.range 4).map (u e)) (s e)).dstates k = y)
        (h2 : (f1Eval car power t (q (rightNode p e)) ((List.range 4).map (u (rightNode p e)))
            (s (rightNode p e))).states k = x' ∧
          (f1Eval car power t (q (rightNode p e)) ((List.range 4).map (u (rightNode p e)))
            (s (rightNode p e))).dstates k = y') :
        Changes p.opts.sigma (lengthOf p t.length s e) tol x x' y y' := by
      have := dyn k he hk
      rw [← h1.1, ← h1.2, ← h2.1, ← h2.2]
      exact this
    have g4 := go 4 (by simp) a4 b4
    have g5 := go 5 (by simp) a5 b5
    have g6 := go 6 (by simp) a6 b6
    have g12 := go 12 (by simp) a12 b12
    have g13 := go 13 (by simp) a13 b13
    have gw (k : Kart.Corner) (hI) (hI') := go (cornerIndex k) (by cases k <;> simp [cornerIndex])
      (f1_wheel_rows car power t (q e) ((List.range 4).map (u e)) (s e) k _ (by rw [f1Out_array]) hI)
      (f1_wheel_rows car power t (q (rightNode p e)) ((List.range 4).map (u (rightNode p e))) (s (rightNode p e)) k _
        (by rw [f1Out_array]) hI')
    simp only [roadPace_flat (hf _)] at gw
    exact ⟨g4, g5, g6, g12, g13, gw⟩
  · obtain ⟨e, he, rfl⟩ := optimised_right hsh hi
    have her := rightNode_lt hsh e
    have ha := ho.algebraic e
    rw [hai] at ha
    have := f1_node car power t (q (rightNode p e)) ((List.range 4).map (u (rightNode p e))) (s (rightNode p e)) tol (hf _)
      (hpace _ her) (hg _) (hm _) (fun k hk => ha k he hk)
      (fun k hk => ho.extra e k (s (rightNode p e)) he hk (hdata _ her).2.1)
    obtain ⟨n1, n2, n3, n4, n5, n6⟩ := this
    simp only [f1Out_array] at n1 n2 n3 n5
    exact ⟨⟨n1, n2, n3, n4, n5, n6⟩, ho.lateral _ _ _ hi (hdata _ her).1 (hdata _ her).2.1⟩

/-! ## C195: a lap of the kart -/

/-- C195: when the optimiser reports success, a lap of the kart on a flat track obeys the laws of motion over every
element, and at every optimised node slips and slip angles are below 0.11, up to the tolerance of the optimiser on
the constraints. -/
theorem C195_kart_lap (solve : Vec3 × Vec3 × Vec3 → Vec3 → Vec3) (kart : ℝ → Kart.Vehicle) (direct : Bool)
    (junk : Nat → F1.Limits) (ready : Bool) (t : Circuit) (hf : ∀ x, F1.Flat (t.at_ x))
    (lowest max : ℝ) (r : Request ℝ) (h2 : r.controls.length = 2)
    (p : Problem ℝ) (ini : Initial ℝ) (nlp : Nlp ℝ)
    (hset : setUp lowest max (kartVehicle solve kart direct junk ready t) r = .ok (p, ini, nlp))
    (hcov : HypermeshCovers p) (opt : Optimiser ℝ) (hopt : RightSizes opt) (tolB tol : ℝ)
    (hrel : Reliable tolB tol opt) (tf : Bool) (lap : Lap ℝ)
    (hlap : solveLap lowest max (kartVehicle solve kart direct junk ready t) tf opt r = .ok lap)
    (hsuc : lap.success = true) (s : Nat → ℝ) (q u : Nat → Nat → ℝ)
    (hdata : LapData p lap (fun k => (Kart.controlLimits junk k).default) s q u)
    (hpace : ∀ i, i < p.nPoints → kartPace (t.at_ (s i)) (q i) ≠ 0) :
    (∀ e, e < p.nElements →
      KartElement solve p.opts.sigma (lengthOf p t.length s e) tol (kart (s e)) (t.at_ (s e)) (q e) (u e)
        (kart (s (rightNode p e))) (t.at_ (s (rightNode p e))) (q (rightNode p e)) (u (rightNode p e))) ∧
    ∀ i, Optimised p i → KartNode tol (kart (s i)) (q i) (u i) ∧
      -(t.left (s i)) - tolB ≤ q i 11 ∧ q i 11 ≤ t.right (s i) + tolB := by
  have hv : (kartVehicle solve kart direct junk ready t).WellFormed r.controls.length :=
    h2 ▸ kart_wf junk ready t solve kart direct
  obtain ⟨es, b, h⟩ := setUp_ready hv hset hcov
  have hsh := h.run.shape
  have hlen : lap.controls.length = 2 := by
    obtain ⟨st, row0, nd, h1, h2', h3, h4', h5, h6, h7, h8⟩ := h.lap hset hopt hlap
    have : lap.controls = st.controls := by rw [h6]; rfl
    rw [this, h3.fits.controls, (prepare_ok h.run.prepared).2.controls, List.length_map, h2]
  have hn := lap_nodes (v := kartVehicle solve kart direct junk ready t) hdata 2 hlen rfl
  have ho := C190_lap_obeys lowest max _ r hv (kart_clockFree junk ready t solve kart direct) p ini nlp hset hcov opt hopt
    tolB tol hrel tf lap hlap hsuc _ hn
  have hti : (kartVehicle solve kart direct junk ready t).timeIds = [0, 1, 2, 3, 4, 5, 6, 7, 8, 9, 11, 12] := by
    show (idsOf (F1.classifyBase Kart.nInputs Kart.iRoad)).1 = _
    decide
  refine ⟨fun e he => ?_, fun i hi => ?_⟩
  · have hel := element_lt hsh he
    have her := rightNode_lt hsh e
    have dyn := ho.dynamics e
    rw [hti] at dyn
    have L : elementLength (kartVehicle solve kart direct junk ready t) p
      (fun i => ⟨s i, (kartVehicle solve kart direct junk ready t).eval (q i) ((List.range 2).map (u i)) (s i)⟩) e
        = lengthOf p t.length s e := rfl
    rw [L] at dyn
    obtain ⟨a, a0, a1, a2, a3, a4, a7, a8, a9, -, a11, a12⟩ := kart_rows solve kart t (q e) ((List.range 2).map (u e))
      (s e) (hf _) (hpace e hel)
    obtain ⟨b, b0, b1, b2, b3, b4, b7, b8, b9, -, b11, b12⟩ := kart_rows solve kart t (q (rightNode p e))
      ((List.range 2).map (u (rightNode p e))) (s (rightNode p e)) (hf _) (hpace _ her)
    simp only [kartForce_array, kart_array] at a0 a1 a2 a3 a7 a8 a9 b0 b1 b2 b3 b7 b8 b9
    have go (k : Nat) (hk : k ∈ [0, 1, 2, 3, 4, 5, 6, 7, 8, 9, 11, 12]) {y y' : ℝ}
        (h1 : (kartEval solve kart t (q e) ((List.range 2).map (u e)) (s e)).dstates k = y)
        (h2 : (kartEval solve kart t (q (rightNode p e)) ((List.range 2).map (u (rightNode p e)))
            (s (rightNode p e))).dstates k = y') :
        Changes p.opts.sigma (lengthOf p t.length s e) tol (q e k) (q (rightNode p e) k) y y' := by
      have := dyn k he hk
      have hk' : k < 13 := by
        simp only [List.mem_cons, List.not_mem_nil, or_false] at hk
        omega
      rw [← h1, ← h2, ← a k hk', ← b k hk']
      exact this
    exact ⟨go 0 (by simp) a0 b0, go 1 (by simp) a1 b1, go 2 (by simp) a2 b2, go 7 (by simp) a7 b7,
      fun k hk => go (4 + k) (by simp; omega) (a4 k hk) (b4 k hk), go 11 (by simp) a11 b11, go 12 (by simp) a12 b12,
      go 8 (by simp) a8 b8, go 9 (by simp) a9 b9, go 3 (by simp) a3 b3⟩
  · obtain ⟨e, he, rfl⟩ := optimised_right hsh hi
    have her := rightNode_lt hsh e
    have hx (k : Nat) (hk : k < 6) : |(Kart.extraConstraints (kart (s (rightNode p e)))
        (Kart.setState (q (rightNode p e)) (u (rightNode p e)))).getD k 0| ≤ 11 / 100 + tol := by
      have : Kart.extraBounds.1.getD k 0 - tol ≤ (Kart.extraConstraints (kart (s (rightNode p e)))
          (Kart.setState (q (rightNode p e)) (u (rightNode p e)))).getD k 0 ∧
        (Kart.extraConstraints (kart (s (rightNode p e)))
          (Kart.setState (q (rightNode p e)) (u (rightNode p e)))).getD k 0 ≤ Kart.extraBounds.2.getD k 0 + tol :=
        ho.extra e k (s (rightNode p e)) he hk (hdata _ her).2.1
      have e1 : Kart.extraBounds.1.getD k 0 = -(11 / 100) ∧ Kart.extraBounds.2.getD k 0 = 11 / 100 := by
        interval_cases k <;> exact ⟨rfl, rfl⟩
      rw [e1.1, e1.2] at this
      exact abs_le.2 ⟨by linarith [this.1], this.2⟩
    refine ⟨?_, ho.lateral _ _ _ hi (hdata _ her).1 (hdata _ her).2.1⟩
    intro x hmem
    simp only [List.mem_cons, List.not_mem_nil, or_false] at hmem
    rcases hmem with rfl | rfl | rfl | rfl | rfl | rfl
    · exact hx 0 (by norm_num)
    · exact hx 1 (by norm_num)
    · exact hx 2 (by norm_num)
    · exact hx 3 (by norm_num)
    · exact hx 4 (by norm_num)
    · exact hx 5 (by norm_num)


/-! ## Concrete laps -/

section ex

/-- An optimiser that returns the starting point and claims success when that is feasible. -/
noncomputable def stayOpt : Optimiser ℝ := fun nlp =>
  { success := @decide (∀ cost c, nlp.value nlp.start = .ok (cost :: c) →
        Transcription.Within 0 nlp.start nlp.bounds ∧ Transcription.Within 0 c nlp.conBounds) (Classical.propDecidable _)
    x := nlp.start, zl := nlp.start, zu := nlp.start, lambda := nlp.conBounds.map fun _ => 2, visited := [nlp.start] }

theorem stayOpt_sizes : RightSizes stayOpt :=
  ⟨fun _ => rfl, fun _ => rfl, fun _ => rfl, fun _ => by simp [stayOpt], fun nlp y hy => by
    simp only [stayOpt, List.mem_cons, List.not_mem_nil, or_false] at hy
    rw [hy]⟩

theorem stayOpt_reliable : Reliable 0 0 stayOpt := fun _ cost c hs hv =>
  ((@decide_eq_true_iff _ (Classical.propDecidable _)).1 hs) cost c hv

theorem fits_self {p : Problem ℝ} (hp : Shape p) : FitsProblem p ⟨p.inputs, p.controls⟩ := by
  refine ⟨hp.inputs, rfl, ?_⟩
  intro c a b ha hb
  simp only at hb
  rw [ha] at hb
  obtain rfl := Option.some.inj hb
  exact ⟨rfl, rfl, rfl, rfl, rfl⟩

theorem sameStart_self (v : Transcription.Vehicle ℝ) (p : Problem ℝ) : SameStart v p p.inputs p.controls :=
  ⟨fun row row' h1 h2 j _ _ => by
    rw [h1] at h2
    rw [Option.some.inj h2], fun c a b ha hb _ => by
    rw [ha] at hb
    obtain rfl := Option.some.inj hb
    exact ⟨rfl, rfl⟩⟩

/-- It converges when the requested lap obeys. -/
theorem stayOpt_success {v : Transcription.Vehicle ℝ} {lowest max : ℝ} {r : Request ℝ} (hv : v.WellFormed r.controls.length)
    (hcf : ClockFree v) {p : Problem ℝ} {ini : Initial ℝ} {nlp : Nlp ℝ} (hset : setUp lowest max v r = .ok (p, ini, nlp))
    (hcov : HypermeshCovers p) (hobeys : ∀ node, EvaluatedNodes v p ⟨p.inputs, p.controls⟩ node →
      Obeys v p 0 0 p.inputs p.controls node) : (stayOpt nlp).success = true := by
  obtain ⟨es, b, h⟩ := setUp_ready hv hset hcov
  have hsh := h.run.shape
  have hf := fits_self hsh
  obtain ⟨node, hn⟩ := h.run.nodes hf
  have hst : nlp.start = es.map Entry.start := by rw [h.nlp]; rfl
  have hlen : nlp.start.length = nVariables v p := h.start.1
  have hh : Holds v p p.inputs p.controls nlp.start := by rw [hst]; exact h.layout.holds hsh
  obtain ⟨su, l1, l2, l3, l4⟩ := h.run.load_lap hf (fun _ => sameStart_self v p) hlen hh
  have hl : su.inputs.length = p.inputs.length := l2.fits.inputs.trans hf.inputs.symm
  obtain ⟨f, g1, g2⟩ := evaluated_reclock hcf hl l4 hn
  rw [← l3] at g1
  obtain ⟨c0, m1, m2⟩ := h.run.value_at l1 l2.fits g1
  have hval : nlp.value nlp.start =
      .ok ((lapDuration v p (reclock node f) + smoothing v p (reclock node f) su.controls) :: c0) := by
    have : nlp.value = fun x => (fgOf v p ini (initialLoaded p) x).map Prod.fst := by rw [h.nlp]; rfl
    rw [this]
    simp only [m1]
    rfl
  have hob := (hobeys node hn).reclock h.run.wf.lateral hsh hl l4 g2
  rw [← l3] at hob
  have hy : Holds v p su.inputs su.controls nlp.start := by rw [l3]; exact hh.sameInputs hl l4
  have hw := within_of_obeys h.run.wf.lateral h.run.wf.equations hsh h.layout h.bounds l2.fits hlen hy m2 hob
  refine (@decide_eq_true_iff _ (Classical.propDecidable _)).2 ?_
  intro cost c hv
  rw [hval] at hv
  have hv := Res.ok.inj hv
  simp only [List.cons.injEq] at hv
  rw [← hv.2]
  rw [h.nlp] at hw ⊢
  exact hw

/-- 50 m from the inputs `row` to the inputs `row'` within given bounds, all the controls at their default values. -/
noncomputable def goWithin (lb ub : Nat → ℝ) (n : Nat) (row row' : Nat → ℝ) : Request ℝ :=
  { s := [0, 50], isClosed := false, isDirect := true, inputs := [row, row'], controls := List.replicate n createDontOptimize
    warm := none, opts := ⟨lb, ub, fun _ => -1, fun _ => 1, [], 1 / 2⟩ }

/-- The same with wide bounds. -/
noncomputable abbrev goRequest (n : Nat) (row row' : Nat → ℝ) : Request ℝ := goWithin (fun _ => -1000) (fun _ => 1000) n row row'

theorem go_acceptable {v : Transcription.Vehicle ℝ} (n : Nat) (lb ub row row' : Nat → ℝ) (hl : 50 < v.trackLength)
    (hr : v.ready = true) : Acceptable v (goWithin lb ub n row row') := by
  refine ⟨by simp [goWithin], ?_, ?_, rfl, ?_, ?_, ?_, ?_⟩
  · intro h; simp [goWithin] at h
  · intro _ a b ha hb
    simp [goWithin] at ha hb; subst ha; subst hb
    constructor <;> linarith
  · intro c hc
    rw [(List.mem_replicate.1 hc).2]
    exact .dontOptimize rfl rfl rfl rfl
  · intro c hc hk
    rw [(List.mem_replicate.1 hc).2] at hk
    simp [createDontOptimize] at hk
  · intro q hq
    simp [goWithin] at hq
  · exact hr

/-- Such a lap obeys when nothing but the time and what changes by its rates changes. -/
theorem go_obeys {v : Transcription.Vehicle ℝ} {lowest max : ℝ} {n : Nat} {lb ub row row' : Nat → ℝ} {p : Problem ℝ}
    (hp : prepare lowest max v (goWithin lb ub n row row') = .ok p) (hdef : v.controlsDef.length = n)
    (hnd : v.integralNames.Nodup)
    (hlat : -(v.leftLimit 50) ≤ row' (v.iTime + 1) ∧ row' (v.iTime + 1) ≤ v.rightLimit 50)
    (hin : ∀ j, lb j ≤ row' j ∧ row' j ≤ ub j)
    (ht : ∀ k ∈ v.timeIds, (v.eval row' v.controlsDef 50).states k = (v.eval row v.controlsDef 0).states k ∧
      (v.eval row v.controlsDef 0).dstates k + (v.eval row' v.controlsDef 50).dstates k = 0)
    (ha : ∀ k ∈ v.algIds, (v.eval row' v.controlsDef 50).dstates k = 0)
    (hx : ∀ k, k < v.nExtra → v.extraLb 50 k ≤ (v.eval row' v.controlsDef 50).extra k ∧
      (v.eval row' v.controlsDef 50).extra k ≤ v.extraUb 50 k)
    (node : Nat → Node ℝ) (hn : EvaluatedNodes v p ⟨p.inputs, p.controls⟩ node) :
    Obeys v p 0 0 p.inputs p.controls node := by
  have g := (prepare_ok hp).2
  have hsh := prepare_shape hp
  have hs : p.s = [0, 50] := g.s
  have hi : p.inputs = [row, row'] := g.inputs
  have ho : p.opts = ⟨lb, ub, fun _ => -1, fun _ => 1, [], 1 / 2⟩ := g.opts
  have hc : p.controls = List.replicate n createDontOptimize := by
    rw [g.controls]
    simp [goWithin, meaningful, createDontOptimize]
  have hcv : ∀ (c : Nat) (cv : CV ℝ), p.controls[c]? = some cv → cv.kind = .dontOptimize := by
    intro c cv h
    rw [hc] at h
    rw [List.eq_of_mem_replicate (List.mem_of_getElem? h)]
    rfl
  have hd : p.isDirect = true := g.isDirect
  have h2 : p.nPoints = 2 := g.nPoints
  have hcl : p.isClosed = false := g.isClosed
  have hev : ∀ i, i < p.nPoints → node i = if i = 0 then ⟨0, v.eval row v.controlsDef 0⟩ else
      ⟨50, v.eval row' v.controlsDef 50⟩ := by
    intro i hi'
    obtain ⟨r, s, u, e1, e2, e3, e4, e5⟩ := hn i hi'
    have : u = v.controlsDef := by
      apply List.ext_getElem?
      intro c
      have hlen : u.length = n := by rw [e3]; simp [hc]
      by_cases hcn : c < n
      · have e1 : u[c]? = some u[c] := List.getElem?_eq_getElem (by omega)
        have e2 : v.controlsDef[c]? = some v.controlsDef[c] := List.getElem?_eq_getElem (by omega)
        have e3 : p.controls[c]? = some createDontOptimize := by
          rw [hc]; simp [hcn]
        have : u[c] = v.controlsDef[c] := e4 c _ _ _ e3 e2 e1
        rw [e1, e2, this]
      · rw [List.getElem?_eq_none (by omega), List.getElem?_eq_none (by omega)]
    rw [e5, this]
    simp only [hi] at e1
    rw [hs] at e2
    have hi2 : i = 0 ∨ i = 1 := by omega
    rcases hi2 with rfl | rfl
    · simp at e1 e2; subst e1; subst e2; rfl
    · simp at e1 e2; subst e1; subst e2; rfl
  have hne : p.nElements = 1 := g.nElements
  have hr1 : rightNode p 0 = 1 := by rw [rightNode, if_pos (by omega)]
  have n0 : node 0 = ⟨0, v.eval row v.controlsDef 0⟩ := hev 0 (by omega)
  have n1 : node 1 = ⟨50, v.eval row' v.controlsDef 50⟩ := hev 1 (by omega)
  have hopt1 : ∀ i, Optimised p i → i = 1 := by
    rintro i ⟨o1, o2⟩
    rw [hcl] at o1
    rw [h2] at o2
    simp only [firstNode] at o1
    simp at o1
    omega
  refine ⟨?_, ?_, ?_, ?_, by simp [hd], ?_, ?_, ?_, by simp [hd], ?_⟩
  · intro i r si hopt hr hsi
    obtain rfl := hopt1 i hopt
    rw [hs] at hsi
    rw [hi] at hr
    simp at hsi hr
    subst hsi
    subst hr
    constructor <;> linarith [hlat.1, hlat.2]
  · intro i j r hopt _ _ _ hr
    obtain rfl := hopt1 i hopt
    rw [hi] at hr
    simp at hr
    subst hr
    rw [ho]
    have := hin j
    constructor <;> simp only <;> linarith [this.1, this.2]
  · intro i c cv a _ h hk
    rw [hcv c cv h] at hk
    cases hk
  · intro c k cv a h hk
    rw [hcv c cv h] at hk
    rcases hk with hk | hk <;> cases hk
  · intro e q he hq
    obtain rfl : e = 0 := by omega
    rw [hr1, n0, n1]
    obtain ⟨t1, t2⟩ := ht q hq
    simp only [ho]
    have : (1 - 1 / 2) * (v.eval row v.controlsDef 0).dstates q + 1 / 2 * (v.eval row' v.controlsDef 50).dstates q = 0 := by
      linear_combination 1 / 2 * t2
    rw [this, t1]
    simp
  · intro e q he hq
    obtain rfl : e = 0 := by omega
    rw [hr1, n1]
    simp only [ha q hq]
    simp
  · intro e k sr he hk hsr
    obtain rfl : e = 0 := by omega
    rw [hr1] at hsr ⊢
    rw [hs] at hsr
    simp at hsr
    subst hsr
    rw [n1]
    have := hx k hk
    constructor <;> linarith [this.1, this.2]
  · intro k q hq hr
    exfalso
    have hk := (List.getElem?_eq_some_iff.1 hq).1
    rw [g.nQuantities] at hk
    have := g.quantities hnd k _ (List.getElem?_eq_getElem hk)
    rw [this] at hq
    simp [lastRequest, goWithin] at hq
    rw [← hq] at hr
    simp at hr

/-- The request is accepted and what is returned has its inputs, converged or not. -/
theorem go_data {v : Transcription.Vehicle ℝ} {n : Nat} {lb ub row row' : Nat → ℝ} (hv : v.WellFormed n)
    (hl : 50 < v.trackLength) (hr : v.ready = true) :
    ∃ (p : Problem ℝ) (ini : Initial ℝ) (nlp : Nlp ℝ), prepare (-10 ^ 9) (10 ^ 9) v (goWithin lb ub n row row') = .ok p ∧
      setUp (-10 ^ 9) (10 ^ 9) v (goWithin lb ub n row row') = .ok (p, ini, nlp) ∧ HypermeshCovers p ∧
      p.nPoints = 2 ∧ p.nElements = 1 ∧
      (∃ lap, solveLap (-10 ^ 9) (10 ^ 9) v false stayOpt (goWithin lb ub n row row') = .ok lap) ∧
      ∀ tf lap, solveLap (-10 ^ 9) (10 ^ 9) v tf stayOpt (goWithin lb ub n row row') = .ok lap → ∃ q : Nat → Nat → ℝ,
        (∀ d : Nat → ℝ, LapData p lap d (fun i => if i = 0 then 0 else 50) q fun _ => d) ∧
        ∀ i j, i < 2 → j < v.nInputs → j ≠ v.iTime → q i j = if i = 0 then row j else row' j := by
  have hv' : v.WellFormed (goWithin lb ub n row row').controls.length := by simpa [goWithin] using hv
  have hacc := go_acceptable (v := v) n lb ub row row' hl hr
  have hcov : ∀ p, prepare (-10 ^ 9) (10 ^ 9) v (goWithin lb ub n row row') = .ok p → HypermeshCovers p := by
    intro p hp c hc hk
    rw [(prepare_ok hp).2.controls] at hc
    simp [goWithin, meaningful, createDontOptimize] at hc
    rw [hc.2] at hk
    cases hk
  obtain ⟨p, ini, nlp, h1, _, _, h4, _⟩ := C189_set_up (-10 ^ 9) (10 ^ 9) v (goWithin lb ub n row row') hv' hacc hcov
    (fun h => by simp [goWithin] at h)
  have hset := h4 (Or.inl rfl)
  have g := (prepare_ok h1).2
  obtain ⟨lap0, g0, _⟩ := (C189_returned _ _ v _ hv' p ini nlp hset (hcov p h1) stayOpt stayOpt_sizes false).1 (Or.inr rfl)
  refine ⟨p, ini, nlp, h1, hset, hcov p h1, g.nPoints, g.nElements, ⟨lap0, g0⟩, fun tf lap g1 => ?_⟩
  obtain ⟨es, b, h⟩ := setUp_ready hv' hset (hcov p h1)
  obtain ⟨st, row0, nd, k1, k2, k3, k4, k5, k6, k7, k8⟩ := h.lap hset stayOpt_sizes g1
  have hc : lap.controls = st.controls := by rw [k6]; rfl
  have hsh := h.run.shape
  have hf : FitsProblem p ⟨p.inputs, p.controls⟩ := fits_self hsh
  have hst : nlp.start = es.map Entry.start := by rw [h.nlp]; rfl
  have hh : Holds v p p.inputs p.controls nlp.start := by rw [hst]; exact h.layout.holds hsh
  obtain ⟨su, l1, l2, l3, l4⟩ := h.run.load_lap hf (fun _ => sameStart_self v p) h.start.1 hh
  have hsu : st = su := by
    rw [show (stayOpt nlp).x = nlp.start from rfl, l1] at k1
    exact (Prod.mk.inj (Res.ok.inj k1)).1.symm
  have h2 : p.nPoints = 2 := g.nPoints
  have hlen : lap.inputs.length = 2 := by rw [k7, k3.fits.inputs, h2]
  refine ⟨fun i => lap.inputs.getD i row, fun d i hi => ⟨?_, ?_, ?_⟩, fun i j hi hj ht => ?_⟩
  · simp only [List.getD_eq_getElem?_getD]
    rw [List.getElem?_eq_getElem (by omega)]; rfl
  · rw [show p.s = [0, 50] from g.s]
    have : i = 0 ∨ i = 1 := by omega
    rcases this with rfl | rfl <;> simp
  · intro c cv hcv
    have hk : cv.kind = .dontOptimize := by
      rw [hc] at hcv
      have hl' : c < p.controls.length := k3.fits.controls ▸ (List.getElem?_eq_some_iff.1 hcv).1
      have e2 := List.getElem?_eq_getElem hl'
      rw [(k3.fits.frames c _ _ e2 hcv).kind]
      generalize p.controls[c] = cw at e2
      have := List.mem_of_getElem? e2
      rw [g.controls] at this
      simp [goWithin, meaningful, createDontOptimize] at this
      rw [this.2]
    simp only [ExpectedControl, hk]
  · obtain ⟨w, hw⟩ : ∃ w, w = if i = 0 then row else row' := ⟨_, rfl⟩
    have hw' : (if i = 0 then row j else row' j) = w j := by rw [hw]; split <;> rfl
    rw [hw']
    have e1 : lap.inputs[i]? = some (lap.inputs.getD i row) := by
      rw [List.getD_eq_getElem?_getD, List.getElem?_eq_getElem (by omega)]; rfl
    have hl2 : i < st.inputs.length := by rw [k3.fits.inputs]; omega
    have e2 : st.inputs[i]? = some st.inputs[i] := List.getElem?_eq_getElem hl2
    have e3 : p.inputs[i]? = some w := by
      rw [show p.inputs = [row, row'] from g.inputs, hw]
      have : i = 0 ∨ i = 1 := by omega
      rcases this with rfl | rfl <;> rfl
    have e4 := k8 i _ _ trivial e2 e1 j hj ht
    generalize st.inputs[i] = r at e2 e4
    rw [hsu] at e2
    have e5 := l4 i _ _ trivial e3 e2 j hj ht
    exact e4.symm.trans e5.symm

/-- The whole lap. -/
theorem go_lap {v : Transcription.Vehicle ℝ} {n : Nat} {lb ub row row' : Nat → ℝ} (hv : v.WellFormed n) (hcf : ClockFree v)
    (hdef : v.controlsDef.length = n) (hl : 50 < v.trackLength) (hr : v.ready = true) (hnd : v.integralNames.Nodup)
    (hlat : -(v.leftLimit 50) ≤ row' (v.iTime + 1) ∧ row' (v.iTime + 1) ≤ v.rightLimit 50)
    (hin : ∀ j, lb j ≤ row' j ∧ row' j ≤ ub j)
    (ht : ∀ k ∈ v.timeIds, (v.eval row' v.controlsDef 50).states k = (v.eval row v.controlsDef 0).states k ∧
      (v.eval row v.controlsDef 0).dstates k + (v.eval row' v.controlsDef 50).dstates k = 0)
    (ha : ∀ k ∈ v.algIds, (v.eval row' v.controlsDef 50).dstates k = 0)
    (hx : ∀ k, k < v.nExtra → v.extraLb 50 k ≤ (v.eval row' v.controlsDef 50).extra k ∧
      (v.eval row' v.controlsDef 50).extra k ≤ v.extraUb 50 k) :
    ∃ (p : Problem ℝ) (ini : Initial ℝ) (nlp : Nlp ℝ) (lap : Lap ℝ),
      setUp (-10 ^ 9) (10 ^ 9) v (goWithin lb ub n row row') = .ok (p, ini, nlp) ∧ HypermeshCovers p ∧
      solveLap (-10 ^ 9) (10 ^ 9) v true stayOpt (goWithin lb ub n row row') = .ok lap ∧ lap.success = true ∧
      p.nPoints = 2 ∧ p.nElements = 1 ∧ ∃ q : Nat → Nat → ℝ,
        (∀ d : Nat → ℝ, LapData p lap d (fun i => if i = 0 then 0 else 50) q fun _ => d) ∧
        ∀ i j, i < 2 → j < v.nInputs → j ≠ v.iTime → q i j = if i = 0 then row j else row' j := by
  have hv' : v.WellFormed (goWithin lb ub n row row').controls.length := by simpa [goWithin] using hv
  obtain ⟨p, ini, nlp, h1, hset, hcov, k1, k2, -, k3⟩ := go_data (row := row) (row' := row') hv hl hr
  have hs := stayOpt_success hv' hcf hset hcov fun node hn => go_obeys h1 hdef hnd hlat hin ht ha hx node hn
  obtain ⟨lap, g1, g2, _⟩ := (C189_returned _ _ v _ hv' p ini nlp hset hcov stayOpt stayOpt_sizes true).1 (Or.inl hs)
  exact ⟨p, ini, nlp, lap, hset, hcov, g1, g2.trans hs, k1, k2, k3 true lap g1⟩

/-- 50 m at constant inputs, all the controls at their default values. -/
noncomputable abbrev stayRequest (n : Nat) (row : Nat → ℝ) : Request ℝ := goRequest n row row

theorem stay_data {v : Transcription.Vehicle ℝ} {n : Nat} {row : Nat → ℝ} (hv : v.WellFormed n)
    (hl : 50 < v.trackLength) (hr : v.ready = true) :
    ∃ (p : Problem ℝ) (ini : Initial ℝ) (nlp : Nlp ℝ), prepare (-10 ^ 9) (10 ^ 9) v (stayRequest n row) = .ok p ∧
      setUp (-10 ^ 9) (10 ^ 9) v (stayRequest n row) = .ok (p, ini, nlp) ∧ HypermeshCovers p ∧
      p.nPoints = 2 ∧ p.nElements = 1 ∧
      (∃ lap, solveLap (-10 ^ 9) (10 ^ 9) v false stayOpt (stayRequest n row) = .ok lap) ∧
      ∀ tf lap, solveLap (-10 ^ 9) (10 ^ 9) v tf stayOpt (stayRequest n row) = .ok lap → ∃ q : Nat → Nat → ℝ,
        (∀ d : Nat → ℝ, LapData p lap d (fun i => if i = 0 then 0 else 50) q fun _ => d) ∧
        ∀ i j, i < 2 → j < v.nInputs → j ≠ v.iTime → q i j = row j := by
  simpa only [ite_self] using go_data (row := row) (row' := row) hv hl hr

theorem stay_lap {v : Transcription.Vehicle ℝ} {n : Nat} {row : Nat → ℝ} (hv : v.WellFormed n) (hcf : ClockFree v)
    (hdef : v.controlsDef.length = n) (hl : 50 < v.trackLength) (hr : v.ready = true) (hnd : v.integralNames.Nodup)
    (hlat : -(v.leftLimit 50) ≤ row (v.iTime + 1) ∧ row (v.iTime + 1) ≤ v.rightLimit 50)
    (hin : ∀ j, -1000 ≤ row j ∧ row j ≤ 1000)
    (ht : ∀ s, ∀ k ∈ v.timeIds, (v.eval row v.controlsDef s).dstates k = 0 ∧
      (v.eval row v.controlsDef s).states k = (v.eval row v.controlsDef 0).states k)
    (ha : ∀ s, ∀ k ∈ v.algIds, (v.eval row v.controlsDef s).dstates k = 0)
    (hx : ∀ k, k < v.nExtra → v.extraLb 50 k ≤ (v.eval row v.controlsDef 50).extra k ∧
      (v.eval row v.controlsDef 50).extra k ≤ v.extraUb 50 k) :
    ∃ (p : Problem ℝ) (ini : Initial ℝ) (nlp : Nlp ℝ) (lap : Lap ℝ),
      setUp (-10 ^ 9) (10 ^ 9) v (stayRequest n row) = .ok (p, ini, nlp) ∧ HypermeshCovers p ∧
      solveLap (-10 ^ 9) (10 ^ 9) v true stayOpt (stayRequest n row) = .ok lap ∧ lap.success = true ∧
      p.nPoints = 2 ∧ p.nElements = 1 ∧ ∃ q : Nat → Nat → ℝ,
        (∀ d : Nat → ℝ, LapData p lap d (fun i => if i = 0 then 0 else 50) q fun _ => d) ∧
        ∀ i j, i < 2 → j < v.nInputs → j ≠ v.iTime → q i j = row j := by
  simpa only [ite_self] using go_lap (row := row) (row' := row) hv hcf hdef hl hr hnd hlat hin
    (fun k hk => ⟨(ht 50 k hk).2, by rw [(ht 0 k hk).1, (ht 50 k hk).1, add_zero]⟩) (ha 50) hx

/-- A straight flat track of 100 m, 10 m wide. -/
def straightTrack : Circuit := ⟨fun _ => F1.exStraight, 100, fun _ => 5, fun _ => 5, false⟩

/-- `calmCar` on the straight track. -/
noncomputable def calmLap : Transcription.Vehicle ℝ :=
  f1Vehicle (fun _ => F1.calmCar) (6 / 10) 0 (fun _ => ⟨0, 0, 0⟩) true straightTrack

theorem calm_defaults : calmLap.controlsDef = [0, 0, 0, 6 / 10] := by
  simp [calmLap, f1Vehicle, F1.nControls, F1.controlLimits, F1.controlLimitWrites, F1.written, F1.cSteering, F1.cBoost,
    F1.cThrottle, F1.cBrakeBias, List.range_succ]

theorem calm_array : arrayOf calmLap.controlsDef = F1.straightControls := by
  funext k
  rw [calm_defaults]
  match k with
  | 0 | 1 | 2 | 3 => simp [arrayOf, F1.straightControls]
  | k + 4 => simp [arrayOf, F1.straightControls]

theorem calm_members : F1.setState F1.calmCar F1.straightInputs F1.straightControls = F1.calmMembers := by
  simp [F1.setState, F1.calmMembers, F1.straightInputs, F1.straightControls, F1.frontStart, F1.rearStart, F1.chassisStart,
    F1.loadStart, F1.roadStart, F1.cSteering, F1.cBoost, F1.cThrottle, F1.cBrakeBias, F1.calmCar, F1.exCar]
  norm_num

theorem calm_evals : calmLap.eval = f1Eval (fun _ => F1.calmCar) 0 straightTrack := rfl

theorem calm_eval (s : ℝ) : (calmLap.eval F1.straightInputs calmLap.controlsDef s).states = F1.calmEqs.states ∧
    (calmLap.eval F1.straightInputs calmLap.controlsDef s).dstates = F1.calmEqs.dstates := by
  rw [calm_evals]
  simp only [f1Eval, calm_array, F1.calmEqs, F1.equationsCurvilinear, straightTrack]
  exact ⟨trivial, trivial⟩

theorem calm_extra (k : Nat) (hk : k < calmLap.nExtra) :
    calmLap.extraLb 50 k ≤ (calmLap.eval F1.straightInputs calmLap.controlsDef 50).extra k ∧
      (calmLap.eval F1.straightInputs calmLap.controlsDef 50).extra k ≤ calmLap.extraUb 50 k := by
  have hk6 : k < 6 := hk
  have hr : F1.roadCurvilinear F1.exStraight F1.calmMembers = ⟨⟨0, 0, 0, 0⟩, (0, 0, 0), 0, 1 / 60, (1, 0, 0)⟩ := by
    simp [F1.roadCurvilinear, Road.update, curvature, F1.exStraight, F1.calmMembers, omegaBody, rotZ, eulerAnglesDot]
  obtain ⟨⟨k1, k2, k3, k4⟩, -⟩ := F1.calm_out (F1.roadCurvilinear F1.exStraight F1.calmMembers) (by rw [hr])
    (by rw [hr]) (by rw [hr])
  have e : (calmLap.eval F1.straightInputs calmLap.controlsDef 50).extra k = ([0, 0, 0, 0, 8 / 10, -(8 / 10)] : List ℝ).getD k 0 := by
    rw [calm_evals]
    simp only [f1Eval, calm_array, calm_members, straightTrack, F1.extraConstraints, k1, k2, k3, k4]
    congr 1
    norm_num [F1.calmMembers, F1.calmCar, F1.exCar, F1.exAxle]
  have hpos : 0 ≤ max (Tyre.maxLambda F1.exTyre 0) (Tyre.maxLambda F1.exTyre (600 * 10)) :=
    le_max_of_le_left (by norm_num [Tyre.maxLambda, Tyre.atLoad, F1.exTyre])
  have eb : calmLap.extraUb 50 k = ([max (Tyre.maxLambda F1.exTyre 0) (Tyre.maxLambda F1.exTyre (600 * 10)),
      max (Tyre.maxLambda F1.exTyre 0) (Tyre.maxLambda F1.exTyre (600 * 10)),
      max (Tyre.maxLambda F1.exTyre 0) (Tyre.maxLambda F1.exTyre (600 * 10)),
      max (Tyre.maxLambda F1.exTyre 0) (Tyre.maxLambda F1.exTyre (600 * 10)), 5, 5] : List ℝ).getD k 0 := rfl
  have el : calmLap.extraLb 50 k = ([-max (Tyre.maxLambda F1.exTyre 0) (Tyre.maxLambda F1.exTyre (600 * 10)),
      -max (Tyre.maxLambda F1.exTyre 0) (Tyre.maxLambda F1.exTyre (600 * 10)),
      -max (Tyre.maxLambda F1.exTyre 0) (Tyre.maxLambda F1.exTyre (600 * 10)),
      -max (Tyre.maxLambda F1.exTyre 0) (Tyre.maxLambda F1.exTyre (600 * 10)), -5, -5] : List ℝ).getD k 0 := rfl
  generalize max (Tyre.maxLambda F1.exTyre 0) (Tyre.maxLambda F1.exTyre (600 * 10)) = M at eb el hpos
  rw [e, eb, el]
  interval_cases k <;> norm_num <;> linarith

/-- A lap of `calmCar`. -/
theorem calm_lap : ∃ (p : Problem ℝ) (ini : Initial ℝ) (nlp : Nlp ℝ) (lap : Lap ℝ) (q : Nat → Nat → ℝ),
    setUp (-10 ^ 9) (10 ^ 9) calmLap (stayRequest 4 F1.straightInputs) = .ok (p, ini, nlp) ∧ HypermeshCovers p ∧
    solveLap (-10 ^ 9) (10 ^ 9) calmLap true stayOpt (stayRequest 4 F1.straightInputs) = .ok lap ∧ lap.success = true ∧
    p.nPoints = 2 ∧ p.nElements = 1 ∧ Optimised p 1 ∧
    LapData p lap (fun k => (F1.controlLimits (6 / 10) (fun _ => ⟨0, 0, 0⟩) k).default) (fun i => if i = 0 then 0 else 50)
      q (fun _ => F1.straightControls) ∧
    (∀ i, i < p.nPoints → f1Pace F1.exStraight (q i) ≠ 0) ∧
    ∀ i j, i < 2 → j < 14 → j ≠ 11 → q i j = F1.straightInputs j := by
  have hids : idsOf (F1.classify false) = ([0, 1, 2, 3, 4, 5, 6, 12, 13], [7, 8, 9, 10]) := by decide
  have hti : calmLap.timeIds = [0, 1, 2, 3, 4, 5, 6, 12, 13] := congrArg Prod.fst hids
  have hai : calmLap.algIds = [7, 8, 9, 10] := congrArg Prod.snd hids
  have hd (k : Nat) (hk : k ≠ 11) (s : ℝ) :
      (calmLap.eval F1.straightInputs calmLap.controlsDef s).dstates k = 0 := by
    rw [(calm_eval s).2, F1.calm_dstates, if_neg hk]
  obtain ⟨p, ini, nlp, lap, h1, h2, h3, h4, h5, h6, q, h7, h8⟩ := stay_lap (v := calmLap) (n := 4) (row := F1.straightInputs)
    (f1_wf _ _ _ _ _ _) (f1_clockFree _ _ _ _ _ _) rfl (by norm_num [calmLap, f1Vehicle, straightTrack]) rfl
    (by decide) (by norm_num [calmLap, f1Vehicle, straightTrack, F1.straightInputs, F1.roadStart, F1.loadStart, F1.chassisStart, F1.rearStart,
      F1.frontStart])
    (fun j => by simp only [F1.straightInputs]; split_ifs <;> norm_num)
    (fun s k hk => ⟨hd k (by rintro rfl; rw [hti] at hk; simp at hk) s, by rw [(calm_eval s).1, (calm_eval 0).1]⟩)
    (fun s k hk => hd k (by rintro rfl; rw [hai] at hk; simp at hk) s) calm_extra
  have hpace : ∀ i, i < p.nPoints → f1Pace F1.exStraight (q i) ≠ 0 := by
    intro i hi
    have hi2 : i < 2 := h5 ▸ hi
    have g (j : Nat) (hj : j < 14) (hj' : j ≠ 11) := h8 i j hi2 hj hj'
    simp only [f1Pace, pace, g 4 (by norm_num) (by norm_num), g 5 (by norm_num) (by norm_num), g 12 (by norm_num) (by norm_num),
      g 13 (by norm_num) (by norm_num)]
    norm_num [F1.straightInputs, F1.exStraight]
  have hu : (fun k => (F1.controlLimits (6 / 10) (fun _ => ⟨0, 0, 0⟩) k).default) = F1.straightControls := by
    funext k
    match k with
    | 0 | 1 | 2 | 3 => simp [F1.straightControls, F1.controlLimits, F1.controlLimitWrites, F1.written, F1.cSteering,
        F1.cBoost, F1.cThrottle, F1.cBrakeBias]
    | k + 4 => simp [F1.straightControls, F1.controlLimits, F1.controlLimitWrites, F1.written, F1.cSteering,
        F1.cBoost, F1.cThrottle, F1.cBrakeBias]
  exact ⟨p, ini, nlp, lap, q, h1, h2, h3, h4, h5, h6, ⟨by unfold firstNode; split <;> omega, by omega⟩,
    by rw [hu]; exact h7 _, hpace, h8⟩

/-- C193 and C194 on a lap of the F1 car. -/
example : ∃ (p : Problem ℝ) (ini : Initial ℝ) (nlp : Nlp ℝ) (lap : Lap ℝ) (q : Nat → Nat → ℝ),
    setUp (-10 ^ 9) (10 ^ 9) calmLap (stayRequest 4 F1.straightInputs) = .ok (p, ini, nlp) ∧
    solveLap (-10 ^ 9) (10 ^ 9) calmLap true stayOpt (stayRequest 4 F1.straightInputs) = .ok lap ∧ lap.success = true ∧
    q 1 4 = 60 ∧
    F1Element p.opts.sigma 50 0 F1.calmCar F1.exStraight (q 0) F1.straightControls F1.calmCar F1.exStraight (q 1)
      F1.straightControls ∧
    F1Node 0 F1.calmCar F1.exStraight 5 5 (q 1) F1.straightControls := by
  obtain ⟨p, ini, nlp, lap, q, h1, h2, h3, h4, h5, h6, h7, hd, hpace, h8⟩ := calm_lap
  obtain ⟨r1, r2⟩ := C194_f1_lap (fun _ => F1.calmCar) (6 / 10) 0 (fun _ => ⟨0, 0, 0⟩) true straightTrack rfl
    (fun _ => ⟨rfl, rfl, rfl, rfl⟩) (fun _ => by norm_num [F1.calmCar, F1.exCar]) (fun _ => by norm_num [F1.calmCar, F1.exCar])
    (-10 ^ 9) (10 ^ 9) (stayRequest 4 F1.straightInputs) rfl p ini nlp h1 h2 stayOpt stayOpt_sizes 0 0 stayOpt_reliable true
    lap h3 h4 _ q (fun _ => F1.straightControls) hd hpace
  have hr1 : rightNode p 0 = 1 := by rw [rightNode, if_pos (by omega)]
  have hL : lengthOf p straightTrack.length (fun i => if i = 0 then 0 else 50) 0 = 50 := by
    rw [lengthOf, if_pos (by omega)]; norm_num
  have r1' := r1 0 (by omega)
  rw [hr1, hL] at r1'
  have r2' := r2 1 ⟨by unfold firstNode; split <;> omega, by omega⟩
  refine ⟨p, ini, nlp, lap, q, h1, h3, h4, ?_, r1', r2'.1⟩
  rw [h8 1 4 (by norm_num) (by decide) (by decide)]
  simp [F1.straightInputs]

/-- A kart without drag that rolls straight at 10 m/s. -/
noncomputable def rollKart : Kart.Vehicle :=
  { Kart.straightKart with aero := ⟨0, 0, 0, 1, 0, 0⟩, xFront := (4 / 10, 0, 161 / 1000) }

/-- Its inputs: the rear axle turns at the speed of the road; the kart is 2 cm down. -/
noncomputable def rollInputs : Nat → ℝ := fun k => if k = 0 then 10 / (139 / 1000) else if k = 1 then 10 else
  if k = 4 then 2 / 100 else 0

theorem roll_members (u : Nat → ℝ) (hu : u 0 = 0 ∧ u 1 = 0) : Kart.setState rollInputs u =
    ⟨10 / (139 / 1000), 10, 0, 0, 2 / 100, 0, 0, 0, 0, 0, 0, 0, 0, 0, 0⟩ := by
  simp [Kart.setState, rollInputs, hu.1, hu.2, Kart.iAxle, Kart.iChassis, Kart.iBody, Kart.iRoad, Kart.cSteering,
    Kart.cTorque]

/-- The members of the kart that rolls. -/
noncomputable def rollMembers : Kart.Members := ⟨10 / (139 / 1000), 10, 0, 0, 2 / 100, 0, 0, 0, 0, 0, 0, 0, 0, 0, 0⟩

theorem roll_axle (a : Kart.AxleK) (hs : a.susp.R0 = 139 / 1000) (hk : a.susp.kTire = 100000)
    (hkc : a.susp.kChassis = 100000) (hka : a.susp.kAntiroll = 0) (x om : ℝ) :
    Kart.axleUpdate rollKart rollMembers a (x, 0, 161 / 1000) 0 om =
    let l := Kart.wheelUpdate a (x, 0, -(119 / 1000)) 0 (-(1 / 2) * a.susp.track) (-(1 / 100)) 0 0 (10, 0, 0) 0 om
    let r := Kart.wheelUpdate a (x, 0, -(119 / 1000)) 0 (1 / 2 * a.susp.track) (-(1 / 100)) 0 0 (10, 0, 0) 0 om
    ⟨l, r, axleForces l.wheel r.wheel, (x, 0, -(119 / 1000))⟩ := by
  have hp : Kart.comPosition rollKart rollMembers + Kart.axlePosition (x, 0, 161 / 1000) rollMembers
      = (x, 0, -(119 / 1000)) := by
    norm_num [Kart.comPosition, Kart.axlePosition, rollKart, Kart.straightKart, Kart.exKart, rollMembers]
  have hv : (0, 0, rollMembers.dz) + Kart.axleVelocity (x, 0, 161 / 1000) rollMembers = 0 := by
    simp [Kart.axleVelocity, rollMembers]
  have hh : Power.tyreHeight a.susp (-(119 / 1000)) rollMembers.phi 0 = (-(1 / 100), -(1 / 100)) := by
    simp only [rollMembers, Power.tyreHeight, Power.chassisDeformation, Power.tyreDeformation, Power.displSym,
      Power.displAsym, Power.symK, Power.asymK, hs, hk, hkc, hka]
    norm_num
  have hd : Power.tyreVelocity a.susp 0 rollMembers.dphi = (0, 0) := by
    simp [rollMembers, Power.tyreVelocity, Power.chassisDeformation, Power.tyreDeformation, Power.displRates]
  have hu : (rollMembers.u, rollMembers.v, (0 : ℝ)) = (10, 0, 0) := rfl
  have ho : ((0 : ℝ), (0 : ℝ), rollMembers.omega) = 0 := rfl
  simp only [Kart.axleUpdate, hp, hv, hh, Prod.snd_zero, hd, hu, ho]

/-- Nothing acts on the kart that rolls. -/
theorem roll_out {solve : Vec3 × Vec3 × Vec3 → Vec3 → Vec3} (hs : Kart.Solver solve) (heading : ℝ) :
    Kart.dvdt rollKart rollMembers heading = 0 ∧ Kart.angularAcceleration solve rollKart rollMembers heading = 0 ∧
    Kart.axleAcceleration rollKart rollMembers = 0 ∧
    Kart.extraConstraints rollKart rollMembers = [0, 0, 0, 0, 0, 0] := by
  have hrear : Kart.rearAxle rollKart rollMembers = _ :=
    roll_axle rollKart.rear rfl rfl rfl rfl (-(4 / 10)) rollMembers.omegaAxle
  have hfront : Kart.frontAxle rollKart rollMembers = _ := roll_axle rollKart.front rfl rfl rfl rfl (4 / 10) 0
  have wr := fun y => Kart.straight_wheel rollKart.rear rfl rfl rfl (-(4 / 10)) y rollMembers.omegaAxle
  have wf := fun y => Kart.straight_wheel rollKart.front rfl rfl rfl (4 / 10) y 0
  have kr : ∀ y, (Kart.wheelUpdate rollKart.rear (-(4 / 10), 0, -(119 / 1000)) 0 y (-(1 / 100)) 0 0 (10, 0, 0) 0
      rollMembers.omegaAxle).kin.kappa = 0 := fun y => by
    rw [(wr y).2.2.2.2.2.1]
    norm_num [rollKart, Kart.straightKart, Kart.exKart, rollMembers]
  have kf : ∀ y, (Kart.wheelUpdate rollKart.front (4 / 10, 0, -(119 / 1000)) 0 y (-(1 / 100)) 0 0
      (10, 0, 0) 0 0).kin.kappa = 0 := fun y => by
    rw [(wf y).2.2.2.2.2.1]
    norm_num [rollKart, Kart.straightKart, Kart.exKart]
  have fr : ∀ y, (Kart.wheelUpdate rollKart.rear (-(4 / 10), 0, -(119 / 1000)) 0 y (-(1 / 100)) 0 0 (10, 0, 0) 0
      rollMembers.omegaAxle).Fx = 0 := fun y => by
    rw [(wr y).2.2.2.2.1, kr, Tyre.stdX, Tyre.stdPureX, Tyre.magic_zero]
    simp
  have ff : ∀ y, (Kart.wheelUpdate rollKart.front (4 / 10, 0, -(119 / 1000)) 0 y (-(1 / 100)) 0 0
      (10, 0, 0) 0 0).Fx = 0 := fun y => by
    rw [(wf y).2.2.2.2.1, kf, Tyre.stdX, Tyre.stdPureX, Tyre.magic_zero]
    simp
  have hair : Kart.aeroForce rollKart rollMembers heading = 0 := by
    apply vec_ext <;> simp [Kart.aeroForce, aeroForces, rollKart]
  have hforce : Kart.totalForce rollKart rollMembers heading = 0 := by
    simp only [Kart.totalForce, hair, hrear, hfront, axleForces, (wr _).2.2.2.2.2.2.2, (wf _).2.2.2.2.2.2.2, fr, ff, Kart.rotZ_zero]
    apply vec_ext <;> norm_num [rollKart, Kart.straightKart, Kart.exKart]
  have htorque : Kart.totalTorque rollKart rollMembers heading = 0 := by
    simp only [Kart.totalTorque, hair, hrear, hfront, axleForces, (wr _).2.2.2.2.2.2.2, (wf _).2.2.2.2.2.2.2, fr, ff,
      Kart.rotZ_zero]
    apply vec_ext <;> norm_num [rollKart, Kart.straightKart, Kart.exKart, cross]
  have hdv : Kart.dvdt rollKart rollMembers heading = 0 := by
    rw [Kart.dvdt, hforce]
    have : Kart.newtonLhs rollMembers = 0 := by simp [Kart.newtonLhs, cross, rollMembers]
    rw [this]; simp
  refine ⟨hdv, ?_, ?_, ?_⟩
  · have hlhs : Kart.eulerLhs rollKart rollMembers 0 0 = 0 := by
      norm_num [Kart.eulerLhs, rollKart, Kart.straightKart, Kart.exKart, rollMembers]
    have hdet : Kart.det (Kart.eulerM rollKart rollMembers) ≠ 0 := by
      rw [Kart.det_eulerM]; norm_num [rollKart, Kart.straightKart]
    have h0 : mulVec (Kart.eulerM rollKart rollMembers) (solve (Kart.eulerM rollKart rollMembers) 0)
        = mulVec (Kart.eulerM rollKart rollMembers) 0 := by
      rw [hs _ _ hdet]; apply vec_ext <;> simp [mulVec, dot]
    simp only [Kart.angularAcceleration, hdv, Prod.fst_zero, Prod.snd_zero, hlhs, htorque, neg_zero, add_zero]
    exact Kart.mulVec_inj hdet h0
  · simp only [Kart.axleAcceleration, hrear, fr, Tyre.wheelTorque]
    simp [Power.kartTorque, rollMembers, rollKart, Kart.straightKart, Kart.exKart]
  · simp only [Kart.extraConstraints, hrear, hfront, kr, (wr _).2.1, (wf _).2.1]

/-- `rollKart` on the straight track. -/
noncomputable def rollLap (solve : Vec3 × Vec3 × Vec3 → Vec3 → Vec3) : Transcription.Vehicle ℝ :=
  kartVehicle solve (fun _ => rollKart) true (fun _ => ⟨0, 0, 0⟩) true straightTrack

theorem roll_limits : (fun k => (Kart.controlLimits (fun _ => ⟨0, 0, 0⟩) k).default) = fun _ => (0 : ℝ) := by
  funext k
  match k with
  | 0 | 1 => simp [Kart.controlLimits, F1.written, Kart.cSteering, Kart.cTorque]
  | k + 2 => simp [Kart.controlLimits, F1.written, Kart.cSteering, Kart.cTorque]

theorem roll_defaults (solve : Vec3 × Vec3 × Vec3 → Vec3 → Vec3) : (rollLap solve).controlsDef = [0, 0] := by
  simp only [rollLap, kartVehicle, roll_limits]
  rfl

theorem roll_eval {solve : Vec3 × Vec3 × Vec3 → Vec3 → Vec3} (hs : Kart.Solver solve) (s : ℝ) :
    (rollLap solve).eval rollInputs (rollLap solve).controlsDef s = ⟨fun k => rollInputs k,
      fun k => if k = 10 then 1 / 10 else 0, fun _ => 0, fun _ => 0⟩ := by
  have e : (rollLap solve).eval = kartEval solve (fun _ => rollKart) straightTrack := rfl
  have hm : Kart.setState rollInputs (arrayOf (rollLap solve).controlsDef) = rollMembers := by
    rw [roll_defaults]; exact roll_members _ ⟨rfl, rfl⟩
  have hr : Kart.roadCurvilinear F1.exStraight rollMembers = ⟨0, 1 / 10, (1, 0, 0)⟩ := by
    simp [Kart.roadCurvilinear, Road.update, curvature, F1.exStraight, rollMembers]
  obtain ⟨r1, r2, r3, r4⟩ := roll_out hs 0
  rw [e]
  simp only [kartEval, hm, straightTrack, hr, r4, Kart.evaluate, Kart.allStates, r1, r2, r3]
  congr 1
  · funext k
    match k with
    | 0 | 1 | 2 | 3 | 4 | 5 | 6 | 7 | 8 | 9 | 10 | 11 | 12 => simp [rollMembers, rollInputs]
    | k + 13 => simp [rollInputs]
  · funext k
    match k with
    | 0 | 1 | 2 | 3 | 4 | 5 | 6 | 7 | 8 | 9 | 10 | 11 | 12 => simp [rollMembers]
    | k + 13 => simp
  · funext k
    match k with
    | 0 | 1 | 2 | 3 | 4 | 5 => rfl
    | k + 6 => rfl

theorem roll_ids (solve : Vec3 × Vec3 × Vec3 → Vec3 → Vec3) :
    (rollLap solve).timeIds = [0, 1, 2, 3, 4, 5, 6, 7, 8, 9, 11, 12] ∧ (rollLap solve).algIds = [] := by
  show (idsOf (F1.classifyBase Kart.nInputs Kart.iRoad)).1 = _ ∧ (idsOf (F1.classifyBase Kart.nInputs Kart.iRoad)).2 = _
  decide

theorem roll_constant {solve : Vec3 × Vec3 × Vec3 → Vec3 → Vec3} (hs : Kart.Solver solve) (s : ℝ) :
    ∀ k ∈ (rollLap solve).timeIds, ((rollLap solve).eval rollInputs (rollLap solve).controlsDef s).dstates k = 0 ∧
      ((rollLap solve).eval rollInputs (rollLap solve).controlsDef s).states k
        = ((rollLap solve).eval rollInputs (rollLap solve).controlsDef 0).states k := by
  intro k hk
  rw [roll_eval hs, roll_eval hs]
  refine ⟨if_neg ?_, rfl⟩
  rintro rfl
  rw [(roll_ids solve).1] at hk
  simp at hk

theorem roll_extra {solve : Vec3 × Vec3 × Vec3 → Vec3 → Vec3} (hs : Kart.Solver solve) (k : Nat)
    (hk : k < (rollLap solve).nExtra) :
    (rollLap solve).extraLb 50 k ≤ ((rollLap solve).eval rollInputs (rollLap solve).controlsDef 50).extra k ∧
      ((rollLap solve).eval rollInputs (rollLap solve).controlsDef 50).extra k ≤ (rollLap solve).extraUb 50 k := by
  have hk6 : k < 6 := hk
  rw [roll_eval hs]
  have e1 : (rollLap solve).extraLb 50 k = Kart.extraBounds.1.getD k 0 ∧
      (rollLap solve).extraUb 50 k = Kart.extraBounds.2.getD k 0 := ⟨rfl, rfl⟩
  rw [e1.1, e1.2]
  interval_cases k <;> norm_num [Kart.extraBounds]

/-- C193 and C195 on a lap of the kart. -/
example {solve : Vec3 × Vec3 × Vec3 → Vec3 → Vec3} (hs : Kart.Solver solve) :
    ∃ (p : Problem ℝ) (ini : Initial ℝ) (nlp : Nlp ℝ) (lap : Lap ℝ) (q : Nat → Nat → ℝ),
    setUp (-10 ^ 9) (10 ^ 9) (kartVehicle solve (fun _ => rollKart) true (fun _ => ⟨0, 0, 0⟩) true straightTrack)
      (stayRequest 2 rollInputs) = .ok (p, ini, nlp) ∧
    solveLap (-10 ^ 9) (10 ^ 9) (kartVehicle solve (fun _ => rollKart) true (fun _ => ⟨0, 0, 0⟩) true straightTrack)
      true stayOpt (stayRequest 2 rollInputs) = .ok lap ∧ lap.success = true ∧ q 1 1 = 10 ∧
    KartElement solve p.opts.sigma 50 0 rollKart F1.exStraight (q 0) (fun _ => 0) rollKart F1.exStraight (q 1)
      (fun _ => 0) ∧
    KartNode 0 rollKart (q 1) (fun _ => 0) := by
  obtain ⟨p, ini, nlp, lap, h1, h2, h3, h4, h5, h6, q, h7, h8⟩ := stay_lap (v := rollLap solve) (n := 2) (row := rollInputs)
    (kart_wf _ _ _ _ _ _) (kart_clockFree _ _ _ _ _ _) (by rw [roll_defaults]; rfl)
    (by norm_num [rollLap, kartVehicle, straightTrack]) rfl List.nodup_nil
    (by norm_num [rollLap, kartVehicle, straightTrack, rollInputs, Kart.iRoad, Kart.iBody, Kart.iChassis, Kart.iAxle])
    (fun j => by simp only [rollInputs]; split_ifs <;> norm_num) (roll_constant hs)
    (fun s k hk => by rw [(roll_ids solve).2] at hk; simp at hk) (roll_extra hs)
  have hn : (rollLap solve).nInputs = 13 ∧ (rollLap solve).iTime = 10 := ⟨rfl, rfl⟩
  rw [hn.1, hn.2] at h8
  have hpace : ∀ i, i < p.nPoints → kartPace F1.exStraight (q i) ≠ 0 := by
    intro i hi
    have hi2 : i < 2 := h5 ▸ hi
    have g (j : Nat) (hj : j < 13) (hj' : j ≠ 10) := h8 i j hi2 hj hj'
    simp only [kartPace, pace, g 1 (by norm_num) (by norm_num), g 2 (by norm_num) (by norm_num), g 11 (by norm_num) (by norm_num),
      g 12 (by norm_num) (by norm_num)]
    norm_num [rollInputs, F1.exStraight]
  obtain ⟨r1, r2⟩ := C195_kart_lap solve (fun _ => rollKart) true (fun _ => ⟨0, 0, 0⟩) true straightTrack
    (fun _ => ⟨rfl, rfl, rfl, rfl⟩)
    (-10 ^ 9) (10 ^ 9) (stayRequest 2 rollInputs) rfl p ini nlp h1 h2 stayOpt stayOpt_sizes 0 0 stayOpt_reliable true
    lap h3 h4 _ q (fun _ _ => 0) (by rw [roll_limits]; exact h7 _) hpace
  have hr1 : rightNode p 0 = 1 := by rw [rightNode, if_pos (by omega)]
  have hL : lengthOf p straightTrack.length (fun i => if i = 0 then 0 else 50) 0 = 50 := by
    rw [lengthOf, if_pos (by omega)]; norm_num
  have r1' := r1 0 (by omega)
  rw [hr1, hL] at r1'
  have r2' := r2 1 ⟨by unfold firstNode; split <;> omega, by omega⟩
  refine ⟨p, ini, nlp, lap, q, h1, h3, h4, ?_, r1', r2'.1⟩
  rw [h8 1 1 (by norm_num) (by decide) (by decide)]
  simp [rollInputs]

/-- `C193_f1_false` on a request with the brake bias given at both nodes. -/
example : setUp (-10 ^ 9) (10 ^ 9) calmLap { stayRequest 4 F1.straightInputs with
    isDirect := false
    controls := [createDontOptimize, createDontOptimize, createDontOptimize,
      createFullMeshD [6 / 10, 6 / 10] [0, 0] 1] } = .ub := by
  refine C193_f1_false _ _ _ _ _ _ _ _ _ rfl ?_ ?_ rfl _ rfl rfl
  · refine ⟨by simp [stayRequest, goRequest, goWithin], ?_, ?_, rfl, ?_, ?_, ?_, rfl⟩
    · intro h; simp [stayRequest, goRequest, goWithin] at h
    · intro _ a b ha hb
      simp [stayRequest, goRequest, goWithin] at ha hb; subst ha; subst hb
      norm_num [f1Vehicle, straightTrack]
    · intro c hc
      simp only [List.mem_cons, List.not_mem_nil, or_false] at hc
      rcases hc with rfl | rfl | rfl | rfl
      · exact .dontOptimize rfl rfl rfl rfl
      · exact .dontOptimize rfl rfl rfl rfl
      · exact .dontOptimize rfl rfl rfl rfl
      · exact .fullMesh rfl rfl (Or.inr rfl) (by norm_num [createFullMeshD])
    · intro c hc hk
      simp only [List.mem_cons, List.not_mem_nil, or_false] at hc
      rcases hc with rfl | rfl | rfl | rfl <;> try simp [createDontOptimize] at hk
      exact ⟨rfl, rfl⟩
    · intro q hq
      simp [stayRequest, goRequest, goWithin] at hq
  · intro p hp c hc hk
    rw [(prepare_ok hp).2.controls] at hc
    simp only [List.map_cons, List.map_nil, List.mem_cons, List.not_mem_nil, or_false] at hc
    rcases hc with rfl | rfl | rfl | rfl <;> simp [createDontOptimize, createFullMeshD, meaningful] at hk

end ex

end Verif.LapVehicles
