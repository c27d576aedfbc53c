import Verif.Props.LapVehicles

/-! Properties of the energies of a lap of the F1 car (C207). -/

set_option autoImplicit false

namespace Verif.LapVehicles

open Verif.Road Verif.Chassis Verif.Control Verif.Transcription

/-- The integral quantities of an evaluation. -/
theorem f1_spent (car : ℝ → F1.Car) (power : ℝ) (t : Circuit) (q u : Nat → ℝ) (s : ℝ)
    (hP : Power.MaxPower (car s).rear.torque) (k : Nat) (hk : k < 6) :
    (f1Eval car power t q ((List.range 4).map u) s).integrals k = (f1Spent (car s) (t.at_ s) q u).getD k 0 := by
  have e : Power.enginePower (car s).rear.torque.engine power ((car s).rear.torque.sp (u 2)) =
      (car s).rear.torque.sp (u 2) * ((car s).rear.torque.engine.maxPower * 1000) := by
    simp [Power.enginePower, hP.1, hP.2.1]
  have e1 : (F1.setState (car s) q (arrayOf ((List.range 4).map u))).throttle = u 2 := rfl
  have e2 : (F1.setState (car s) q (arrayOf ((List.range 4).map u))).boost = u 1 := rfl
  have e3 : F1.carUpdate (car s) (F1.setState (car s) q (arrayOf ((List.range 4).map u)))
      (F1.roadCurvilinear (t.at_ s) (F1.setState (car s) q (arrayOf ((List.range 4).map u)))) = f1Out (car s) (t.at_ s) q u :=
    f1Out_array (car s) (t.at_ s) q u
  have go : ∀ w : F1.WheelOut, -Tyre.dissipation w.kin w.Fx w.Fy * (1 / 10 ^ 6) = friction w / 10 ^ 6 := by
    intro w
    simp only [Tyre.dissipation, friction]
    ring
  simp only [f1Eval, e1, e3, e, F1.integrals, e2, go, f1Spent]
  interval_cases k <;> simp only [List.getD_cons_zero, List.getD_cons_succ]
  ring

/-- C207: the reported energies of engine and tyres and the boost time of a lap of the F1 car are the integrals of
their powers over the time of the lap (open laps, or `sigma` one half), whether the optimiser converged or not; if it
did, those with requested bounds are within them up to its tolerance on the constraints. -/
theorem C207_energies (car : ℝ → F1.Car) (bias0 power : ℝ) (junk : Nat → F1.Limits) (ready : Bool) (t : Circuit)
    (hP : ∀ x, Power.MaxPower (car x).rear.torque)
    (lowest max : ℝ) (r : Request ℝ) (h4 : r.controls.length = 4)
    (p : Problem ℝ) (ini : Initial ℝ) (nlp : Nlp ℝ)
    (hset : setUp lowest max (f1Vehicle car bias0 power junk ready t) r = .ok (p, ini, nlp))
    (hcov : HypermeshCovers p) (opt : Optimiser ℝ) (hopt : RightSizes opt) (tf : Bool) (lap : Lap ℝ)
    (hlap : solveLap lowest max (f1Vehicle car bias0 power junk ready t) tf opt r = .ok lap)
    (hσ : r.isClosed = false ∨ p.opts.sigma = 1 / 2) (s : Nat → ℝ) (q u : Nat → Nat → ℝ)
    (hdata : LapData p lap (fun k => (F1.controlLimits bias0 junk k).default) s q u) :
    lap.quantities.length = 6 ∧ ∀ k name, f1Quantities[k]? = some name → ∃ Q, lap.quantities[k]? = some Q ∧
      Q.value = alongLap p t.length s (fun i =>
        roadPace (t.at_ (s i)) (q i) * (f1Spent (car (s i)) (t.at_ (s i)) (q i) (u i)).getD k 0) ∧
      ∀ tolB tol, Reliable tolB tol opt → lap.success = true → ∀ before after lb ub,
        r.opts.integral = before ++ (name.toList, lb, ub) :: after → (∀ a ∈ after, a.1 ≠ name.toList) →
        lb - tol ≤ Q.value ∧ Q.value ≤ ub + tol := by
  have hv : (f1Vehicle car bias0 power junk ready t).WellFormed r.controls.length := h4 ▸ f1_wf car bias0 power junk ready t
  have hcf := f1_clockFree car bias0 power junk ready t
  obtain ⟨es, b, h⟩ := setUp_ready hv hset hcov
  have hsh := h.run.shape
  have hprep := h.run.prepared
  have hlen : lap.controls.length = 4 := by
    obtain ⟨st, row0, nd, h1, h2, h3, h4', h5, h6, h7, h8⟩ := h.lap hset hopt hlap
    have : lap.controls = st.controls := by rw [h6]; rfl
    rw [this, h3.fits.controls, (prepare_ok h.run.prepared).2.controls, List.length_map, h4]
  have hn := lap_nodes (v := f1Vehicle car bias0 power junk ready t) hdata 4 hlen rfl
  obtain ⟨node, t0, -, -, -, -, hev, -, -, hql, hq, -, -⟩ := C190_own_times lowest max _ r hv hcf p ini nlp hset hcov opt
    hopt tf lap hlap
  have hnd : (f1Vehicle car bias0 power junk ready t).integralNames.Nodup := by
    show (F1.integralNames.map String.toList).Nodup
    decide
  have hsame : ∀ i, i < p.nPoints → node i =
      ⟨s i, (f1Vehicle car bias0 power junk ready t).eval (q i) ((List.range 4).map (u i)) (s i)⟩ :=
    fun i hi => EvaluatedAt.unique (by rw [hlen]; rfl) (hev i hi) (hn i hi)
  have hval : ∀ k, k < 6 → codedIntegral (f1Vehicle car bias0 power junk ready t) p node k =
      alongLap p t.length s (fun i =>
        roadPace (t.at_ (s i)) (q i) * (f1Spent (car (s i)) (t.at_ (s i)) (q i) (u i)).getD k 0) := by
    intro k hk
    have hint : ∀ i, i < p.nPoints → integrand (f1Vehicle car bias0 power junk ready t) k (node i) =
        roadPace (t.at_ (s i)) (q i) * (f1Spent (car (s i)) (t.at_ (s i)) (q i) (u i)).getD k 0 := by
      intro i hi
      rw [hsame i hi]
      have e11 : (f1Eval car power t (q i) ((List.range 4).map (u i)) (s i)).dstates 11 = roadPace (t.at_ (s i)) (q i) :=
        f1_time car power t (q i) ((List.range 4).map (u i)) (s i)
      have ei := f1_spent car power t (q i) (u i) (s i) (hP _) k hk
      show (f1Eval car power t (q i) ((List.range 4).map (u i)) (s i)).dstates 11 *
        (f1Eval car power t (q i) ((List.range 4).map (u i)) (s i)).integrals k = _
      rw [e11, ei]
    unfold codedIntegral alongLap
    refine Finset.sum_congr rfl fun e he => ?_
    have he' : e < p.nElements := by simpa using he
    have hel := element_lt hsh he'
    have her := rightNode_lt hsh e
    have hL : elementLength (f1Vehicle car bias0 power junk ready t) p node e = lengthOf p t.length s e := by
      unfold elementLength lengthOf
      split
      · rename_i h1
        rw [hsame e hel, hsame (e + 1) h1]
      · rw [hsame e hel]; rfl
    rw [hL, hint e hel, hint _ her]
    congr 1
    split
    · rfl
    · rename_i hlast
      rcases hσ with hc | hc
      · exfalso
        have := hsh.elements
        have hpc : p.isClosed = false := (prepare_ok hprep).2.isClosed.trans hc
        rw [hpc] at this
        simp [firstNode] at this
        omega
      · rw [hc]; ring
  refine ⟨hql.trans ((prepare_ok hprep).2.nQuantities), fun k name hk => ?_⟩
  have hk6 : k < 6 := (List.getElem?_eq_some_iff.1 hk).1
  have hnm : (f1Vehicle car bias0 power junk ready t).integralNames[k]? = some name.toList := by
    show (F1.integralNames.map String.toList)[k]? = _
    rw [List.getElem?_map]
    exact congrArg (Option.map String.toList) hk
  obtain ⟨Q, q1, q2, q3, -⟩ := C66_integral_quantities lowest max _ r p hprep hnd k name.toList hnm
  refine ⟨_, hq k Q q1, hval k hk6, ?_⟩
  intro tolB tol hrel hsuc before after lb ub hint hafter
  have ho := C190_lap_obeys lowest max _ r hv hcf p ini nlp hset hcov opt hopt tolB tol hrel tf lap hlap hsuc _ hev
  obtain ⟨b1, b2⟩ := q3 before after lb ub hint hafter
  have hr : Q.restrict = true := q2.2 ⟨lb, ub, by rw [hint]; simp⟩
  have := ho.quantities k Q q1 hr
  rw [b1, b2] at this
  exact this

/-- `calmCar` with the smooth positive part of the code, `(x + √(x² + ε²)) / 2`, of width 0.2: its engine gives a tenth
of its power without throttle. -/
noncomputable def idleCar : F1.Car :=
  { F1.calmCar with rear := { F1.exAxle with torque := { F1.exAxle.torque with
      sp := fun x => (x + Real.sqrt (x ^ 2 + (2 / 10) ^ 2)) / 2 } } }

/-- C207 on a lap of `idleCar` that did not converge: 50 m at 60 m/s at a tenth of 500 kW. -/
example : ∃ (lap : Lap ℝ) (Q : Quantity ℝ),
    solveLap (-10 ^ 9) (10 ^ 9) (f1Vehicle (fun _ => idleCar) (6 / 10) 0 (fun _ => ⟨0, 0, 0⟩) true straightTrack) false
      stayOpt (stayRequest 4 F1.straightInputs) = .ok lap ∧
    lap.quantities[0]? = some Q ∧ Q.value = 50 / 1000 * (50 / 60) := by
  obtain ⟨p, ini, nlp, h1, h2, h3, h5, h6, ⟨lap, h7⟩, h8⟩ := stay_data (n := 4) (row := F1.straightInputs)
    (v := f1Vehicle (fun _ => idleCar) (6 / 10) 0 (fun _ => ⟨0, 0, 0⟩) true straightTrack)
    (f1_wf _ _ _ _ _ _) (by norm_num [f1Vehicle, straightTrack]) rfl
  obtain ⟨q, h9, h10⟩ := h8 false lap h7
  have hp : ∀ i, i < p.nPoints → roadPace F1.exStraight (q i) = 1 / 60 := by
    intro i hi
    have hi2 : i < 2 := h5 ▸ hi
    have g (j : Nat) (hj : j < 14) (hj' : j ≠ 11) := h10 i j hi2 hj hj'
    simp only [roadPace, curvature, g 4 (by norm_num) (by norm_num), g 5 (by norm_num) (by norm_num), g 12 (by norm_num) (by norm_num),
      g 13 (by norm_num) (by norm_num)]
    norm_num [F1.straightInputs, F1.exStraight]
  obtain ⟨-, r⟩ := C207_energies (fun _ => idleCar) (6 / 10) 0 (fun _ => ⟨0, 0, 0⟩) true straightTrack
    (fun _ => ⟨rfl, rfl, rfl, rfl⟩)
    (-10 ^ 9) (10 ^ 9) (stayRequest 4 F1.straightInputs) rfl p ini nlp h2 h3 stayOpt stayOpt_sizes false lap h7 (Or.inl rfl)
    _ q _ (h9 _)
  obtain ⟨Q, r1, r2, -⟩ := r 0 _ rfl
  refine ⟨lap, Q, h7, r1, ?_⟩
  have hr1 : rightNode p 0 = 1 := by rw [rightNode, if_pos (by omega)]
  have hL : lengthOf p straightTrack.length (fun i => if i = 0 then 0 else 50) 0 = 50 := by
    rw [lengthOf, if_pos (by omega)]; norm_num
  have hs : Real.sqrt ((0 : ℝ) ^ 2 + (2 / 10) ^ 2) = 2 / 10 := by
    rw [zero_pow (by norm_num), zero_add, Real.sqrt_sq (by norm_num)]
  have h0 : (F1.controlLimits (6 / 10) (fun _ => ⟨0, 0, 0⟩) 2).default = 0 := by
    simp [F1.controlLimits, F1.controlLimitWrites, F1.written, F1.cSteering, F1.cBoost, F1.cThrottle, F1.cBrakeBias]
  have e (i : Nat) : (f1Spent idleCar F1.exStraight (q i)
      (fun k => (F1.controlLimits (6 / 10) (fun _ => ⟨0, 0, 0⟩) k).default)).getD 0 0 = 50 / 1000 := by
    simp only [f1Spent, List.getD_cons_zero, h0, idleCar, hs]
    norm_num [F1.exAxle, F1.exEngine]
  rw [r2, alongLap, h6, Finset.sum_range_one, hL, hr1]
  simp only [show ∀ x, straightTrack.at_ x = F1.exStraight from fun _ => rfl, e, hp 0 (by omega), hp 1 (by omega)]
  ring

end Verif.LapVehicles
