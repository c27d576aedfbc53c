import Verif.Props.LapVehicles

/-! Properties of a lap of the F1 car on a track with elevation (C210, C211). -/

set_option autoImplicit false

namespace Verif.LapVehicles

open Verif.Road Verif.Chassis Verif.Control Verif.Transcription

theorem comMotion_def (c : F1.Car) (f : TrackPoint) (q u : Nat → ℝ) :
    newton c f q (arrayOf ((List.range 4).map u)) = newton c f q u ∧
    euler c f q (arrayOf ((List.range 4).map u)) = euler c f q u := by
  simp only [newton, euler, f1Out_array, and_self]

/-- C210: when the optimiser reports success, a lap of the F1 car on a track with elevation obeys Newton's and Euler's
laws in the axes of the car over every element, and at every optimised node the slip angles, the wheels and the car
are within their limits, up to the tolerances of the optimiser. -/
theorem C210_f1_lap_elevated (car : ℝ → F1.Car) (bias0 power : ℝ) (junk : Nat → F1.Limits) (ready : Bool) (t : Circuit)
    (helev : t.elevated = true) (hg : ∀ x, 0 < (car x).chassis.g0) (hm : ∀ x, 0 < (car x).chassis.mass)
    (lowest max : ℝ) (r : Request ℝ) (h4 : r.controls.length = 4)
    (p : Problem ℝ) (ini : Initial ℝ) (nlp : Nlp ℝ)
    (hset : setUp lowest max (f1Vehicle car bias0 power junk ready t) r = .ok (p, ini, nlp))
    (hcov : HypermeshCovers p) (opt : Optimiser ℝ) (hopt : RightSizes opt) (tolB tol : ℝ)
    (hrel : Reliable tolB tol opt) (tf : Bool) (lap : Lap ℝ)
    (hlap : solveLap lowest max (f1Vehicle car bias0 power junk ready t) tf opt r = .ok lap)
    (hsuc : lap.success = true) (s : Nat → ℝ) (q u : Nat → Nat → ℝ)
    (hdata : LapData p lap (fun k => (F1.controlLimits bias0 junk k).default) s q u)
    (hpace : ∀ i, i < p.nPoints → roadPace (t.at_ (s i)) (q i) ≠ 0) :
    (∀ e, e < p.nElements →
      F1Climb p.opts.sigma (lengthOf p t.length s e) tol (car (s e)) (t.at_ (s e)) (q e) (u e)
        (car (s (rightNode p e))) (t.at_ (s (rightNode p e))) (q (rightNode p e)) (u (rightNode p e))) ∧
    ∀ i, Optimised p i →
      F1Limits tol (car (s i)) (t.at_ (s i)) (t.left (s i)) (t.right (s i)) (q i) (u i) ∧
      -(t.left (s i)) - tolB ≤ q i 12 ∧ q i 12 ≤ t.right (s i) + tolB := by
  have hv : (f1Vehicle car bias0 power junk ready t).WellFormed r.controls.length := h4 ▸ f1_wf car bias0 power junk ready t
  obtain ⟨es, b, h⟩ := setUp_ready hv hset hcov
  have hsh := h.run.shape
  have hlen : lap.controls.length = 4 := by
    obtain ⟨st, row0, nd, h1, h2, h3, h4', h5, h6, h7, h8⟩ := h.lap hset hopt hlap
    have : lap.controls = st.controls := by rw [h6]; rfl
    rw [this, h3.fits.controls, (prepare_ok h.run.prepared).2.controls, List.length_map, h4]
  have hn := lap_nodes (v := f1Vehicle car bias0 power junk ready t) hdata 4 hlen rfl
  have ho := C190_lap_obeys lowest max _ r hv (f1_clockFree car bias0 power junk ready t) p ini nlp hset hcov opt hopt
    tolB tol hrel tf lap hlap hsuc _ hn
  have hids : idsOf (F1.classify t.elevated) = ([0, 1, 2, 3, 4, 5, 6, 7, 8, 9, 10, 12, 13], []) := by rw [helev]; decide
  have hti : (f1Vehicle car bias0 power junk ready t).timeIds = [0, 1, 2, 3, 4, 5, 6, 7, 8, 9, 10, 12, 13] :=
    congrArg Prod.fst hids
  refine ⟨fun e he => ?_, fun i hi => ?_⟩
  · have hel := element_lt hsh he
    have her := rightNode_lt hsh e
    have dyn := ho.dynamics e
    rw [hti] at dyn
    have L : elementLength (f1Vehicle car bias0 power junk ready t) p
      (fun i => ⟨s i, (f1Vehicle car bias0 power junk ready t).eval (q i) ((List.range 4).map (u i)) (s i)⟩) e
        = lengthOf p t.length s e := rfl
    rw [L] at dyn
    obtain ⟨a4, a5, a7, a8, a9, a6, a10, a12, a13⟩ := f1_any_rows car power t (q e) ((List.range 4).map (u e)) (s e)
      (hg _).ne' (hm _).ne' (hpace e hel)
    obtain ⟨b4, b5, b7, b8, b9, b6, b10, b12, b13⟩ := f1_any_rows car power t (q (rightNode p e))
      ((List.range 4).map (u (rightNode p e))) (s (rightNode p e)) (hg _).ne' (hm _).ne' (hpace _ her)
    simp only [(comMotion_def _ _ _ _).1, (comMotion_def _ _ _ _).2] at a4 a5 a6 a7 a8 a9 b4 b5 b6 b7 b8 b9
    have go (k : Nat) (hk : k ∈ [0, 1, 2, 3, 4, 5, 6, 7, 8, 9, 10, 12, 13]) {x x' y y' : ℝ}
        (h1 : (f1Eval car power t (q e) ((List.range 4).map (u e)) (s e)).states k = x ∧
          (f1Eval car power t (q e) ((List.range 4).map (u e)) (s e)).dstates k = y)
        (h2 : (f1Eval car power t (q (rightNode p e)) ((List.range 4).map (u (rightNode p e)))
            (s (rightNode p e))).states k = x' ∧
          (f1Eval car power t (q (rightNode p e)) ((List.range 4).map (u (rightNode p e)))
            (s (rightNode p e))).dstates k = y') :
        Changes p.opts.sigma (lengthOf p t.length s e) tol x x' y y' := by
      have := dyn k he hk
      rw [← h1.1, ← h1.2, ← h2.1, ← h2.2]
      exact this
    have gw (k : Kart.Corner) (hI) (hI') := go (cornerIndex k) (by cases k <;> simp [cornerIndex])
      (f1_wheel_rows car power t (q e) ((List.range 4).map (u e)) (s e) k _ (by rw [f1Out_array]) hI)
      (f1_wheel_rows car power t (q (rightNode p e)) ((List.range 4).map (u (rightNode p e))) (s (rightNode p e)) k _
        (by rw [f1Out_array]) hI')
    exact ⟨go 4 (by simp) a4 b4, go 5 (by simp) a5 b5, go 7 (by simp) a7 b7, go 8 (by simp) a8 b8, go 9 (by simp) a9 b9,
      go 6 (by simp) a6 b6, go 10 (by simp) a10 b10, go 12 (by simp) a12 b12, go 13 (by simp) a13 b13, gw⟩
  · obtain ⟨e, he, rfl⟩ := optimised_right hsh hi
    have her := rightNode_lt hsh e
    have := f1_limits car power t (q (rightNode p e)) ((List.range 4).map (u (rightNode p e))) (s (rightNode p e)) tol
      (fun k hk => ho.extra e k (s (rightNode p e)) he hk (hdata _ her).2.1)
    obtain ⟨n1, n2⟩ := this
    simp only [f1Out_array] at n1
    exact ⟨⟨n1, n2⟩, ho.lateral _ _ _ hi (hdata _ her).1 (hdata _ her).2.1⟩

/-! ## C211: sharing of the load transfer -/

/-- C211: on a converged lap of the F1 car the load transfer is shared between the axles as the roll balance says, up
to the tolerance, at every optimised node, when the track is flat. On a track with elevation it is so if `sigma` is 1,
up to the tolerance over the duration of the element. -/
theorem C211_shared_partial (car : ℝ → F1.Car) (bias0 power : ℝ) (junk : Nat → F1.Limits) (ready : Bool) (t : Circuit)
    (hg : ∀ x, 0 < (car x).chassis.g0) (hm : ∀ x, 0 < (car x).chassis.mass)
    (lowest max : ℝ) (r : Request ℝ) (h4 : r.controls.length = 4)
    (p : Problem ℝ) (ini : Initial ℝ) (nlp : Nlp ℝ)
    (hset : setUp lowest max (f1Vehicle car bias0 power junk ready t) r = .ok (p, ini, nlp))
    (hcov : HypermeshCovers p) (opt : Optimiser ℝ) (hopt : RightSizes opt) (tolB tol : ℝ)
    (hrel : Reliable tolB tol opt) (tf : Bool) (lap : Lap ℝ)
    (hlap : solveLap lowest max (f1Vehicle car bias0 power junk ready t) tf opt r = .ok lap)
    (hsuc : lap.success = true) (s : Nat → ℝ) (q u : Nat → Nat → ℝ)
    (hdata : LapData p lap (fun k => (F1.controlLimits bias0 junk k).default) s q u)
    (hpace : ∀ i, i < p.nPoints → roadPace (t.at_ (s i)) (q i) ≠ 0) :
    (t.elevated = false → (∀ x, F1.Flat (t.at_ x)) → ∀ i, Optimised p i → |excess (car (s i)) (q i)| ≤ tol) ∧
    (t.elevated = true → p.opts.sigma = 1 → ∀ e, e < p.nElements →
      |excess (car (s (rightNode p e))) (q (rightNode p e))| *
        |lengthOf p t.length s e * roadPace (t.at_ (s (rightNode p e))) (q (rightNode p e))| ≤ tol) := by
  refine ⟨fun hfl hf i hi => ?_, fun he hsig e hee => ?_⟩
  · exact ((C194_f1_lap car bias0 power junk ready t hfl hf hg hm lowest max r h4 p ini nlp hset hcov opt hopt tolB tol
      hrel tf lap hlap hsuc s q u hdata fun i hi => by rw [← roadPace_flat (hf _)]; exact hpace i hi).2 i hi).1.shared
  · have := ((C210_f1_lap_elevated car bias0 power junk ready t he hg hm lowest max r h4 p ini nlp hset hcov opt hopt
      tolB tol hrel tf lap hlap hsuc s q u hdata hpace).1 e hee).shared
    rw [hsig] at this
    unfold Changes at this
    rw [← abs_mul, ← abs_neg]
    refine le_of_eq_of_le (congrArg _ ?_) this
    ring

section ex

/-- C211 on a lap of `calmCar`. -/
example : ∃ (p : Problem ℝ) (lap : Lap ℝ) (q : Nat → Nat → ℝ),
    solveLap (-10 ^ 9) (10 ^ 9) calmLap true stayOpt (stayRequest 4 F1.straightInputs) = .ok lap ∧ Optimised p 1 ∧
    |excess F1.calmCar (q 1)| ≤ 0 := by
  obtain ⟨p, ini, nlp, lap, q, h1, h2, h3, h4, h5, h6, h7, hd, hpace, h8⟩ := calm_lap
  have hfl : ∀ x, F1.Flat (straightTrack.at_ x) := fun _ => ⟨rfl, rfl, rfl, rfl⟩
  exact ⟨p, lap, q, h3, h7, (C211_shared_partial (fun _ => F1.calmCar) (6 / 10) 0 (fun _ => ⟨0, 0, 0⟩) true straightTrack
    (fun _ => by norm_num [F1.calmCar, F1.exCar]) (fun _ => by norm_num [F1.calmCar, F1.exCar])
    (-10 ^ 9) (10 ^ 9) (stayRequest 4 F1.straightInputs) rfl p ini nlp h1 h2 stayOpt stayOpt_sizes 0 0 stayOpt_reliable true
    lap h3 h4 _ q _ hd fun i hi => by rw [roadPace_flat (hfl _)]; exact hpace i hi).1 rfl hfl 1 h7⟩

/-- `straightInputs` with the weight on the front right and rear left tyres more than on the others by `2 d` weights. -/
noncomputable def warpInputs (d : ℝ) : Nat → ℝ := fun k =>
  if k = 4 then 60 else if k = 7 ∨ k = 10 then -(1 / 4) - d else if k = 8 ∨ k = 9 then -(1 / 4) + d else 0

noncomputable def warpMembers (d : ℝ) : F1.Members :=
  ⟨0, 0, 0, 0, 0, 0, 60, 0, 0, 0, 6 / 10, -1500 - 6000 * d, -1500 + 6000 * d, -1500 + 6000 * d, -1500 - 6000 * d, 0, 0, 0⟩

theorem warp_members (d : ℝ) : F1.setState F1.calmCar (warpInputs d) F1.straightControls = warpMembers d := by
  simp [F1.setState, warpMembers, warpInputs, F1.straightControls, F1.frontStart, F1.rearStart, F1.chassisStart,
    F1.loadStart, F1.roadStart, F1.cSteering, F1.cBoost, F1.cThrottle, F1.cBrakeBias, F1.calmCar, F1.exCar]
  refine ⟨?_, ?_, ?_⟩ <;> ring

theorem warp_wheels (x : Vec3) (y N : ℝ) : F1.wheelUpdate F1.exAxle x y 0 (60, 0, 0) (0, 0, 0) N 0 =
    ⟨⟨false, 3 / 10, x.2.2 + 3 / 10, 60, 0, 200, 0, 0⟩, 0, 0, N, ⟨(0, 0, -N), (0, 0, 0), 0, (0, y, 0)⟩⟩ := by
  simp [F1.wheelUpdate, Tyre.updateKappa, Tyre.simpleX, Tyre.simpleY, Tyre.forceTorque, rotZ, cross, F1.exAxle]
  norm_num

/-- The car after the evaluation of `warpMembers` on a flat road. -/
theorem warp_out (d : ℝ) (hd : |d| ≤ 1 / 4) (r : F1.RoadOut) (ha : r.att = ⟨0, 0, 0, 0⟩) (hom : r.omega = (0, 0, 0))
    (hz : r.groundVz = 0) :
    let o := F1.carUpdate F1.calmCar (warpMembers d) r
    let kin : Tyre.Kin := ⟨false, 3 / 10, 0, 60, 0, 200, 0, 0⟩
    (o.front.left.kin = kin ∧ o.front.right.kin = kin ∧ o.rear.left.kin = kin ∧ o.rear.right.kin = kin) ∧
    (o.front.dL = 0 ∧ o.front.dR = 0 ∧ o.rear.dL = 0 ∧ o.rear.dR = 0) ∧
    o.input = ⟨60, 0, 0, 0, ⟨0, 0, 0, 0⟩, 0, 0, -1500 - 6000 * d, -1500 + 6000 * d, -1500 + 6000 * d,
      -1500 - 6000 * d⟩ ∧
    o.chassis.force = (0, 0, 0) ∧ o.chassis.torque = (0, 0, 0) := by
  intro o kin
  obtain ⟨d1, d2⟩ := abs_le.1 hd
  have hl1 : tyreLoad F1.calmCar.chassis (-1500 - 6000 * d) = 1500 + 6000 * d := by
    simp only [tyreLoad, negLoad, F1.calmCar, F1.exCar]
    rw [max_eq_left (by linarith)]; ring
  have hl2 : tyreLoad F1.calmCar.chassis (-1500 + 6000 * d) = 1500 - 6000 * d := by
    simp only [tyreLoad, negLoad, F1.calmCar, F1.exCar]
    rw [max_eq_left (by linarith)]; ring
  have tz (b ol or : ℝ) : Power.steeringTorques F1.exAxle.torque 0 b ol or = (0, 0) := by
    simp [Power.steeringTorques, Power.brakingTorque, Power.brakeTorque, F1.exAxle]
  have tp (b w : ℝ) : Power.poweredTorques F1.exAxle.torque 0 0 b w w = (0, 0) := by
    simp [Power.poweredTorques, Power.brakingTorque, Power.brakeTorque, Power.engineTorque, F1.exAxle, F1.exEngine]
  have fL : o.front.left = F1.wheelUpdate F1.exAxle (16 / 10, 0, -(3 / 10)) (-(1 / 2) * F1.exAxle.track) 0 (60, 0, 0)
      (0, 0, 0) (1500 + 6000 * d) 0 := by
    simp only [o, F1.carUpdate, F1.axleUpdate, hom, hz, warpMembers, hl1]; rfl
  have fR : o.front.right = F1.wheelUpdate F1.exAxle (16 / 10, 0, -(3 / 10)) (1 / 2 * F1.exAxle.track) 0 (60, 0, 0)
      (0, 0, 0) (1500 - 6000 * d) 0 := by
    simp only [o, F1.carUpdate, F1.axleUpdate, hom, hz, warpMembers, hl2]; rfl
  have rL : o.rear.left = F1.wheelUpdate F1.exAxle (-(16 / 10), 0, -(3 / 10)) (-(1 / 2) * F1.exAxle.track) 0 (60, 0, 0)
      (0, 0, 0) (1500 - 6000 * d) 0 := by
    simp only [o, F1.carUpdate, F1.axleUpdate, hom, hz, warpMembers, hl2]; rfl
  have rR : o.rear.right = F1.wheelUpdate F1.exAxle (-(16 / 10), 0, -(3 / 10)) (1 / 2 * F1.exAxle.track) 0 (60, 0, 0)
      (0, 0, 0) (1500 + 6000 * d) 0 := by
    simp only [o, F1.carUpdate, F1.axleUpdate, hom, hz, warpMembers, hl1]; rfl
  rw [warp_wheels] at fL fR rL rR
  have tf : (o.front.torqueL, o.front.torqueR) = (0, 0) :=
    tz (6 / 10) o.front.left.kin.omega o.front.right.kin.omega
  have tr : (o.rear.torqueL, o.rear.torqueR) = (0, 0) := by
    have := tp (1 - 6 / 10) 200
    have e : (o.rear.torqueL, o.rear.torqueR) =
        Power.poweredTorques F1.exAxle.torque 0 0 (1 - 6 / 10) o.rear.left.kin.omega o.rear.right.kin.omega := rfl
    rw [e, rL, rR, this]
  obtain ⟨tf1, tf2⟩ := Prod.mk.inj tf
  obtain ⟨tr1, tr2⟩ := Prod.mk.inj tr
  have hc : o.chassis = Chassis.update F1.calmCar.chassis o.input (axleForces o.front.left.wheel o.front.right.wheel)
      (axleForces o.rear.left.wheel o.rear.right.wheel) := rfl
  have hi : o.input = ⟨60, 0, 0, 0, ⟨0, 0, 0, 0⟩, 0, 0, -1500 - 6000 * d, -1500 + 6000 * d, -1500 + 6000 * d,
      -1500 - 6000 * d⟩ := by
    simp only [o, F1.carUpdate, hom, ha, hz, warpMembers]
  have d1 : o.front.dL = o.front.torqueL + Tyre.wheelTorque o.front.left.kin o.front.left.Fx := rfl
  have d2 : o.front.dR = o.front.torqueR + Tyre.wheelTorque o.front.right.kin o.front.right.Fx := rfl
  have d3 : o.rear.dL = o.rear.torqueL + Tyre.wheelTorque o.rear.left.kin o.rear.left.Fx := rfl
  have d4 : o.rear.dR = o.rear.torqueR + Tyre.wheelTorque o.rear.right.kin o.rear.right.Fx := rfl
  refine ⟨⟨?_, ?_, ?_, ?_⟩, ⟨?_, ?_, ?_, ?_⟩, hi, ?_, ?_⟩
  · rw [fL]; norm_num [kin]
  · rw [fR]; norm_num [kin]
  · rw [rL]; norm_num [kin]
  · rw [rR]; norm_num [kin]
  · simp [d1, tf1, fL, Tyre.wheelTorque]
  · simp [d2, tf2, fR, Tyre.wheelTorque]
  · simp [d3, tr1, rL, Tyre.wheelTorque]
  · simp [d4, tr2, rR, Tyre.wheelTorque]
  · rw [hc, hi, fL, fR, rL, rR]
    apply vec_ext <;>
      norm_num [Chassis.update, axleForces, rotZ, aeroForce, aeroForces, gravity, F1.calmCar, F1.exCar]
    ring
  · rw [hc, hi, fL, fR, rL, rR]
    apply vec_ext <;>
      norm_num [Chassis.update, totalTorque, axleForces, rotZ, cross, aeroForce, aeroForces, gravity, F1.calmCar,
        F1.exCar] <;> ring

/-- A track of 100 m with a slope after its first 60 m. -/
noncomputable def hillTrack : Circuit :=
  ⟨fun s => if s ≤ 60 then F1.exStraight else { F1.exStraight with pitch := 1 / 10 }, 100, fun _ => 5, fun _ => 5, true⟩

/-- `calmCar` on it. -/
noncomputable def hillLap : Transcription.Vehicle ℝ :=
  f1Vehicle (fun _ => F1.calmCar) (6 / 10) 0 (fun _ => ⟨0, 0, 0⟩) true hillTrack

theorem hill_eval (d s : ℝ) (hd : |d| ≤ 1 / 4) (hs : s ≤ 60) :
    (∀ k, (hillLap.eval (warpInputs d) hillLap.controlsDef s).dstates k =
      if k = 10 then 2 * d / 60 else if k = 11 then 1 / 60 else 0) ∧
    (∀ k, (hillLap.eval (warpInputs d) hillLap.controlsDef s).states k = F1.calmEqs.states k) ∧
    (∀ k, (hillLap.eval (warpInputs d) hillLap.controlsDef s).extra k =
      ([0, 0, 0, 0, 8 / 10, -(8 / 10)] : List ℝ).getD k 0) := by
  have hat : hillTrack.at_ s = F1.exStraight := if_pos hs
  have hev : hillLap.eval = f1Eval (fun _ => F1.calmCar) 0 hillTrack := rfl
  have harr : arrayOf hillLap.controlsDef = F1.straightControls := calm_array
  have hr : F1.roadCurvilinear F1.exStraight (warpMembers d) = ⟨⟨0, 0, 0, 0⟩, (0, 0, 0), 0, 1 / 60, (1, 0, 0)⟩ := by
    simp [F1.roadCurvilinear, Road.update, curvature, F1.exStraight, warpMembers, omegaBody, rotZ, eulerAnglesDot]
  have hr0 : F1.roadCurvilinear F1.exStraight F1.calmMembers = ⟨⟨0, 0, 0, 0⟩, (0, 0, 0), 0, 1 / 60, (1, 0, 0)⟩ := by
    simp [F1.roadCurvilinear, Road.update, curvature, F1.exStraight, F1.calmMembers, omegaBody, rotZ, eulerAnglesDot]
  obtain ⟨⟨k1, k2, k3, k4⟩, ⟨w1, w2, w3, w4⟩, hi, hF, hT⟩ := warp_out d hd
    (F1.roadCurvilinear F1.exStraight (warpMembers d)) (by rw [hr]) (by rw [hr]) (by rw [hr])
  obtain ⟨⟨j1, j2, j3, j4⟩, -, hj, -, -⟩ := F1.calm_out (F1.roadCurvilinear F1.exStraight F1.calmMembers) (by rw [hr0])
    (by rw [hr0]) (by rw [hr0])
  simp only [hev, f1Eval, harr, warp_members, hat, F1.evaluate]
  generalize ho : F1.carUpdate F1.calmCar (warpMembers d) (F1.roadCurvilinear F1.exStraight (warpMembers d)) = o at *
  have hu : o.chassis = Chassis.update F1.calmCar.chassis o.input o.front.forces o.rear.forces := by rw [← ho]; rfl
  have hv : o.chassis.comVelocityDot = (0, 0, 0) := by
    have : o.chassis.comVelocityDot = (o.chassis.force.1 / 600, o.chassis.force.2.1 / 600, o.chassis.force.2.2 / 600) := by
      rw [hu, hi]
      simp [Chassis.update, F1.calmCar, F1.exCar]
    rw [this, hF]
    simp
  have hroll : o.chassis.rollMomentumDot = 0 := by
    have : o.chassis.rollMomentumDot = o.chassis.torque.1 := by rw [hu, hi]; simp [Chassis.update]
    rw [this, hT]
  have hpitch : o.chassis.pitchMomentumDot = 0 := by
    have : o.chassis.pitchMomentumDot = o.chassis.torque.2.1 := by rw [hu, hi]; simp [Chassis.update]
    rw [this, hT]
  have hyaw : o.chassis.yawRateDot = 0 := by
    have : o.chassis.yawRateDot = o.chassis.torque.2.2 / 450 := by
      rw [hu, hi]; simp [Chassis.update, F1.calmCar, F1.exCar]
    rw [this, hT]
    simp
  have hbal : o.chassis.rollBalance = 12000 * d := by
    rw [hu, hi]; simp [Chassis.update, F1.calmCar, F1.exCar]; ring
  refine ⟨fun k => ?_, fun k => ?_, fun k => ?_⟩
  · by_cases hk : k < 14
    · interval_cases k <;>
        simp [F1.allStates, F1.axleState, Chassis.state, w1, w2, w3, w4, hv, hroll, hpitch, hyaw, hbal, hr, F1.calmCar,
          F1.exCar] <;> ring
    · rw [List.getD_eq_getElem?_getD, List.getElem?_eq_none (by
        simp [F1.allStates, F1.axleState, Chassis.state]; omega), if_neg (by omega), if_neg (by omega)]
      rfl
  · have : (F1.allStates F1.calmCar (warpMembers d) (F1.roadCurvilinear F1.exStraight (warpMembers d)) o).map Prod.fst =
        (F1.equationsCurvilinear F1.calmCar F1.exStraight F1.straightInputs F1.straightControls).states := by
      simp only [F1.equationsCurvilinear, calm_members, F1.evaluate]
      generalize ho' : F1.carUpdate F1.calmCar F1.calmMembers (F1.roadCurvilinear F1.exStraight F1.calmMembers) = o' at *
      have hu' : o'.chassis = Chassis.update F1.calmCar.chassis o'.input o'.front.forces o'.rear.forces := by
        rw [← ho']; rfl
      simp [F1.allStates, F1.axleState, Chassis.state, k1, k2, k3, k4, j1, j2, j3, j4, hu, hu', hi, hj, Chassis.update,
        warpMembers, F1.calmMembers]
    rw [this]
    rfl
  · simp only [F1.extraConstraints, k1, k2, k3, k4]
    congr 1
    norm_num [warpMembers, F1.calmCar, F1.exCar, F1.exAxle]

/-- A converged lap: the weight changes from one diagonal to the other. -/
theorem hill_lap : ∃ (p : Problem ℝ) (ini : Initial ℝ) (nlp : Nlp ℝ) (lap : Lap ℝ) (q : Nat → Nat → ℝ),
    setUp (-10 ^ 9) (10 ^ 9) hillLap (goRequest 4 (warpInputs (1 / 20)) (warpInputs (-(1 / 20)))) = .ok (p, ini, nlp) ∧
    HypermeshCovers p ∧
    solveLap (-10 ^ 9) (10 ^ 9) hillLap true stayOpt (goRequest 4 (warpInputs (1 / 20)) (warpInputs (-(1 / 20))))
      = .ok lap ∧ lap.success = true ∧ p.nPoints = 2 ∧ p.nElements = 1 ∧ Optimised p 1 ∧
    LapData p lap (fun k => (F1.controlLimits (6 / 10) (fun _ => ⟨0, 0, 0⟩) k).default) (fun i => if i = 0 then 0 else 50)
      q (fun _ => F1.straightControls) ∧
    ∀ i j, i < 2 → j < 14 → j ≠ 11 → q i j = if i = 0 then warpInputs (1 / 20) j else warpInputs (-(1 / 20)) j := by
  have hids : idsOf (F1.classify true) = ([0, 1, 2, 3, 4, 5, 6, 7, 8, 9, 10, 12, 13], []) := by decide
  have hti : hillLap.timeIds = [0, 1, 2, 3, 4, 5, 6, 7, 8, 9, 10, 12, 13] := congrArg Prod.fst hids
  have hai : hillLap.algIds = [] := congrArg Prod.snd hids
  have ha1 : |(1 / 20 : ℝ)| ≤ 1 / 4 := by rw [abs_of_pos] <;> norm_num
  have ha2 : |(-(1 / 20) : ℝ)| ≤ 1 / 4 := by rw [abs_neg]; exact ha1
  obtain ⟨p0, p1, -⟩ := hill_eval (1 / 20) 0 ha1 (by norm_num)
  obtain ⟨r0, r1, r2⟩ := hill_eval (-(1 / 20)) 50 ha2 (by norm_num)
  obtain ⟨p, ini, nlp, lap, h1, h2, h3, h4, h5, h6, q, h7, h8⟩ := go_lap (v := hillLap) (n := 4) (lb := fun _ => -1000) (ub := fun _ => 1000)
    (row := warpInputs (1 / 20)) (row' := warpInputs (-(1 / 20)))
    (f1_wf _ _ _ _ _ _) (f1_clockFree _ _ _ _ _ _) rfl (by norm_num [hillLap, f1Vehicle, hillTrack]) rfl
    (by decide) (by norm_num [hillLap, f1Vehicle, hillTrack, warpInputs, F1.roadStart, F1.loadStart, F1.chassisStart,
      F1.rearStart, F1.frontStart])
    (fun j => by simp only [warpInputs]; split_ifs <;> norm_num)
    (fun k hk => by
      have hk' : k ≠ 11 := by rintro rfl; rw [hti] at hk; simp at hk
      rw [p0, p1, r0, r1, if_neg hk']
      refine ⟨rfl, ?_⟩
      split_ifs <;> norm_num)
    (fun k hk => by rw [hai] at hk; simp at hk) (by
      intro k hk
      have hk6 : k < 6 := hk
      have hpos : 0 ≤ max (Tyre.maxLambda F1.exTyre 0) (Tyre.maxLambda F1.exTyre (600 * 10)) :=
        le_max_of_le_left (by norm_num [Tyre.maxLambda, Tyre.atLoad, F1.exTyre])
      have eb : hillLap.extraUb 50 k = ([max (Tyre.maxLambda F1.exTyre 0) (Tyre.maxLambda F1.exTyre (600 * 10)),
          max (Tyre.maxLambda F1.exTyre 0) (Tyre.maxLambda F1.exTyre (600 * 10)),
          max (Tyre.maxLambda F1.exTyre 0) (Tyre.maxLambda F1.exTyre (600 * 10)),
          max (Tyre.maxLambda F1.exTyre 0) (Tyre.maxLambda F1.exTyre (600 * 10)), 5, 5] : List ℝ).getD k 0 := rfl
      have el : hillLap.extraLb 50 k = ([-max (Tyre.maxLambda F1.exTyre 0) (Tyre.maxLambda F1.exTyre (600 * 10)),
          -max (Tyre.maxLambda F1.exTyre 0) (Tyre.maxLambda F1.exTyre (600 * 10)),
          -max (Tyre.maxLambda F1.exTyre 0) (Tyre.maxLambda F1.exTyre (600 * 10)),
          -max (Tyre.maxLambda F1.exTyre 0) (Tyre.maxLambda F1.exTyre (600 * 10)), -5, -5] : List ℝ).getD k 0 := rfl
      generalize max (Tyre.maxLambda F1.exTyre 0) (Tyre.maxLambda F1.exTyre (600 * 10)) = M at eb el hpos
      rw [r2, eb, el]
      interval_cases k <;> norm_num <;> linarith)
  have hu : (fun k => (F1.controlLimits (6 / 10) (fun _ => ⟨0, 0, 0⟩) k).default) = F1.straightControls := by
    funext k
    match k with
    | 0 | 1 | 2 | 3 => simp [F1.straightControls, F1.controlLimits, F1.controlLimitWrites, F1.written, F1.cSteering,
        F1.cBoost, F1.cThrottle, F1.cBrakeBias]
    | k + 4 => simp [F1.straightControls, F1.controlLimits, F1.controlLimitWrites, F1.written, F1.cSteering,
        F1.cBoost, F1.cThrottle, F1.cBrakeBias]
  exact ⟨p, ini, nlp, lap, q, h1, h2, h3, h4, h5, h6, ⟨by unfold firstNode; split <;> omega, by omega⟩,
    by rw [hu]; exact h7 _, h8⟩

theorem hill_pace {q : Nat → Nat → ℝ} (h : ∀ i j, i < 2 → j < 14 → j ≠ 11 →
    q i j = if i = 0 then warpInputs (1 / 20) j else warpInputs (-(1 / 20)) j) (i : Nat) (hi : i < 2) :
    roadPace (hillTrack.at_ (if i = 0 then 0 else 50)) (q i) = 1 / 60 := by
  have hat : hillTrack.at_ (if i = 0 then 0 else 50) = F1.exStraight := if_pos (by split <;> norm_num)
  have g (j : Nat) (hj : j < 14) (hj' : j ≠ 11) := h i j hi hj hj'
  simp only [hat, roadPace, curvature, g 4 (by norm_num) (by norm_num), g 5 (by norm_num) (by norm_num),
    g 12 (by norm_num) (by norm_num), g 13 (by norm_num) (by norm_num)]
  norm_num [warpInputs, F1.exStraight]

/-- C211 is broken by tracks with elevation: on a converged lap, without any tolerance, the load transfer of the front
axle misses its share by a tenth of the weight. -/
theorem C211_shared_false : ∃ (p : Problem ℝ) (ini : Initial ℝ) (nlp : Nlp ℝ) (lap : Lap ℝ) (q : Nat → Nat → ℝ),
    setUp (-10 ^ 9) (10 ^ 9) hillLap (goRequest 4 (warpInputs (1 / 20)) (warpInputs (-(1 / 20)))) = .ok (p, ini, nlp) ∧
    HypermeshCovers p ∧ RightSizes stayOpt ∧ Reliable 0 0 stayOpt ∧
    solveLap (-10 ^ 9) (10 ^ 9) hillLap true stayOpt (goRequest 4 (warpInputs (1 / 20)) (warpInputs (-(1 / 20))))
      = .ok lap ∧ lap.success = true ∧
    LapData p lap (fun k => (F1.controlLimits (6 / 10) (fun _ => ⟨0, 0, 0⟩) k).default) (fun i => if i = 0 then 0 else 50)
      q (fun _ => F1.straightControls) ∧
    Optimised p 1 ∧ roadPace (hillTrack.at_ 50) (q 1) = 1 / 60 ∧ excess F1.calmCar (q 1) = -(1 / 10) := by
  obtain ⟨p, ini, nlp, lap, q, h1, h2, h3, h4, h5, h6, h7, h8, h9⟩ := hill_lap
  refine ⟨p, ini, nlp, lap, q, h1, h2, stayOpt_sizes, stayOpt_reliable, h3, h4, h8, h7, hill_pace h9 1 (by norm_num), ?_⟩
  have g (j : Nat) (hj : j < 14) (hj' : j ≠ 11) := h9 1 j (by norm_num) hj hj'
  simp only [excess, g 7 (by norm_num) (by norm_num), g 8 (by norm_num) (by norm_num), g 9 (by norm_num) (by norm_num),
    g 10 (by norm_num) (by norm_num)]
  norm_num [warpInputs, F1.calmCar, F1.exCar]

/-- C210 on this lap. -/
example : ∃ (p : Problem ℝ) (q : Nat → Nat → ℝ),
    F1Climb p.opts.sigma 50 0 F1.calmCar F1.exStraight (q 0) F1.straightControls F1.calmCar F1.exStraight (q 1)
      F1.straightControls ∧
    F1Limits 0 F1.calmCar F1.exStraight 5 5 (q 1) F1.straightControls ∧ q 1 4 = 60 := by
  obtain ⟨p, ini, nlp, lap, q, h1, h2, h3, h4, h5, h6, h7, h8, h9⟩ := hill_lap
  obtain ⟨r1, r2⟩ := C210_f1_lap_elevated (fun _ => F1.calmCar) (6 / 10) 0 (fun _ => ⟨0, 0, 0⟩) true hillTrack rfl
    (fun _ => by norm_num [F1.calmCar, F1.exCar]) (fun _ => by norm_num [F1.calmCar, F1.exCar])
    (-10 ^ 9) (10 ^ 9) (goRequest 4 (warpInputs (1 / 20)) (warpInputs (-(1 / 20)))) rfl p ini nlp h1 h2 stayOpt
    stayOpt_sizes 0 0 stayOpt_reliable true lap h3 h4 _ q (fun _ => F1.straightControls) h8
    (fun i hi => by rw [hill_pace h9 i (by omega)]; norm_num)
  have hr1 : rightNode p 0 = 1 := by rw [rightNode, if_pos (by omega)]
  have hL : lengthOf p hillTrack.length (fun i => if i = 0 then 0 else 50) 0 = 50 := by
    rw [lengthOf, if_pos (by omega)]; norm_num
  have r1' := r1 0 (by omega)
  rw [hr1, hL] at r1'
  have e0 : hillTrack.at_ (if (0 : Nat) = 0 then 0 else 50) = F1.exStraight := if_pos (by norm_num)
  have e1 : hillTrack.at_ (if (1 : Nat) = 0 then 0 else 50) = F1.exStraight := if_pos (by norm_num)
  rw [e0, e1] at r1'
  have r2' := (r2 1 h7).1
  rw [e1] at r2'
  refine ⟨p, q, r1', r2', ?_⟩
  rw [h9 1 4 (by norm_num) (by norm_num) (by norm_num)]
  norm_num [warpInputs]

end ex

end Verif.LapVehicles
