import Verif.Spec.SteadyVehicles
import Verif.Props.F1Dynamics
import Verif.Props.Kart
import Verif.Props.KartLayout
import Verif.Props.SteadyRange

/-! Lemmas on the steady states of the two vehicles. -/

set_option autoImplicit false

namespace Verif.SteadyVehicles

open Verif.Road Verif.Chassis

theorem within_range {tol : ℝ} {lo x hi : List ℝ} (h : Steady.Within tol lo x hi) :
    List.Forall₂ (fun a r => r.1 - tol ≤ a ∧ a ≤ r.2 + tol) x (lo.zip hi) := by
  obtain ⟨h1, h2⟩ := h
  induction h1 generalizing hi with
  | nil => cases h2; simp
  | cons hl _ ih =>
    cases h2 with
    | cons hu h2 => exact .cons ⟨hl, hu⟩ (ih h2)

theorem within_get {tol : ℝ} {lo x hi : List ℝ} (h : Steady.Within tol lo x hi) (k : Nat) (hk : k < x.length) :
    lo.getD k 0 - tol ≤ x.getD k 0 ∧ x.getD k 0 ≤ hi.getD k 0 + tol := by
  obtain ⟨h1, h2⟩ := h
  induction h1 generalizing hi k with
  | nil => simp at hk
  | cons hl _ ih =>
    cases h2 with
    | cons hu h2 =>
      cases k with
      | zero => exact ⟨hl, hu⟩
      | succ k => simpa using ih k (by simpa using hk) h2

theorem map_arrayOf (x : List ℝ) {n : Nat} (h : x.length = n) : (List.range n).map (LapVehicles.arrayOf x) = x := by
  apply List.ext_getElem
  · simp [h]
  · intro i h1 h2
    simp [LapVehicles.arrayOf, List.getElem?_eq_getElem h2]

theorem within_length {tol : ℝ} {lo x hi : List ℝ} (h : Steady.Within tol lo x hi) : x.length = lo.length :=
  h.1.length_eq.symm

/-! ### F1 car -/

theorem abs_of_bounds {a t s e : ℝ} (hs : 0 < s) (h : 0 - t ≤ e ∧ e ≤ 0 + t) (ha : a = e * s ∨ a = -(e * s)) :
    |a| ≤ t * s := by
  have : |e| ≤ t := abs_le.2 ⟨by linarith [h.1], by linarith [h.2]⟩
  rcases ha with rfl | rfl
  · rw [abs_mul, abs_of_pos hs]; exact mul_le_mul_of_nonneg_right this hs.le
  · rw [abs_neg, abs_mul, abs_of_pos hs]; exact mul_le_mul_of_nonneg_right this hs.le

/-- A solution of the steady-state equations up to a tolerance. -/
theorem f1_held {tol : ℝ} (c : F1.Car) (bias0 : ℝ) (junk : Nat → ℝ) (junkLimits : Nat → F1.Limits) (x : Nat → ℝ)
    (ax ay V : ℝ) (hV : 0 < V) (hg : 0 < c.chassis.g0) (hm : 0 < c.chassis.mass) (hI : 0 < c.chassis.I.2.2.2.2)
    (h : Steady.Within tol F1.steadyBounds.1 (F1.steadyEquations c bias0 junk junkLimits x ax ay V) F1.steadyBounds.2) :
    F1Held tol c (F1.written junk (F1.steadyInputs c.chassis.g0 x ay V))
      (F1.steadyControls (fun k => (F1.controlLimits bias0 junkLimits k).default) x) V (ax * c.chassis.g0)
      (ay * c.chassis.g0) := by
  have hmo := F1.C108_motion c junk x ay V (F1.steadyControls (fun k => (F1.controlLimits bias0 junkLimits k).default) x)
  generalize hq : F1.written junk (F1.steadyInputs c.chassis.g0 x ay V) = q at hmo ⊢
  generalize hu' : F1.steadyControls (fun k => (F1.controlLimits bias0 junkLimits k).default) x = u at hmo ⊢
  have ho : f1Out c q u = F1.carUpdate c (F1.setState c q u) (F1.roadCartesian (F1.setState c q u)) := rfl
  set m := F1.setState c q u with hmm
  set o := F1.carUpdate c m (F1.roadCartesian m) with hoo
  set psi := F1.maxYaw * x 4 with hpsi
  have hsc := Real.sin_sq_add_cos_sq psi
  have q4 : q 4 = V * Real.cos psi := by
    simp [← hq, F1.steadyInputs, F1.written, F1.frontStart, F1.rearStart, F1.chassisStart, F1.loadStart, F1.roadStart, hpsi]
  have q5 : q 5 = -V * Real.sin psi := by
    simp [← hq, F1.steadyInputs, F1.written, F1.frontStart, F1.rearStart, F1.chassisStart, F1.loadStart, F1.roadStart, hpsi]
  have q6 : q 6 = ay * c.chassis.g0 / V := by
    simp [← hq, F1.steadyInputs, F1.written, F1.frontStart, F1.rearStart, F1.chassisStart, F1.loadStart, F1.roadStart]
  have hom : (F1.roadCartesian m).omega = (0, 0, m.omega) := by
    apply vec_ext <;> simp [F1.roadCartesian, omegaBody, rotZ]
  have hox : o.input.omegaX = 0 := by show (F1.roadCartesian m).omega.1 = 0; rw [hom]
  have hoy : o.input.omegaY = 0 := by show (F1.roadCartesian m).omega.2.1 = 0; rw [hom]
  have hoz : o.input.omegaZ = ay * c.chassis.g0 / V := q6
  have hiu : o.input.u = V * Real.cos psi := q4
  have hiv : o.input.v = -V * Real.sin psi := q5
  have hu : o.chassis = Chassis.update c.chassis o.input o.front.forces o.rear.forces := rfl
  have hVn := hV.ne'
  have hgn := hg.ne'
  have hmn := hm.ne'
  have hIn := hI.ne'
  have d4 : o.chassis.comVelocityDot.1 = o.chassis.force.1 / c.chassis.mass - ay * c.chassis.g0 * Real.sin psi := by
    rw [hu]; simp only [Chassis.update, hox, hoy, hoz, hiv]; field_simp; ring
  have d5 : o.chassis.comVelocityDot.2.1 = o.chassis.force.2.1 / c.chassis.mass - ay * c.chassis.g0 * Real.cos psi := by
    rw [hu]; simp only [Chassis.update, hox, hoy, hoz, hiu]; field_simp; ring
  have d6 : o.chassis.yawRateDot = o.chassis.torque.2.2 / c.chassis.I.2.2.2.2 := by
    rw [hu]; simp only [Chassis.update, hox, hoy]; ring
  have d7 : o.chassis.comVelocityDot.2.2 = o.chassis.force.2.2 / c.chassis.mass := by
    rw [hu]; simp only [Chassis.update, hox, hoy]; ring
  have d8 : o.chassis.rollMomentumDot = o.chassis.torque.1 := by
    rw [hu]; simp only [Chassis.update, hoy]; ring
  have d9 : o.chassis.pitchMomentumDot = o.chassis.torque.2.1 := by
    rw [hu]; simp only [Chassis.update, hox]; ring
  have d10 : o.chassis.rollBalance = ((q 8 - q 7) * (1 - c.chassis.rollBalance) + (q 9 - q 10) * c.chassis.rollBalance)
      * (c.chassis.g0 * c.chassis.mass) := by
    show (m.fr - m.fl) * (1 - c.chassis.rollBalance) + (m.rl - m.rr) * c.chassis.rollBalance = _
    simp only [hmm, F1.setState, F1.loadStart, F1.chassisStart, F1.rearStart, F1.frontStart, Nat.reduceAdd]
    ring
  have hn : √(dot (q 4, q 5, 0) (q 4, q 5, 0)) = V := by
    have : dot (q 4, q 5, 0) (q 4, q 5, 0) = V ^ 2 := by
      simp only [dot, q4, q5]
      linear_combination V ^ 2 * hsc
    rw [this, Real.sqrt_sq hV.le]
  have la : longitudinalAcceleration c.chassis.mass (q 4) (q 5) o.chassis.force =
      (o.chassis.force.1 * Real.cos psi - o.chassis.force.2.1 * Real.sin psi) / c.chassis.mass := by
    unfold longitudinalAcceleration
    rw [hn]
    simp only [dot, q4, q5, Prod.smul_fst, Prod.smul_snd, smul_eq_mul]
    field_simp
    ring
  have ta : lateralAcceleration c.chassis.mass (q 4) (q 5) o.chassis.force =
      (o.chassis.force.1 * Real.sin psi + o.chassis.force.2.1 * Real.cos psi) / c.chassis.mass := by
    unfold lateralAcceleration
    rw [hn]
    simp only [cross, q4, q5, Prod.smul_fst, Prod.smul_snd, smul_eq_mul]
    field_simp
    ring
  have e : F1.steadyEquations c bias0 junk junkLimits x ax ay V =
      [o.chassis.comVelocityDot.2.2 / c.chassis.g0 * 1, o.chassis.rollMomentumDot / (c.chassis.g0 * c.chassis.mass) * 1,
       o.chassis.pitchMomentumDot / (c.chassis.g0 * c.chassis.mass) * 1,
       o.chassis.rollBalance / (c.chassis.g0 * c.chassis.mass) * 1,
       (o.chassis.comVelocityDot.1 * 1 * Real.sin psi + o.chassis.comVelocityDot.2.1 * 1 * Real.cos psi) / c.chassis.g0,
       ax * c.chassis.g0 / c.chassis.g0 + (-(o.chassis.comVelocityDot.1 * 1) * Real.cos psi
         + o.chassis.comVelocityDot.2.1 * 1 * Real.sin psi) / c.chassis.g0,
       o.chassis.yawRateDot * 1 / c.chassis.g0,
       o.front.dL / (c.chassis.g0 * c.chassis.mass), o.front.dR / (c.chassis.g0 * c.chassis.mass),
       o.rear.dL / (c.chassis.g0 * c.chassis.mass), o.rear.dR / (c.chassis.g0 * c.chassis.mass),
       o.front.left.kin.lambda / Tyre.maxLambda c.front.tyre (-q 7 * c.chassis.mass * c.chassis.g0),
       o.front.right.kin.lambda / Tyre.maxLambda c.front.tyre (-q 8 * c.chassis.mass * c.chassis.g0),
       o.rear.left.kin.lambda / Tyre.maxLambda c.rear.tyre (-q 9 * c.chassis.mass * c.chassis.g0),
       o.rear.right.kin.lambda / Tyre.maxLambda c.rear.tyre (-q 10 * c.chassis.mass * c.chassis.g0)] := by
    subst hq hu'
    rfl
  rw [e] at h
  have hgm : 0 < c.chassis.g0 * c.chassis.mass := mul_pos hg hm
  have hgI : 0 < c.chassis.g0 * c.chassis.I.2.2.2.2 := mul_pos hg hI
  have G (k : Nat) (hk : k < 15) := within_get h k (by simpa using hk)
  have h0 := G 0 (by decide)
  have h1 := G 1 (by decide)
  have h2 := G 2 (by decide)
  have h3 := G 3 (by decide)
  have h4 := G 4 (by decide)
  have h5 := G 5 (by decide)
  have h6 := G 6 (by decide)
  have h7 := G 7 (by decide)
  have h8 := G 8 (by decide)
  have h9 := G 9 (by decide)
  have h10 := G 10 (by decide)
  have h11 := G 11 (by decide)
  have h12 := G 12 (by decide)
  have h13 := G 13 (by decide)
  have h14 := G 14 (by decide)
  clear G h
  simp only [F1.steadyBounds, List.getD_cons_succ, List.getD_cons_zero] at h0 h1 h2 h3 h4 h5 h6 h7 h8 h9 h10 h11 h12 h13 h14
  have wheel (w : F1.WheelOut) (t d : ℝ) (hd : d = t + Tyre.wheelTorque w.kin w.Fx)
      (hb : 0 - tol ≤ d / (c.chassis.g0 * c.chassis.mass) ∧ d / (c.chassis.g0 * c.chassis.mass) ≤ 0 + tol) :
      |t - w.Fx * (w.kin.R0 - w.kin.w)| ≤ tol * (c.chassis.g0 * c.chassis.mass) := by
    refine abs_of_bounds hgm hb (.inl ?_)
    rw [div_mul_cancel₀ _ hgm.ne', hd, Tyre.wheelTorque]
    ring
  refine ⟨hmo, ?_, ?_, ?_, ?_, ?_, ?_, ?_, ?_, ?_⟩
  · rw [ho, la]
    refine abs_of_bounds hg h5 (.inr ?_)
    rw [d4, d5]
    field_simp
    ring
  · rw [ho, ta]
    refine abs_of_bounds hg h4 (.inl ?_)
    rw [d4, d5]
    field_simp
    linear_combination (c.chassis.mass * ay * c.chassis.g0) * hsc
  · rw [ho]
    refine abs_of_bounds hgm h0 (.inl ?_)
    rw [d7]
    field_simp
  · rw [ho]
    refine abs_of_bounds hgm h1 (.inl ?_)
    rw [d8]
    field_simp
  · rw [ho]
    refine abs_of_bounds hgm h2 (.inl ?_)
    rw [d9]
    field_simp
  · rw [ho]
    refine abs_of_bounds hgI h6 (.inl ?_)
    rw [d6]
    field_simp
  · have := abs_of_bounds (a := q 8 - q 7 - c.chassis.rollBalance * (q 8 + q 10 - q 7 - q 9)) one_pos h3 (.inl ?_)
    · simpa using this
    · rw [d10]
      field_simp
      ring
  · rw [ho]
    intro w hw
    simp only [List.mem_cons, List.not_mem_nil, or_false] at hw
    rcases hw with rfl | rfl | rfl | rfl
    · exact wheel _ _ _ rfl h7
    · exact wheel _ _ _ rfl h8
    · exact wheel _ _ _ rfl h9
    · exact wheel _ _ _ rfl h10
  · rw [ho]
    intro w hw
    simp only [List.mem_cons, List.not_mem_nil, or_false] at hw
    rcases hw with rfl | rfl | rfl | rfl
    exacts [h11, h12, h13, h14]

/-- Variables within their bounds. -/
theorem f1_driven {tol : ℝ} (c : F1.Car) (bias0 : ℝ) (junk : Nat → ℝ) (junkLimits : Nat → F1.Limits) (x : List ℝ)
    (ay V : ℝ) (b : List ℝ × List ℝ) (hb : b.1.length = 11) (h : Steady.Within tol b.1 x b.2) :
    F1Driven tol bias0 (b.1.zip b.2) (F1.written junk (F1.steadyInputs c.chassis.g0 (LapVehicles.arrayOf x) ay V))
      (F1.steadyControls (fun k => (F1.controlLimits bias0 junkLimits k).default) (LapVehicles.arrayOf x)) := by
  obtain ⟨h1, h2⟩ := F1.C110_other_controls bias0 junkLimits (LapVehicles.arrayOf x)
  refine ⟨?_, h1, h2⟩
  have := F1.C110_round_trip c bias0 junk junkLimits (LapVehicles.arrayOf x) ay V
  rw [map_arrayOf x ((within_length h).trans hb)] at this
  have hr := within_range h
  rw [← this] at hr
  exact hr

/-! ### Kart -/

section
variable {solve : Vec3 × Vec3 × Vec3 → Vec3 → Vec3}

/-- A solution of the steady-state equations of the kart up to a tolerance. -/
theorem kart_held {tol : ℝ} (c : Kart.Vehicle) (junkQ junkU x : Nat → ℝ) (ax ay V : ℝ) (hV : 0 < V) (hm : 0 < c.mass)
    (h : Steady.Within tol Kart.steadyBounds.1 (Kart.steadyEquations solve c junkQ junkU x ax ay V) Kart.steadyBounds.2) :
    KartHeld solve tol c (F1.written junkQ (Kart.steadyInputs x ay V)) (F1.written junkU (Kart.steadyControls x)) V ax
      ay := by
  have G (k : Nat) (hk : k < 12) := within_get h k (by simpa [Kart.steadyEquations] using hk)
  have e0 := G 0 (by decide)
  have e1 := G 1 (by decide)
  have e2 := G 2 (by decide)
  have e3 := G 3 (by decide)
  have e4 := G 4 (by decide)
  have e5 := G 5 (by decide)
  have e6 := G 6 (by decide)
  have e7 := G 7 (by decide)
  have e8 := G 8 (by decide)
  have e9 := G 9 (by decide)
  have e10 := G 10 (by decide)
  have e11 := G 11 (by decide)
  clear G h
  simp only [Kart.steadyEquations, Kart.steadyBounds, Kart.setState_steady, List.getD_cons_zero, List.getD_cons_succ]
    at e0 e1 e2 e3 e4 e5 e6 e7 e8 e9 e10 e11
  have hM : kartMembers (F1.written junkQ (Kart.steadyInputs x ay V)) (F1.written junkU (Kart.steadyControls x))
      = Kart.steadyMembers x ay V := Kart.setState_steady junkQ junkU x ay V
  have q1 : F1.written junkQ (Kart.steadyInputs x ay V) 1 = V * Real.cos (x 4) := rfl
  have q2 : F1.written junkQ (Kart.steadyInputs x ay V) 2 = -V * Real.sin (x 4) := rfl
  have q12 : F1.written junkQ (Kart.steadyInputs x ay V) 12 = x 4 := rfl
  set A := Kart.dvdt c (Kart.steadyMembers x ay V) (x 4) with hA
  have a0 : 0 - tol ≤ A.2.2 * 1 ∧ A.2.2 * 1 ≤ 0 + tol := e0
  have a4 : 0 - tol ≤ A.1 * 1 * Real.sin (x 4) + A.2.1 * 1 * Real.cos (x 4) ∧
    A.1 * 1 * Real.sin (x 4) + A.2.1 * 1 * Real.cos (x 4) ≤ 0 + tol := e4
  have a5 : 0 - tol ≤ ax - A.1 * 1 * Real.cos (x 4) + A.2.1 * 1 * Real.sin (x 4) ∧
    ax - A.1 * 1 * Real.cos (x 4) + A.2.1 * 1 * Real.sin (x 4) ≤ 0 + tol := e5
  have hF : Kart.totalForce c (Kart.steadyMembers x ay V) (x 4) = _ :=
    Kart.newton_balance hm.ne' (Kart.steadyMembers x ay V) (x 4)
  rw [← hA] at hF
  have hsq := Real.sin_sq_add_cos_sq (x 4)
  have hN : √(dot (V * Real.cos (x 4), -V * Real.sin (x 4), 0) (V * Real.cos (x 4), -V * Real.sin (x 4), 0)) = V := by
    rw [show dot (V * Real.cos (x 4), -V * Real.sin (x 4), 0) (V * Real.cos (x 4), -V * Real.sin (x 4), 0) = V ^ 2 by
      simp only [dot]; linear_combination V ^ 2 * hsq]
    exact Real.sqrt_sq hV.le
  have hVn := hV.ne'
  have hmn := hm.ne'
  have one {a e : ℝ} (h : 0 - tol ≤ e ∧ e ≤ 0 + tol) (ha : a = e ∨ a = -e) : |a| ≤ tol := by
    have := abs_of_bounds (a := a) one_pos h (by simpa using ha)
    simpa using this
  constructor
  · rw [hM]
    simp only [Kart.roadCartesian, Kart.steadyMembers]
    apply vec_ext <;> simp only [cartesian]
    · linear_combination V * hsq
    · ring
  · rw [hM, q1, q2, q12, ← Kart.totalForce_applied, hF]
    simp only [longitudinalAcceleration, hN]
    rw [smul_smul, one_div_mul_cancel hmn, one_smul]
    refine one a5 (.inr ?_)
    rw [sub_eq_iff_eq_add, div_eq_iff hVn]
    simp only [Kart.newtonLhs, Kart.steadyMembers, dot, cross, Prod.fst_add, Prod.snd_add]
    ring
  · rw [hM, q1, q2, q12, ← Kart.totalForce_applied, hF]
    simp only [lateralAcceleration, hN]
    rw [smul_smul, one_div_mul_cancel hmn, one_smul]
    refine one a4 (.inl ?_)
    rw [sub_eq_iff_eq_add, div_eq_iff hVn]
    simp only [Kart.newtonLhs, Kart.steadyMembers, cross, Prod.fst_add, Prod.snd_add]
    field_simp
    linear_combination ay * hsq
  · rw [hM, q12, ← Kart.totalForce_applied, hF]
    refine abs_of_bounds hm a0 (.inl ?_)
    simp only [Kart.newtonLhs, Kart.steadyMembers, cross, Prod.snd_add, Prod.smul_snd, smul_eq_mul]
    ring
  · exact ⟨rfl, rfl, rfl⟩
  · rw [hM, q12]
    exact ⟨one e2 (.inl (mul_one _).symm),
      one e3 (.inl (mul_one _).symm),
      one e1 (.inl (mul_one _).symm)⟩
  · rw [hM]
    intro w hw
    simp only [List.mem_cons, List.not_mem_nil, or_false] at hw
    rcases hw with rfl | rfl
    · exact abs_le.2 ⟨by linarith [e6.1], e6.2⟩
    · exact abs_le.2 ⟨by linarith [e7.1], e7.2⟩
  · rw [hM]
    intro w hw
    simp only [List.mem_cons, List.not_mem_nil, or_false] at hw
    rcases hw with rfl | rfl | rfl | rfl
    · exact abs_le.2 ⟨by linarith [e8.1], e8.2⟩
    · exact abs_le.2 ⟨by linarith [e9.1], e9.2⟩
    · exact abs_le.2 ⟨by linarith [e10.1], e10.2⟩
    · exact abs_le.2 ⟨by linarith [e11.1], e11.2⟩

theorem kart_driven {tol : ℝ} (junkQ junkU : Nat → ℝ) (x : List ℝ) (ay V : ℝ) (hV : V ≠ 0)
    (h : Steady.Within tol Kart.steadyVariableBounds.1 x Kart.steadyVariableBounds.2) :
    KartDriven tol (F1.written junkQ (Kart.steadyInputs (LapVehicles.arrayOf x) ay V))
      (F1.written junkU (Kart.steadyControls (LapVehicles.arrayOf x))) V := by
  refine ⟨?_, rfl⟩
  have := Kart.C162_round_trip junkQ junkU (LapVehicles.arrayOf x) ay V hV
  rw [map_arrayOf x (n := 6) (within_length h)] at this
  have hr := within_range h
  rw [← this] at hr
  have e : kartRange = Kart.steadyVariableBounds.1.zip Kart.steadyVariableBounds.2 := by
    norm_num [kartRange, Kart.steadyVariableBounds]
  rw [e, show (0.139 : ℝ) = 139 / 1000 by norm_num]
  exact hr

end

/-! ### Commands -/

theorem copyTo_ok {src dst r : List ℝ} (h : copyTo src dst = .ok r) :
    (∀ k, k < src.length → r[k]? = src[k]?) ∧ r.length = dst.length ∧ r.drop src.length = dst.drop src.length ∧
      src.length ≤ dst.length := by
  unfold copyTo at h
  split at h
  · rename_i hl
    obtain rfl := Res.ok.inj h
    refine ⟨fun k hk => List.getElem?_append_left hk, by simp; omega, by simp, hl⟩
  · cases h

/-- What `deliver` leaves. -/
theorem deliver_ok {e : Entry} {s : State} {mem : List ℝ × List ℝ} (h : (deliver e s mem).result = .ok ()) :
    s.solved = true ∧ Holds (deliver e s mem).mem.1 e.nInputs s.inputs ∧
      Holds (deliver e s mem).mem.2 e.nControls s.controls ∧
      (deliver e s mem).mem.1.length = mem.1.length ∧ (deliver e s mem).mem.2.length = mem.2.length ∧
      (deliver e s mem).mem.1.drop e.nInputs = mem.1.drop e.nInputs ∧
      (deliver e s mem).mem.2.drop e.nControls = mem.2.drop e.nControls := by
  unfold deliver at h ⊢
  split at h
  · cases h
  rename_i hs
  rw [if_neg hs]
  rcases h1 : copyTo ((List.range e.nInputs).map s.inputs) mem.1 with a | _ | _
  · rw [h1] at h
    simp only at h ⊢
    rcases h2 : copyTo ((List.range e.nControls).map s.controls) mem.2 with b | _ | _
    · simp only
      obtain ⟨a1, a2, a3, -⟩ := copyTo_ok h1
      obtain ⟨b1, b2, b3, -⟩ := copyTo_ok h2
      simp only [List.length_map, List.length_range] at a1 a3 b1 b3
      refine ⟨by simpa using hs, fun k hk => ?_, fun k hk => ?_, a2, b2, a3, b3⟩
      · rw [a1 k hk]; simp [hk]
      · rw [b1 k hk]; simp [hk]
    · rw [h2] at h; cases h
    · rw [h2] at h; cases h
  · rw [h1] at h; cases h
  · rw [h1] at h; cases h

/-- `computeSteady` succeeds exactly with a solved steady state that fits in the arrays. -/
theorem computeSteady_ok {S : Steady.SolverAD ℝ} {e : Entry} {v ax ay : ℝ} {mem : List ℝ × List ℝ}
    (h : (computeSteady S e v ax ay mem).result = .ok ()) :
    ∃ s, Steady.solveAD e.car S v ax ay none = .ok s ∧ computeSteady S e v ax ay mem = deliver e s mem := by
  unfold computeSteady at h ⊢
  rcases hs : Steady.solveAD e.car S v ax ay none with s | _ | _
  · exact ⟨s, rfl, rfl⟩
  · rw [hs] at h; cases h
  · rw [hs] at h; cases h

/-- What the loop leaves. -/
theorem writePoints_ok {mx mn : List State} {n i : Nat} {mem : List ℝ × List ℝ × List ℝ}
    (h : (writePoints mx mn i n mem).result = .ok ()) :
    let r := (writePoints mx mn i n mem).mem
    (∀ k, k < i → r.1[k]? = mem.1[k]? ∧ r.2.1[k]? = mem.2.1[k]? ∧ r.2.2[k]? = mem.2.2[k]?) ∧
    (∀ k, i + n ≤ k → r.1[k]? = mem.1[k]? ∧ r.2.1[k]? = mem.2.1[k]? ∧ r.2.2[k]? = mem.2.2[k]?) ∧
    (∀ k, i ≤ k → k < i + n → ∃ a b, mx[k]? = some a ∧ mn[k]? = some b ∧ r.1[k]? = some a.ay ∧
      r.2.1[k]? = some a.ax ∧ r.2.2[k]? = some b.ax) := by
  induction n generalizing i mem with
  | zero =>
    refine ⟨fun k _ => ⟨rfl, rfl, rfl⟩, fun k _ => ⟨rfl, rfl, rfl⟩, fun k h1 h2 => absurd h2 (by omega)⟩
  | succ n ih =>
    unfold writePoints at h
    unfold writePoints
    rcases ha : mx[i]? with _ | a
    · rw [ha] at h; cases h
    rcases hb : mn[i]? with _ | b
    · rw [ha, hb] at h; cases h
    rw [ha, hb] at h
    simp only at h ⊢
    split at h
    · rename_i hl
      rw [if_pos hl]
      obtain ⟨h1, h2, h3⟩ := ih h
      refine ⟨fun k hk => ?_, fun k hk => ?_, fun k hk1 hk2 => ?_⟩
      · obtain ⟨g1, g2, g3⟩ := h1 k (by omega)
        refine ⟨g1.trans ?_, g2.trans ?_, g3.trans ?_⟩ <;> exact List.getElem?_set_ne (by omega)
      · obtain ⟨g1, g2, g3⟩ := h2 k (by omega)
        refine ⟨g1.trans ?_, g2.trans ?_, g3.trans ?_⟩ <;> exact List.getElem?_set_ne (by omega)
      · by_cases hki : k = i
        · subst hki
          obtain ⟨g1, g2, g3⟩ := h1 k (by omega)
          refine ⟨a, b, ha, hb, g1.trans ?_, g2.trans ?_, g3.trans ?_⟩
          · exact List.getElem?_set_self hl.1
          · exact List.getElem?_set_self hl.2.1
          · exact List.getElem?_set_self hl.2.2
        · exact h3 k (by omega) (by omega)
    · cases h

/-- The loop succeeds when the arrays and the branches have enough entries. -/
theorem writePoints_enough {mx mn : List State} {n i : Nat} {mem : List ℝ × List ℝ × List ℝ}
    (h1 : i + n ≤ mx.length) (h2 : i + n ≤ mn.length) (h3 : i + n ≤ mem.1.length) (h4 : i + n ≤ mem.2.1.length)
    (h5 : i + n ≤ mem.2.2.length) : (writePoints mx mn i n mem).result = .ok () := by
  induction n generalizing i mem with
  | zero => rfl
  | succ n ih =>
    unfold writePoints
    rw [List.getElem?_eq_getElem (show i < mx.length by omega), List.getElem?_eq_getElem (show i < mn.length by omega)]
    simp only
    rw [if_pos ⟨by omega, by omega, by omega⟩]
    exact ih (by omega) (by omega) (by simp; omega) (by simp; omega) (by simp; omega)

end Verif.SteadyVehicles
