import Verif.Props.Outputs

/-! Property theorem C235: the reported accelerations and the motion of the vehicle. -/

set_option autoImplicit false

namespace Verif.Outputs

open Verif.Road Verif.Chassis Real

theorem accelerates {u v omega time : ℝ → ℝ} {s m tau : ℝ} {F : Vec3} (hv : u s ≠ 0 ∨ v s ≠ 0)
    (ht : HasDerivAt time tau s) (hu : HasDerivAt u ((F.1 / m + v s * omega s) * tau) s)
    (hw : HasDerivAt v ((F.2.1 / m - u s * omega s) * tau) s) :
    Accelerates u v omega time (longitudinalAcceleration m (u s) (v s) F) (lateralAcceleration m (u s) (v s) F) s := by
  have hpos : 0 < u s ^ 2 + v s ^ 2 := by
    rcases hv with h | h
    · have := sq_pos_of_ne_zero h; positivity
    · have := sq_pos_of_ne_zero h; positivity
  have hs : √(u s ^ 2 + v s ^ 2) * √(u s ^ 2 + v s ^ 2) = u s ^ 2 + v s ^ 2 := Real.mul_self_sqrt hpos.le
  have hne : √(u s ^ 2 + v s ^ 2) ≠ 0 := (Real.sqrt_pos.mpr hpos).ne'
  have e : u s * u s + v s * v s + 0 * 0 = u s ^ 2 + v s ^ 2 := by ring
  refine ⟨_, _, _, ht, hu, hw, ?_, ?_⟩
  · have h := ((hu.pow 2).add (hw.pow 2)).sqrt hpos.ne'
    refine h.congr_deriv ?_
    simp only [longitudinalAcceleration, dot, e, Prod.smul_fst, Prod.smul_snd, smul_eq_mul, Pi.add_apply, Pi.pow_apply]
    field_simp
    ring
  · simp only [lateralAcceleration, dot, cross, e, Prod.smul_fst, Prod.smul_snd, smul_eq_mul]
    rw [div_mul_eq_mul_div, eq_div_iff hne, mul_right_comm, hs, mul_add, mul_div_cancel₀ _ hpos.ne']
    ring

theorem f1_level (c : F1.Car) {f : TrackPoint} (hf : Level f) (q u : Nat → ℝ) :
    let r := F1.roadCurvilinear f (F1.setState c q u)
    let o := (F1.carUpdate c (F1.setState c q u) r).chassis
    let F := (f1Track c f q u).chassis.force
    o.comVelocity = (q 4, q 5, 0) ∧ o.comVelocityDot.1 = F.1 / c.chassis.mass + q 5 * q 6 ∧
    o.comVelocityDot.2.1 = F.2.1 / c.chassis.mass - q 4 * q 6 ∧
    o.yawRateDot = o.torque.2.2 / c.chassis.I.2.2.2.2 := by
  intro r o F
  obtain ⟨o1, o2, o3⟩ : r.omega.1 = 0 ∧ r.omega.2.1 = 0 ∧ r.groundVz = 0 := by
    obtain ⟨f1, f2, f3, f4⟩ := hf
    simp [r, F1.roadCurvilinear, omegaBody, eulerAnglesDot, Road.update, curvature, f1, f2, f3, f4, rotZ]
  refine ⟨vec_ext ?_ ?_ o3, ?_, ?_, ?_⟩
  · show q 4 - _ * r.omega.2.1 = q 4
    rw [o2, mul_zero, sub_zero]
  · show q 5 + _ * r.omega.1 = q 5
    rw [o1, mul_zero, add_zero]
  · show F.1 / c.chassis.mass + (q 5 + _ * r.omega.1) * q 6 - r.groundVz * _ = _
    rw [o1, o3, mul_zero, add_zero, zero_mul, sub_zero]
  · show F.2.1 / c.chassis.mass - (q 4 - _ * r.omega.2.1) * q 6 + r.groundVz * _ = _
    rw [o2, o3, mul_zero, sub_zero, zero_mul, add_zero]
  · show (o.torque.2.2 + _ * r.omega.1 * _) / _ = _
    rw [o1, mul_zero, zero_mul, add_zero]

theorem kart_rates (solve : Vec3 × Vec3 × Vec3 → Vec3 → Vec3) (c : Kart.Vehicle) (f : TrackPoint) (q u : Nat → ℝ) :
    let a := Kart.dvdt c (Kart.setState q u) (f.yaw + q 12)
    let F := (kartTrack solve c f q u).chassis.force
    a.1 = F.1 / c.mass + q 2 * q 3 ∧ a.2.1 = F.2.1 / c.mass - q 1 * q 3 := by
  intro a F
  constructor
  · show -(Kart.newtonLhs (Kart.setState q u)).1 + 1 / c.mass * F.1 = _
    simp only [Kart.newtonLhs, Kart.setState, Kart.iChassis, Kart.iAxle, cross]
    ring
  · show -(Kart.newtonLhs (Kart.setState q u)).2.1 + 1 / c.mass * F.2.1 = _
    simp only [Kart.newtonLhs, Kart.setState, Kart.iChassis, Kart.iAxle, cross]
    ring

/-- C235, F1 car on a flat road: along every motion that follows the equations of the car, the reported accelerations are
the rate of change of the speed, the speed times the rate at which its direction turns, and the rate of change of the
yaw rate; this last one is the reported torque over the moment of inertia. Only the equations of the velocity, of the yaw
rate and of the time are needed. -/
theorem C235_f1 (c : F1.Car) (F : ℝ → TrackPoint) (hF : ∀ s, Level (F s)) (q u : ℝ → Nat → ℝ) (s : ℝ)
    (h : Obeys (fun s => F1.equationsCurvilinear c (F s) (q s) (u s)) [4, 5, 6, 11] s)
    (hv : q s 4 ≠ 0 ∨ q s 5 ≠ 0) (hI : c.chassis.I.2.2.2.2 ≠ 0) :
    let o := values (f1Track c (F s) (q s) (u s))
    Accelerates (fun s => q s 4) (fun s => q s 5) (fun s => q s 6) (fun s => q s 11)
      (value o "chassis.acceleration.x") (value o "chassis.acceleration.y") s ∧
    (∃ dt, HasDerivAt (fun s => q s 11) dt s ∧
      HasDerivAt (fun s => q s 6) (value o "chassis.acceleration.yaw" * dt) s) ∧
    c.chassis.I.2.2.2.2 * value o "chassis.acceleration.yaw" = value o "chassis.torque.z" := by
  intro o
  have ex : value o "chassis.acceleration.x" = _ := chassis_acceleration_x (f1Track c (F s) (q s) (u s))
  have ey : value o "chassis.acceleration.y" = _ := chassis_acceleration_y (f1Track c (F s) (q s) (u s))
  have ez : value o "chassis.acceleration.yaw" = _ := chassis_acceleration_yaw (f1Track c (F s) (q s) (u s))
  have et : value o "chassis.torque.z" = _ := chassis_torque_z (f1Track c (F s) (q s) (u s))
  rw [ex, ey, ez, et]
  have hr := fun s => (f1_level c (hF s) (q s) (u s)).1
  obtain ⟨-, e1, e2, e3⟩ := f1_level c (hF s) (q s) (u s)
  have h4 := h 4 (by simp)
  have h5 := h 5 (by simp)
  have h6 := h 6 (by simp)
  have h11 := h 11 (by simp)
  simp only [F1.equationsCurvilinear, F1.evaluate, F1.allStates, F1.axleState, Chassis.state, List.cons_append,
    List.nil_append, List.map_cons, List.map_nil, List.getD_cons_succ, List.getD_cons_zero, hr] at h4 h5 h6 h11
  have ht : HasDerivAt (fun s => q s 11) (F1.roadCurvilinear (F s) (F1.setState c (q s) (u s))).dtimeds s :=
    h11.congr_deriv (one_mul _)
  refine ⟨accelerates hv ht (h4.congr_deriv (congrArg (· * _) e1)) (h5.congr_deriv (congrArg (· * _) e2)),
    ⟨_, ht, h6⟩, ?_⟩
  exact (congrArg (_ * ·) e3).trans (mul_div_cancel₀ _ hI)

/-- C235, kart. -/
theorem C235_kart (solve : Vec3 × Vec3 × Vec3 → Vec3 → Vec3) (c : Kart.Vehicle) (F : ℝ → TrackPoint)
    (q u : ℝ → Nat → ℝ) (s : ℝ)
    (h : Obeys (fun s => Kart.evaluate solve c (Kart.setState (q s) (u s))
      (Kart.roadCurvilinear (F s) (Kart.setState (q s) (u s)))) [1, 2, 3, 10] s)
    (hv : q s 1 ≠ 0 ∨ q s 2 ≠ 0) :
    let o := values (kartTrack solve c (F s) (q s) (u s))
    Accelerates (fun s => q s 1) (fun s => q s 2) (fun s => q s 3) (fun s => q s 10)
      (value o "chassis.acceleration.x") (value o "chassis.acceleration.y") s ∧
    ∃ dt, HasDerivAt (fun s => q s 10) dt s ∧
      HasDerivAt (fun s => q s 3) (value o "chassis.acceleration.yaw" * dt) s := by
  intro o
  have ex : value o "chassis.acceleration.x" = _ := chassis_acceleration_x (kartTrack solve c (F s) (q s) (u s))
  have ey : value o "chassis.acceleration.y" = _ := chassis_acceleration_y (kartTrack solve c (F s) (q s) (u s))
  have ez : value o "chassis.acceleration.yaw" = _ := chassis_acceleration_yaw (kartTrack solve c (F s) (q s) (u s))
  rw [ex, ey, ez]
  have h1 := h 1 (by simp)
  have h2 := h 2 (by simp)
  have h3 := h 3 (by simp)
  have h10 := h 10 (by simp)
  simp only [Kart.evaluate, Kart.allStates, List.map_cons, List.map_nil, List.getD_cons_succ,
    List.getD_cons_zero] at h1 h2 h3 h10
  have ht : HasDerivAt (fun s => q s 10) (Kart.roadCurvilinear (F s) (Kart.setState (q s) (u s))).dtimeds s :=
    h10.congr_deriv (one_mul _)
  obtain ⟨e1, e2⟩ := kart_rates solve c (F s) (q s) (u s)
  exact ⟨accelerates hv ht (h1.congr_deriv (congrArg (· * _) e1)) (h2.congr_deriv (congrArg (· * _) e2)), _, ht, h3⟩

/-- A car that slows down by its drag on a straight, its tyres unloaded: the speed decays along the track. -/
noncomputable def exCoast (s : ℝ) : Nat → ℝ := fun k =>
  if k = 4 then exp (-s / 1200) else if k = 11 then 1200 * exp (s / 1200) else 0

theorem unloaded (p : F1.AxleP) (x : Vec3) (y : ℝ) (vel om : Vec3) (kd : ℝ) :
    (F1.wheelUpdate p x y 0 vel om 0 kd).wheel = ⟨(0, 0, 0), (0, 0, 0), 0, (0, y, 0)⟩ := by
  simp [F1.wheelUpdate, Tyre.simpleX, Tyre.simpleY, Tyre.forceTorque]

theorem exCoast_force (s : ℝ) :
    let o := (F1.carUpdate F1.exCar (F1.setState F1.exCar (exCoast s) fun _ => 0)
      (F1.roadCurvilinear F1.exStraight (F1.setState F1.exCar (exCoast s) fun _ => 0))).chassis
    o.force.1 = -(exp (-s / 1200)) ^ 2 / 2 ∧ o.force.2.1 = 0 ∧ o.torque.2.2 = 0 := by
  intro o
  have hload : tyreLoad F1.exCar.chassis 0 = 0 := by norm_num [tyreLoad, negLoad, F1.exCar]
  obtain ⟨m, hm⟩ : ∃ m, m = F1.setState F1.exCar (exCoast s) fun _ => 0 := ⟨_, rfl⟩
  have hl : m.fl = 0 ∧ m.fr = 0 ∧ m.rl = 0 ∧ m.rr = 0 ∧ m.steering = 0 ∧ m.u = exp (-s / 1200) ∧ m.v = 0 := by
    simp [hm, F1.setState, exCoast, F1.chassisStart, F1.roadStart, F1.loadStart, F1.rearStart, F1.frontStart]
  obtain ⟨l1, l2, l3, l4, l5, l6, l7⟩ := hl
  have hr : (F1.roadCurvilinear F1.exStraight m).groundVz = 0 ∧ (F1.roadCurvilinear F1.exStraight m).att = ⟨0, 0, 0, 0⟩ := by
    simp [F1.roadCurvilinear, Road.update, curvature, F1.exStraight, hm, F1.setState, exCoast, F1.roadStart,
      F1.chassisStart, F1.loadStart, F1.rearStart, F1.frontStart]
  have ho : o = Chassis.update F1.exCar.chassis
      ⟨exp (-s / 1200), 0, m.omega, 0, ⟨0, 0, 0, 0⟩, (F1.roadCurvilinear F1.exStraight m).omega.1,
        (F1.roadCurvilinear F1.exStraight m).omega.2.1, 0, 0, 0, 0⟩
      (axleForces ⟨(0, 0, 0), (0, 0, 0), 0, (0, -(1 / 2) * F1.exAxle.track, 0)⟩
        ⟨(0, 0, 0), (0, 0, 0), 0, (0, 1 / 2 * F1.exAxle.track, 0)⟩)
      (axleForces ⟨(0, 0, 0), (0, 0, 0), 0, (0, -(1 / 2) * F1.exAxle.track, 0)⟩
        ⟨(0, 0, 0), (0, 0, 0), 0, (0, 1 / 2 * F1.exAxle.track, 0)⟩) := by
    simp only [o, ← hm, F1.carUpdate, F1.axleUpdate, l1, l2, l3, l4, l5, l6, l7, hr.1, hr.2, hload, unloaded]
    rfl
  rw [ho]
  have hp := exp_pos (-s / 1200)
  refine ⟨?_, ?_, ?_⟩ <;>
    simp [Chassis.update, totalTorque, axleForces, rotZ, rotX, rotY, toBody, cross, aeroForce, aeroForces, gravity, F1.exCar,
      Real.sqrt_mul_self hp.le]
  ring

theorem exCoast_obeys (s : ℝ) : Obeys (fun s => F1.equationsCurvilinear F1.exCar F1.exStraight (exCoast s) fun _ => 0)
    [4, 5, 6, 11] s := by
  have hs : HasDerivAt (fun s : ℝ => exp (-s / 1200)) (exp (-s / 1200) * (-1 / 1200)) s :=
    (((hasDerivAt_id s).neg).div_const 1200).exp
  have ht : HasDerivAt (fun s : ℝ => 1200 * exp (s / 1200)) (1200 * (exp (s / 1200) * (1 / 1200))) s :=
    (((hasDerivAt_id s).div_const 1200).exp.const_mul 1200)
  have hx : exp (s / 1200) * exp (-s / 1200) = 1 := by rw [← exp_add]; ring_nf; exact exp_zero
  have hd : (F1.roadCurvilinear F1.exStraight (F1.setState F1.exCar (exCoast s) fun _ => 0)).dtimeds = exp (s / 1200) := by
    simp [F1.roadCurvilinear, Road.update, curvature, F1.exStraight, F1.setState, exCoast, F1.roadStart,
      F1.chassisStart, F1.loadStart, F1.rearStart, F1.frontStart]
    rw [← Real.exp_neg]
    congr 1
    ring
  have hl := fun s => (f1_level F1.exCar exLevel (exCoast s) fun _ => 0).1
  obtain ⟨-, e1, e2, e3⟩ := f1_level F1.exCar exLevel (exCoast s) fun _ => 0
  obtain ⟨k1, k2, k3⟩ := exCoast_force s
  intro k hk
  simp only [List.mem_cons, List.not_mem_nil, or_false] at hk
  rcases hk with rfl | rfl | rfl | rfl <;>
  simp only [F1.equationsCurvilinear, F1.evaluate, F1.allStates, F1.axleState, Chassis.state, List.cons_append,
    List.nil_append, List.map_cons, List.map_nil, List.getD_cons_succ, List.getD_cons_zero, hl, hd]
  · simp only [exCoast, reduceIte]
    refine hs.congr_deriv ?_
    rw [e1, show (f1Track F1.exCar F1.exStraight (exCoast s) fun _ => 0).chassis.force.1 = _ from k1]
    norm_num [exCoast, F1.exCar]
    linear_combination (exp (-s / 1200) / 1200) * hx
  · refine (hasDerivAt_const s (0 : ℝ)).congr_deriv ?_
    rw [e2, show (f1Track F1.exCar F1.exStraight (exCoast s) fun _ => 0).chassis.force.2.1 = _ from k2]
    norm_num [exCoast]
  · refine (hasDerivAt_const s (0 : ℝ)).congr_deriv ?_
    rw [e3, k3, zero_div, zero_mul]
  · refine ht.congr_deriv ?_
    show _ = 1 * _
    ring

/-- C235: the reported acceleration of that car. -/
example (s : ℝ) : value (values (f1Track F1.exCar F1.exStraight (exCoast s) fun _ => 0)) "chassis.acceleration.x"
    = -(exp (-s / 1200)) ^ 2 / 1200 := by
  obtain ⟨⟨dt, du, dv, ht, hu, hv, hV, -⟩, -⟩ := C235_f1 F1.exCar (fun _ => F1.exStraight) (fun _ => exLevel) exCoast
    (fun _ _ => 0) s (exCoast_obeys s) (.inl (by simp [exCoast, exp_ne_zero])) (by norm_num [F1.exCar])
  have e : ∀ s : ℝ, √(exCoast s 4 ^ 2 + exCoast s 5 ^ 2) = exp (-s / 1200) := by
    intro s
    simp [exCoast, Real.sqrt_sq (exp_pos _).le]
  simp only [e] at hV
  have hs : HasDerivAt (fun s : ℝ => exp (-s / 1200)) (exp (-s / 1200) * (-1 / 1200)) s :=
    (((hasDerivAt_id s).neg).div_const 1200).exp
  have ht' : HasDerivAt (fun s : ℝ => exCoast s 11) (1200 * (exp (s / 1200) * (1 / 1200))) s := by
    simpa [exCoast] using (((hasDerivAt_id s).div_const 1200).exp.const_mul 1200)
  have h := hV.unique hs
  rw [ht.unique ht'] at h
  have hx : exp (s / 1200) * exp (-s / 1200) = 1 := by rw [← exp_add]; ring_nf; exact exp_zero
  have hn := exp_ne_zero (s / 1200)
  refine mul_right_cancel₀ hn ?_
  linear_combination h + (exp (-s / 1200) / 1200) * hx

theorem kart_obeys (solve : Vec3 × Vec3 × Vec3 → Vec3 → Vec3) (c : Kart.Vehicle) (f : TrackPoint) (q0 u : Nat → ℝ) :
    ∃ q : ℝ → Nat → ℝ, q 0 = q0 ∧ Obeys (fun s => Kart.evaluate solve c (Kart.setState (q s) u)
      (Kart.roadCurvilinear f (Kart.setState (q s) u))) [1, 2, 3, 10] 0 := by
  obtain ⟨d, hd⟩ : ∃ d : Nat → ℝ, d = fun k => (Kart.evaluate solve c (Kart.setState q0 u)
    (Kart.roadCurvilinear f (Kart.setState q0 u))).dstates.getD k 0 := ⟨_, rfl⟩
  have h0 : (fun k => q0 k + 0 * d k) = q0 := funext fun k => by rw [zero_mul, add_zero]
  refine ⟨fun s k => q0 k + s * d k, h0, fun k hk => ?_⟩
  have h : HasDerivAt (fun s => q0 k + s * d k) (d k) 0 := by
    simpa using ((hasDerivAt_id (0 : ℝ)).mul_const (d k)).const_add (q0 k)
  beta_reduce
  rw [h0]
  have e : (fun s : ℝ => (Kart.evaluate solve c (Kart.setState (fun k => q0 k + s * d k) u)
      (Kart.roadCurvilinear f (Kart.setState (fun k => q0 k + s * d k) u))).states.getD k 0)
      = fun s => q0 k + s * d k := by
    funext s
    simp only [List.mem_cons, List.not_mem_nil, or_false] at hk
    rcases hk with rfl | rfl | rfl | rfl <;> rfl
  rw [e]
  exact h.congr_deriv (congrFun hd k)

/-- C235: a kart that starts a turn at 10 m/s with whatever other inputs. -/
example (u : Nat → ℝ) (q0 : Nat → ℝ) (h1 : q0 1 = 10) : ∃ q : ℝ → Nat → ℝ, q 0 = q0 ∧
    ∃ dt, HasDerivAt (fun s => q s 10) dt 0 ∧ HasDerivAt (fun s => q s 3)
      (value (values (kartTrack Kart.cramer Kart.exKart F1.exStraight (q 0) u)) "chassis.acceleration.yaw" * dt) 0 := by
  obtain ⟨q, hq, h⟩ := kart_obeys Kart.cramer Kart.exKart F1.exStraight q0 u
  exact ⟨q, hq, (C235_kart Kart.cramer Kart.exKart (fun _ => F1.exStraight) q (fun _ => u) 0 h
    (.inl (by rw [hq, h1]; norm_num))).2⟩

end Verif.Outputs
