import Verif.Lemmas.Kart
import Verif.Lemmas.Tyre
import Verif.Props.Powertrain
import Mathlib.Analysis.Real.Pi.Bounds

/-! # Properties of the kart: dynamics -/

set_option autoImplicit false

namespace Verif.Kart

open Verif.Road Verif.Chassis Real
open Verif.F1 (RoadKind WheelOut DEG KMH)

variable {solve : Vec3 × Vec3 × Vec3 → Vec3 → Vec3} {c : Vehicle}

/-- A kart for the examples: front tyres free to roll. -/
noncomputable def exKart : Vehicle :=
  { g0 := 10
    mass := 160
    I := ((12, 0, 1), (0, 20, 0), (1, 0, 25))
    aero := ⟨6 / 5, 1, 0, 1, 0, 0⟩
    xCom := (0, 0, -(3 / 10))
    xFront := (6 / 10, 0, 1 / 10)
    xRear := (-(4 / 10), 0, 1 / 10)
    front := ⟨⟨true, 1, 100000, 0, 100000, 139 / 1000, -(1 / 10), 1 / 10⟩, true, 1000, fun x => max x 0,
      ⟨560, 1, 1, 0, 20, 0, 0, 1, 2, 0, 30, 1, 1, 1, 1, 1, 1, 1 / 10 ^ 6⟩⟩
    rear := ⟨⟨false, 12 / 10, 100000, 0, 100000, 139 / 1000, 0, 0⟩, false, 1000, fun x => max x 0,
      ⟨560, 1, 1, 0, 20, 0, 0, 1, 2, 0, 30, 1, 1, 1, 1, 1, 1, 1 / 10 ^ 6⟩⟩
    IAxle := 1 / 2
    power := ⟨fun x => max x 0, fun x => x, 100, 0, ⟨true, false, 1, 0, fun _ => 0, 0, 0⟩,
      ⟨true, false, 1, 0, fun _ => 0, 0, 0⟩⟩ }

/-- A state for the examples: a turn at 10 m/s. -/
noncomputable def exMembers : Members := ⟨80, 10, -1, 2, 2 / 100, 1 / 100, 0, 0, 0, 0, 1 / 10, 0, 3, 4, 5⟩

theorem exKart_regular : exKart.Regular (3 / 10) 12 20 25 1 := ⟨rfl, rfl⟩

theorem det_eulerM (c : Vehicle) (m : Members) : det (eulerM c m) =
    c.I.2.1.2.1 * (c.I.1.1 * c.I.2.2.2.2 - c.I.1.2.2 ^ 2 + (c.I.1.1 + c.I.2.2.2.2) * c.I.1.2.2 * m.mu) := by
  simp only [det, eulerM, dot, cross]
  ring

theorem det_exKart (m : Members) (h : m.mu = 0) : det (eulerM exKart m) ≠ 0 := by
  rw [det_eulerM, h]
  norm_num [exKart]

/-- A solver for the examples: Cramer's rule. -/
noncomputable def cramer (M : Vec3 × Vec3 × Vec3) (b : Vec3) : Vec3 :=
  (1 / det M) • (b.1 • cross M.2.1 M.2.2 + b.2.1 • cross M.2.2 M.1 + b.2.2 • cross M.1 M.2.1)

theorem cramer_solver : Solver cramer := by
  intro M b h
  simp only [cramer]
  have key : ∀ k x : Vec3, dot k ((1 / det M) • x) = dot k x / det M := fun k x => by
    simp only [dot, Prod.smul_fst, Prod.smul_snd, smul_eq_mul]; ring
  simp only [mulVec, key]
  refine vec_ext ?_ ?_ ?_ <;> rw [div_eq_iff h] <;>
    simp only [det, dot, cross, Prod.smul_fst, Prod.smul_snd, Prod.fst_add, Prod.snd_add, smul_eq_mul] <;> ring

/-! ## C155: momentum -/

/-- C155: as the kart moves, its centre of mass has the velocity `(u, v, dz)` in the axes of the kart, and its
momentum changes by the sum of the forces of tyres, air and weight. -/
theorem C155_momentum {m : ℝ → Members} {t : ℝ} (hx : c.xCom.1 = 0) (hy : c.xCom.2.1 = 0) (hm : c.mass ≠ 0)
    (h : Follows solve c m t) :
    HasDerivAt (fun s => place (m s) (comPosition c (m s))) (world (m t).road3 ((m t).u, (m t).v, (m t).dz)) t ∧
    HasDerivAt (fun s => c.mass • world (m s).road3 ((m s).u, (m s).v, (m s).dz))
      (world (m t).road3 ((applied c (m t) (m t).road3).map Prod.snd).sum) t := by
  have d := h.derivs
  constructor
  · have hc : HasDerivAt (fun s => comPosition c (m s)) (0, 0, (m t).dz) t := by
      refine hasDerivAt_vec ?_ ?_ ?_ <;> simp only [comPosition, Prod.fst_add, Prod.snd_add]
      · exact hasDerivAt_const _ _
      · exact hasDerivAt_const _ _
      · exact d.z.const_add _
    refine (place_deriv d hc).congr_deriv ?_
    congr 1
    apply vec_ext <;> simp [comPosition, cross, hx, hy]
  · have hv : HasDerivAt (fun s => (((m s).u, (m s).v, (m s).dz) : Vec3)) (dvdt c (m t) (m t).road3) t :=
      hasDerivAt_vec d.u d.v d.dz
    refine ((rotZ_deriv d.road3 hv).const_smul c.mass).congr_deriv ?_
    rw [← totalForce_applied, newton_balance hm, ← rotZ_smul, world]
    congr 2
    apply vec_ext <;> simp [newtonLhs, cross, cartesian]

example : ∃ m : ℝ → Members, m 0 = exMembers ∧
    HasDerivAt (fun s => exKart.mass • world (m s).road3 ((m s).u, (m s).v, (m s).dz))
      (world (m 0).road3 ((applied exKart (m 0) (m 0).road3).map Prod.snd).sum) 0 := by
  obtain ⟨m, h0, h, -⟩ := exists_follows cramer exKart exMembers (fun _ => 1 / 10) rfl
  exact ⟨m, h0, (C155_momentum rfl rfl (by norm_num [exKart]) h).2⟩

/-- C155 fails for a centre of mass that is not over the origin of the road frame: its velocity is not
`(u, v, dz)` while the kart turns. -/
theorem C155_off_centre_false {m : ℝ → Members} {t : ℝ} (hx : c.xCom.1 ≠ 0) (ho : (m t).omega ≠ 0)
    (h : Follows solve c m t) :
    ¬ HasDerivAt (fun s => place (m s) (comPosition c (m s))) (world (m t).road3 ((m t).u, (m t).v, (m t).dz)) t := by
  have d := h.derivs
  have hc : HasDerivAt (fun s => comPosition c (m s)) (0, 0, (m t).dz) t := by
    refine hasDerivAt_vec ?_ ?_ ?_ <;> simp only [comPosition, Prod.fst_add, Prod.snd_add]
    · exact hasDerivAt_const _ _
    · exact hasDerivAt_const _ _
    · exact d.z.const_add _
  intro h'
  have e := congrArg (fun x : Vec3 => x.2.1) (rotZ_inj (h'.unique (place_deriv d hc)))
  simp only [comPosition, cross, Prod.fst_add, Prod.snd_add, add_zero, zero_mul, sub_zero] at e
  exact (mul_ne_zero ho hx) (by linarith)

example : ∃ m : ℝ → Members, Follows cramer { exKart with xCom := (1, 0, -1) } m 0 ∧ (m 0).omega ≠ 0 := by
  obtain ⟨m, h0, h, -⟩ := exists_follows cramer { exKart with xCom := (1, 0, -1) } exMembers (fun _ => 1 / 10) rfl
  exact ⟨m, h, by rw [h0]; norm_num [exMembers]⟩

/-! ## C156: angular momentum -/

/-- C156: the moment of all forces about the centre of mass is the rate of change of the angular momentum, to
first order in roll and pitch. Partial: only if the kart is not displaced vertically, or has no lateral
velocity and no lateral acceleration in its own axes; see `C156_moment_false`. -/
theorem C156_moment_partial (hs : Solver solve) {h Ixx Iyy Izz Ixz : ℝ} (hc : c.Regular h Ixx Iyy Izz Ixz)
    (hm : c.mass ≠ 0) {m : ℝ → Members} {t : ℝ} (hf : Follows solve c m t) (hdet : det (eulerM c (m t)) ≠ 0)
    (hz : (m t).z = 0 ∨ (m t).v = 0 ∧ HasDerivAt (fun s => (m s).v) 0 t) :
    FirstOrderRate Ixx Iyy Izz Ixz m t (moment (comPosition c (m t)) (applied c (m t) (m t).road3)) := by
  rw [firstOrderRate_iff hf.derivs, moment_defect hs hc hm _ _ hdet]
  rcases hz with hz | ⟨hv, hv'⟩
  · simp [hz]
  · rw [hf.derivs.v.unique hv', hv]
    simp

/-- C156: what is missing in general: the mass times the vertical displacement times the lateral acceleration
and `omega v`. -/
theorem C156_moment_defect (hs : Solver solve) {h Ixx Iyy Izz Ixz : ℝ} (hc : c.Regular h Ixx Iyy Izz Ixz)
    (hm : c.mass ≠ 0) {m : ℝ → Members} {t dv : ℝ} (hf : Follows solve c m t) (hdet : det (eulerM c (m t)) ≠ 0)
    (hv : HasDerivAt (fun s => (m s).v) dv t) :
    FirstOrderRate Ixx Iyy Izz Ixz m t (moment (comPosition c (m t)) (applied c (m t) (m t).road3)
      - (c.mass * (m t).z) • (dv, (m t).omega * (m t).v, 0)) := by
  rw [firstOrderRate_iff hf.derivs, moment_defect hs hc hm _ _ hdet, hf.derivs.v.unique hv]
  abel

/-- C156 is false: whenever a kart that turns is displaced vertically and has a lateral velocity, the moment of
the forces is not the rate of change of its angular momentum. -/
theorem C156_moment_false (hs : Solver solve) {h Ixx Iyy Izz Ixz : ℝ} (hc : c.Regular h Ixx Iyy Izz Ixz)
    (hm : c.mass ≠ 0) {m : ℝ → Members} {t : ℝ} (hf : Follows solve c m t) (hdet : det (eulerM c (m t)) ≠ 0)
    (hz : (m t).z ≠ 0) (ho : (m t).omega ≠ 0) (hv : (m t).v ≠ 0) :
    ¬ FirstOrderRate Ixx Iyy Izz Ixz m t (moment (comPosition c (m t)) (applied c (m t) (m t).road3)) := by
  rw [firstOrderRate_iff hf.derivs, moment_defect hs hc hm _ _ hdet]
  intro e
  have e2 := congrArg (fun x : Vec3 => x.2.1) (add_eq_left.1 e)
  simp only [Prod.smul_mk, smul_eq_mul, Prod.snd_zero, Prod.fst_zero] at e2
  exact mul_ne_zero (mul_ne_zero hm hz) (mul_ne_zero ho hv) e2

example : ∃ m : ℝ → Members, m 0 = exMembers ∧ Follows cramer exKart m 0 ∧ ¬ FirstOrderRate 12 20 25 1 m 0
    (moment (comPosition exKart (m 0)) (applied exKart (m 0) (m 0).road3)) := by
  obtain ⟨m, h0, h, -⟩ := exists_follows cramer exKart exMembers (fun _ => 1 / 10) rfl
  refine ⟨m, h0, h, C156_moment_false cramer_solver exKart_regular (by norm_num [exKart]) h ?_ ?_ ?_ ?_⟩
  · rw [h0]; exact det_exKart _ rfl
  all_goals rw [h0]; norm_num [exMembers]

example : ∃ m : ℝ → Members, (m 0).u = 10 ∧ (m 0).phi = 1 / 100 ∧ FirstOrderRate 12 20 25 1 m 0
    (moment (comPosition exKart (m 0)) (applied exKart (m 0) (m 0).road3)) := by
  obtain ⟨m, h0, h, -⟩ := exists_follows cramer exKart { exMembers with z := 0 } (fun _ => 1 / 10) rfl
  refine ⟨m, by rw [h0]; rfl, by rw [h0]; rfl,
    C156_moment_partial cramer_solver exKart_regular (by norm_num [exKart]) h ?_ ?_⟩
  · rw [h0]; exact det_exKart _ rfl
  · rw [h0]; exact Or.inl rfl

/-! ## C157: the accelerations are determined -/

/-- C157: whatever solver of linear systems is used, the equations give the same derivatives. Partial: if the
product of inertia is small enough; see `C157_determined_false`. -/
theorem C157_determined_partial {solve' : Vec3 × Vec3 × Vec3 → Vec3 → Vec3} (hs : Solver solve) (hs' : Solver solve')
    {h Ixx Iyy Izz Ixz : ℝ} (hc : c.Regular h Ixx Iyy Izz Ixz) (hy : 0 < Iyy) (hx : 0 < Ixx) (hz : 0 < Izz)
    (hp : Ixz ^ 2 + (Ixx + Izz) * |Ixz| * (30 * DEG) < Ixx * Izz) (m : Members) (hmu : |m.mu| ≤ 30 * DEG)
    (r : RoadOut) : evaluate solve c m r = evaluate solve' c m r := by
  have hdet : det (eulerM c m) ≠ 0 := by
    rw [det_eulerM, hc.inertia]
    refine mul_ne_zero hy.ne' (ne_of_gt ?_)
    have h1 : -((Ixx + Izz) * Ixz * m.mu) ≤ (Ixx + Izz) * |Ixz| * (30 * DEG) := by
      have h2 := neg_le_abs ((Ixx + Izz) * Ixz * m.mu)
      rw [abs_mul, abs_mul, abs_of_pos (add_pos hx hz)] at h2
      exact h2.trans (mul_le_mul_of_nonneg_left hmu (mul_nonneg (add_pos hx hz).le (abs_nonneg _)))
    show 0 < Ixx * Izz - Ixz ^ 2 + (Ixx + Izz) * Ixz * m.mu
    linarith
  have key : ∀ b, solve (eulerM c m) b = solve' (eulerM c m) b := by
    intro b
    have e : mulVec (eulerM c m) (solve (eulerM c m) b) = mulVec (eulerM c m) (solve' (eulerM c m) b) := by
      rw [hs _ _ hdet, hs' _ _ hdet]
    exact mulVec_inj hdet e
  simp only [evaluate, allStates, angularAcceleration, key]

/-- C157 is false for a kart with a large product of inertia, though its inertia is that of a rigid body (the
eigenvalues of its matrix are 1/5, 9/5 and 9/5): there is a pitch within the limits of the input for which the
accelerations depend on how the linear system is solved. -/
theorem C157_determined_false (hc : c.I = ((1, 0, 4 / 5), (0, 9 / 5, 0), (4 / 5, 0, 1))) (m : Members)
    (hm : m.mu = -(9 / 40)) (r : RoadOut) (hr : r.dtimeds ≠ 0) :
    |m.mu| ≤ 30 * DEG ∧ ∃ solve solve', Solver solve ∧ Solver solve' ∧ evaluate solve c m r ≠ evaluate solve' c m r := by
  have hdet : det (eulerM c m) = 0 := by rw [det_eulerM, hc, hm]; norm_num
  refine ⟨?_, cramer, fun M b => if det M = 0 then cramer M b + (1, 0, 0) else cramer M b, cramer_solver, ?_, ?_⟩
  · rw [hm, abs_neg, abs_of_pos (by norm_num)]
    have := pi_gt_three
    simp only [DEG]
    linarith
  · intro M b hM
    simp only [hM, if_false]
    exact cramer_solver M b hM
  · intro e
    have e1 := congrArg (fun x : F1.Equations => x.dstates.getD 8 0) e
    simp only [evaluate, allStates, angularAcceleration, hdet, if_true, List.map_cons, List.getD_cons_succ,
      List.getD_cons_zero, Prod.fst_add] at e1
    have := mul_right_cancel₀ hr e1
    linarith

example (m : Members) (hmu : |m.mu| ≤ 30 * DEG) (hs : Solver solve) :
    evaluate solve exKart m (roadCartesian m) = evaluate cramer exKart m (roadCartesian m) :=
  C157_determined_partial hs cramer_solver exKart_regular (by norm_num) (by norm_num) (by norm_num)
    (by have := pi_lt_d2; simp only [DEG, abs_one]; linarith) m hmu _

/-! ## C158: the motion of the tyres -/

/-- C158: the velocity from which slips are computed is that of the wheel, turned by its steering angle; the load
comes from the deformation of the tyre and its rate of change; the contact point is on the ground. Partial: while
the steering angle does not change; see `C158_wheel_motion_false`. -/
theorem C158_wheel_motion_partial {m : ℝ → Members} {t : ℝ} (h : Follows solve c m t)
    (hd : ∀ s, (m s).steering = (m t).steering) (k : Corner) :
    ∃ dw, HasDerivAt (fun s => place (m s) (k.hub c (m s)))
        (world (m t).road3 (rotZ (k.angle (m t)) ((k.wheel c (m t)).kin.vx, (k.wheel c (m t)).kin.vy, dw))) t ∧
      HasDerivAt (fun s => (k.wheel c (m s)).kin.w) dw t ∧
      (k.wheel c (m t)).Fz = (k.tyre c).sp ((k.tyre c).susp.kTire * (k.wheel c (m t)).kin.w + (k.tyre c).ct * dw) ∧
      (k.hub c (m t) + (0, 0, (k.tyre c).susp.R0 - (k.wheel c (m t)).kin.w)).2.2 = 0 := by
  have d := h.derivs
  have hF : ∀ s, frontAxle c (m s) = axleUpdate c (m s) c.front c.xFront (m t).steering 0 := fun s => by
    simp only [frontAxle, hd]
  cases k
  · exact (wheel_motion d hF).1
  · exact (wheel_motion d hF).2
  · exact (wheel_motion d (om := fun s => (m s).omegaAxle) fun s => rfl).1
  · exact (wheel_motion d (om := fun s => (m s).omegaAxle) fun s => rfl).2

example : ∃ m : ℝ → Members, m 0 = exMembers ∧ ∃ dw,
    HasDerivAt (fun s => (Corner.frontLeft.wheel exKart (m s)).kin.w) dw 0 := by
  obtain ⟨m, h0, h, hd⟩ := exists_follows cramer exKart exMembers (fun _ => 1 / 10) rfl
  obtain ⟨dw, -, hw, -⟩ := C158_wheel_motion_partial h (fun s => by rw [hd, hd]) .frontLeft
  exact ⟨m, h0, dw, hw⟩

/-- C158 is false while the wheels are being steered: the load of the right front tyre does not take account of the
rate at which the steering moves the wheel up or down. -/
theorem C158_wheel_motion_false : ∃ (m : ℝ → Members) (dw : ℝ), Follows cramer exKart m 0 ∧
    HasDerivAt (fun s => (Corner.frontRight.wheel exKart (m s)).kin.w) dw 0 ∧
    (Corner.frontRight.wheel exKart (m 0)).Fz ≠
      exKart.front.sp (exKart.front.susp.kTire * (Corner.frontRight.wheel exKart (m 0)).kin.w + exKart.front.ct * dw) := by
  obtain ⟨m, h0, h, hd⟩ := exists_follows cramer exKart
    { exMembers with z := 1 / 10, phi := 0, steering := 0 } (fun s => s) rfl
  have d := h.derivs
  have hs : HasDerivAt (fun s => (m s).steering) 1 0 := by
    simp only [hd]
    exact hasDerivAt_id _
  have hh := tyreHeight_deriv exKart.front.susp rfl (hasDerivAt_comp (axlePosition_deriv d exKart.xFront)).2.2 d.phi hs
  have hk := fun s => wheelUpdate_kin exKart.front (comPosition exKart (m s) + axlePosition exKart.xFront (m s))
      ((0, 0, (m s).dz) + axleVelocity exKart.xFront (m s)) (1 / 2 * exKart.front.susp.track)
      (Power.tyreHeight exKart.front.susp (comPosition exKart (m s) + axlePosition exKart.xFront (m s)).2.2 (m s).phi
        (m s).steering).2
      (Power.tyreVelocity exKart.front.susp ((0, 0, (m s).dz) + axleVelocity exKart.xFront (m s)).2.2 (m s).dphi).2
      (m s).steering (m s).u (m s).v (m s).omega 0
  have hw : HasDerivAt (fun s => (Corner.frontRight.wheel exKart (m s)).kin.w) (1 / 20) 0 := by
    have e : (fun s => (Corner.frontRight.wheel exKart (m s)).kin.w)
        = fun s => (comPosition exKart (m s) + axlePosition exKart.xFront (m s)).2.2
          + (Power.tyreHeight exKart.front.susp (comPosition exKart (m s) + axlePosition exKart.xFront (m s)).2.2
              (m s).phi (m s).steering).2 + exKart.front.susp.R0 := by
      funext s
      exact (hk s).2.1
    rw [e]
    refine (((hasDerivAt_comp (axlePosition_deriv d exKart.xFront)).2.2.add hh).add_const _).congr_deriv ?_
    rw [h0]
    norm_num [axleVelocity, exMembers, exKart, Power.tyreVelocity, Power.chassisDeformation, Power.tyreDeformation,
      Power.displRates, Power.symK, Power.asymK]
  refine ⟨m, 1 / 20, h, hw, ?_⟩
  have e1 : (Corner.frontRight.wheel exKart (m 0)).kin.w = 39 / 2000 := by
    refine (hk 0).2.1.trans ?_
    rw [h0]
    norm_num [comPosition, axlePosition, exMembers, exKart, Power.tyreHeight, Power.chassisDeformation,
      Power.tyreDeformation, Power.displSym, Power.displAsym, Power.symK, Power.asymK]
  have e2 : (Corner.frontRight.wheel exKart (m 0)).Fz = 1950 := by
    refine (hk 0).2.2.1.trans ?_
    have : (wheelUpdate exKart.front (comPosition exKart (m 0) + axlePosition exKart.xFront (m 0))
      ((0, 0, (m 0).dz) + axleVelocity exKart.xFront (m 0)) (1 / 2 * exKart.front.susp.track)
      (Power.tyreHeight exKart.front.susp (comPosition exKart (m 0) + axlePosition exKart.xFront (m 0)).2.2 (m 0).phi
        (m 0).steering).2
      (Power.tyreVelocity exKart.front.susp ((0, 0, (m 0).dz) + axleVelocity exKart.xFront (m 0)).2.2 (m 0).dphi).2
      (m 0).steering ((m 0).u, (m 0).v, 0) (0, 0, (m 0).omega) 0).kin.w = 39 / 2000 := e1
    rw [this, h0]
    norm_num [axleVelocity, exMembers, exKart, Power.tyreVelocity, Power.chassisDeformation, Power.tyreDeformation,
      Power.displRates, Power.symK, Power.asymK]
  rw [e1, e2]
  norm_num [exKart]

/-! ## C159: the front wheels -/

/-- C159: the front tyres, of type "only lateral", roll freely: no longitudinal slip and no longitudinal force. -/
theorem C159_front_rolls (h : c.front.onlyLateral = true) (hR : c.front.susp.R0 ≠ 0) (m : Members) (k : Corner)
    (hk : k = .frontLeft ∨ k = .frontRight) (hv : (k.wheel c m).kin.vx ≠ 0) :
    (k.wheel c m).kin.kappa = 0 ∧ (k.wheel c m).Fx = 0 ∧
      (k.wheel c m).kin.omega * c.front.susp.R0 = (k.wheel c m).kin.vx := by
  have key : ∀ o : WheelOut, o.kin.kappa = 0 → o.Fx = Tyre.stdX c.front.std o.kin.kappa o.kin.lambda o.Fz →
      o.Fx = 0 := fun o h1 h2 => by
    rw [h2, h1, Tyre.stdX, Tyre.stdPureX, Tyre.magic_zero]
    simp
  have h1 : (k.wheel c m).kin.omega * c.front.susp.R0 = (k.wheel c m).kin.vx := by
    rcases hk with rfl | rfl <;>
      simp only [Corner.wheel, frontAxle, axleUpdate, wheelUpdate, Tyre.updateOmega, h, if_true] <;>
      exact div_mul_cancel₀ _ hR
  have h2 : (k.wheel c m).kin.kappa
      = ((k.wheel c m).kin.omega * c.front.susp.R0 - (k.wheel c m).kin.vx) / (k.wheel c m).kin.vx := by
    rcases hk with rfl | rfl <;> rfl
  have h3 : (k.wheel c m).kin.kappa = 0 := by rw [h2, h1]; simp
  exact ⟨h3, key _ h3 (by rcases hk with rfl | rfl <;> rfl), h1⟩

example : (Corner.frontLeft.wheel exKart { exMembers with steering := 0, phi := 0 }).Fx = 0 :=
  (C159_front_rolls rfl (by norm_num [exKart]) _ _ (Or.inl rfl)
    (by norm_num [Corner.wheel, frontAxle, axleUpdate, wheelUpdate, Tyre.updateOmega, exKart, exMembers, rotZ, cross,
          comPosition, axlePosition, axleVelocity])).2.1

/-- C159 for front tyres of another type, which is what the type becomes when it is misspelt: they are locked, always
sliding. -/
theorem C159_front_locked_false (h : c.front.onlyLateral = false) (m : Members) (k : Corner)
    (hk : k = .frontLeft ∨ k = .frontRight) (hv : (k.wheel c m).kin.vx ≠ 0) :
    (k.wheel c m).kin.kappa = -1 ∧ (k.wheel c m).kin.omega = 0 := by
  have h1 : (k.wheel c m).kin.omega = 0 := by
    rcases hk with rfl | rfl <;>
      simp [Corner.wheel, frontAxle, axleUpdate, wheelUpdate, Tyre.updateOmega, h]
  have h2 : (k.wheel c m).kin.kappa
      = ((k.wheel c m).kin.omega * c.front.susp.R0 - (k.wheel c m).kin.vx) / (k.wheel c m).kin.vx := by
    rcases hk with rfl | rfl <;> rfl
  refine ⟨?_, h1⟩
  rw [h2, h1, zero_mul, zero_sub, neg_div, div_self hv]

/-! ## C160: steady states -/

/-- C160: a solution of the steady-state equations has the requested longitudinal and lateral accelerations: that is
what the kart reports, and what the forces on it give; it does not accelerate vertically nor in roll, pitch or
yaw. -/
theorem C160_steady_accelerations (hm : c.mass ≠ 0) (junkQ junkU x : Nat → ℝ) (ax ay V : ℝ) (hV : 0 < V)
    (h : F1.Within steadyBounds (steadyEquations solve c junkQ junkU x ax ay V)) :
    let m := setState (F1.written junkQ (steadyInputs x ay V)) (F1.written junkU (steadyControls x))
    longitudinalAcceleration c.mass m.u m.v (totalForce c m m.road3) = ax ∧
    lateralAcceleration c.mass m.u m.v (totalForce c m m.road3) = ay ∧
    world m.road3 ((applied c m m.road3).map Prod.snd).sum = (c.mass * ax, c.mass * ay, 0) ∧
    world m.road3 (m.u, m.v, m.dz) = (V, 0, 0) ∧
    ∀ k ∈ [3, 8, 9], (evaluate solve c m (roadCartesian m)).dstates.getD k 0 = 0 := by
  intro m
  have hM : m = steadyMembers x ay V := setState_steady junkQ junkU x ay V
  clear_value m
  subst hM
  obtain ⟨-, -, hb⟩ := h
  have e : ∀ k, k < 6 → (steadyEquations solve c junkQ junkU x ax ay V).getD k 0 = 0 := by
    intro k hk
    have := hb k (by simp only [steadyEquations, List.length_cons, List.length_nil]; omega)
    match k, hk with
    | 0, _ | 1, _ | 2, _ | 3, _ | 4, _ | 5, _ => exact le_antisymm this.2 this.1
  have e0 := e 0 (by norm_num)
  have e1 := e 1 (by norm_num)
  have e2 := e 2 (by norm_num)
  have e3 := e 3 (by norm_num)
  have e4 := e 4 (by norm_num)
  have e5 := e 5 (by norm_num)
  simp only [steadyEquations, setState_steady, List.getD_cons_zero, List.getD_cons_succ] at e0 e1 e2 e3 e4 e5
  have a0 : (dvdt c (steadyMembers x ay V) (x 4)).2.2 * 1 = 0 := e0
  have a4 : (dvdt c (steadyMembers x ay V) (x 4)).1 * 1 * sin (x 4)
    + (dvdt c (steadyMembers x ay V) (x 4)).2.1 * 1 * cos (x 4) = 0 := e4
  have a5 : ax - (dvdt c (steadyMembers x ay V) (x 4)).1 * 1 * cos (x 4)
    + (dvdt c (steadyMembers x ay V) (x 4)).2.1 * 1 * sin (x 4) = 0 := e5
  have hF : totalForce c (steadyMembers x ay V) (x 4) = _ := newton_balance hm (steadyMembers x ay V) (x 4)
  have hF' : totalForce c (steadyMembers x ay V) (steadyMembers x ay V).road3
    = totalForce c (steadyMembers x ay V) (x 4) := rfl
  rw [← totalForce_applied, hF', hF]
  generalize dvdt c (steadyMembers x ay V) (x 4) = A at a0 a4 a5
  have hsq := sin_sq_add_cos_sq (x 4)
  have hN : √(dot (V * cos (x 4), -V * sin (x 4), 0) (V * cos (x 4), -V * sin (x 4), 0)) = V := by
    rw [show dot (V * cos (x 4), -V * sin (x 4), 0) (V * cos (x 4), -V * sin (x 4), 0) = V ^ 2 by
      simp only [dot]; linear_combination V ^ 2 * hsq]
    exact sqrt_sq hV.le
  have hVn := hV.ne'
  refine ⟨?_, ?_, ?_, ?_, ?_⟩
  · simp only [longitudinalAcceleration, steadyMembers, hN]
    rw [smul_smul, one_div_mul_cancel hm, one_smul, div_eq_iff hVn]
    simp only [newtonLhs, dot, cross, Prod.fst_add, Prod.snd_add]
    linear_combination (-V) * a5
  · simp only [lateralAcceleration, steadyMembers, hN]
    rw [smul_smul, one_div_mul_cancel hm, one_smul, div_eq_iff hVn]
    simp only [newtonLhs, cross, Prod.fst_add, Prod.snd_add]
    field_simp
    linear_combination a4 + ay * hsq
  · have hz : (steadyMembers x ay V).omega = ay / V := rfl
    simp only [world, newtonLhs, hz]
    simp only [steadyMembers]
    apply vec_ext <;>
      simp only [rotZ, cross, Prod.fst_add, Prod.snd_add, Prod.smul_fst, Prod.smul_snd, smul_eq_mul]
    · field_simp
      linear_combination (-1) * a5
    · field_simp
      linear_combination a4 + ay * hsq
    · linear_combination c.mass * a0
  · simp only [world, steadyMembers]
    apply vec_ext <;> simp only [rotZ]
    · linear_combination V * hsq
    · ring
  · intro k hk
    simp only [List.mem_cons, List.not_mem_nil, or_false] at hk
    rcases hk with rfl | rfl | rfl
    · exact e1
    · exact e2
    · exact e3

/-- C161: in a steady state without longitudinal acceleration the velocities, the yaw rate, the height and the
attitude of the kart do not change. Partial: the speed of the rear axle does; see `C161_steady_held_false`. -/
theorem C161_steady_held_partial (hm : c.mass ≠ 0) (junkQ junkU x : Nat → ℝ) (ay V : ℝ) (hV : 0 < V)
    (h : F1.Within steadyBounds (steadyEquations solve c junkQ junkU x 0 ay V)) :
    let m := setState (F1.written junkQ (steadyInputs x ay V)) (F1.written junkU (steadyControls x))
    ∀ k, 1 ≤ k → k ≤ 9 → (evaluate solve c m (roadCartesian m)).dstates.getD k 0 = 0 := by
  intro m k h1 h9
  have key := (C160_steady_accelerations hm junkQ junkU x 0 ay V hV h).2.2.2.2
  change ∀ k ∈ [3, 8, 9], (evaluate solve c m (roadCartesian m)).dstates.getD k 0 = 0 at key
  obtain ⟨-, -, hb⟩ := h
  have e : ∀ k, k < 6 → (steadyEquations solve c junkQ junkU x 0 ay V).getD k 0 = 0 := by
    intro k hk
    have := hb k (by simp only [steadyEquations, List.length_cons, List.length_nil]; omega)
    match k, hk with
    | 0, _ | 1, _ | 2, _ | 3, _ | 4, _ | 5, _ => exact le_antisymm this.2 this.1
  have e0 : (evaluate solve c m (roadCartesian m)).dstates.getD 7 0 = 0 := e 0 (by norm_num)
  have e4 : (evaluate solve c m (roadCartesian m)).dstates.getD 1 0 * sin (x 4)
      + (evaluate solve c m (roadCartesian m)).dstates.getD 2 0 * cos (x 4) = 0 := e 4 (by norm_num)
  have e5 : 0 - (evaluate solve c m (roadCartesian m)).dstates.getD 1 0 * cos (x 4)
      + (evaluate solve c m (roadCartesian m)).dstates.getD 2 0 * sin (x 4) = 0 := e 5 (by norm_num)
  have hM : m = steadyMembers x ay V := setState_steady junkQ junkU x ay V
  have hsq := sin_sq_add_cos_sq (x 4)
  have hz : m.dz * 1 = 0 ∧ m.dphi * 1 = 0 ∧ m.dmu * 1 = 0 := by rw [hM]; simp [steadyMembers]
  match k, h1, h9 with
  | 1, _, _ =>
    generalize (evaluate solve c m (roadCartesian m)).dstates.getD 1 0 = a at *
    generalize (evaluate solve c m (roadCartesian m)).dstates.getD 2 0 = b at *
    linear_combination sin (x 4) * e4 - cos (x 4) * e5 - a * hsq
  | 2, _, _ =>
    generalize (evaluate solve c m (roadCartesian m)).dstates.getD 1 0 = a at *
    generalize (evaluate solve c m (roadCartesian m)).dstates.getD 2 0 = b at *
    linear_combination cos (x 4) * e4 + sin (x 4) * e5 - b * hsq
  | 3, _, _ => exact key 3 (by simp)
  | 4, _, _ => exact hz.1
  | 5, _, _ => exact hz.2.1
  | 6, _, _ => exact hz.2.2
  | 7, _, _ => exact e0
  | 8, _, _ => exact key 8 (by simp)
  | 9, _, _ => exact key 9 (by simp)

/-- The longitudinal force of a tyre with 10 % slip and a load of 1000 N, for the next theorem. -/
noncomputable def exForce : ℝ := Tyre.stdX exKart.rear.std (1 / 10) 0 1000

theorem exForce_pos : 0 < exForce := by
  have hB : Tyre.stdBx exKart.rear.std 1000 = 20 := by norm_num [Tyre.stdBx, Tyre.dfz, exKart]
  simp only [exForce, Tyre.stdX, Tyre.stdPureX, hB]
  norm_num [exKart, Tyre.magic]

/-- A kart that runs straight at 10 m/s, its drag balanced by the rear tyres. -/
noncomputable def straightKart : Vehicle :=
  { exKart with
    mass := 400
    I := ((12, 0, 0), (0, 20, 0), (0, 0, 25))
    aero := ⟨1, exForce / 25, 0, 1, 0, 0⟩
    xFront := (4 / 10 - 28 / 100000 * exForce, 0, 161 / 1000)
    xRear := (-(4 / 10), 0, 161 / 1000) }

/-- Its steady state: 10 % longitudinal slip and 2 cm of vertical displacement. -/
noncomputable def straightX (k : Nat) : ℝ := ([1 / 10, 2 / 100] : List ℝ).getD k 0

theorem straight_members : steadyMembers straightX 0 10
    = ⟨11 / 10 * 10 / (139 / 1000), 10, 0, 0, 2 / 100, 0, 0, 0, 0, 0, 0, 0, 0, 0, 0⟩ := by
  norm_num [steadyMembers, straightX]

theorem straight_wheel (a : AxleK) (hs : a.susp.R0 = 139 / 1000) (hk : a.susp.kTire = 100000)
    (hsp : a.sp = fun x => max x 0) (x y om : ℝ) :
    let o := wheelUpdate a (x, 0, -(119 / 1000)) 0 y (-(1 / 100)) 0 0 (10, 0, 0) 0 om
    o.kin.w = 1 / 100 ∧ o.kin.lambda = 0 ∧ o.Fz = 1000 ∧ o.Fy = 0 ∧ o.Fx = Tyre.stdX a.std o.kin.kappa 0 1000 ∧
    o.kin.kappa = ((if a.onlyLateral then 10 / (139 / 1000) else om) * (139 / 1000) - 10) / 10 ∧
    o.kin.R0 = 139 / 1000 ∧
    o.wheel = ⟨(o.Fx, 0, -1000), (0, (139 / 1000 - 1 / 100) * o.Fx, 0), 0, (0, y, -(1 / 100))⟩ := by
  intro o
  have h1 : o.kin.w = 1 / 100 := by
    simp only [o, wheelUpdate, Tyre.updateOmega, hs]; norm_num
  have h2 : o.kin.lambda = 0 := by
    simp [o, wheelUpdate, Tyre.updateOmega, rotZ, cross]
  have h3 : o.Fz = 1000 := by
    have : o.Fz = a.sp (a.susp.kTire * o.kin.w + a.ct * 0) := by
      simp [o, wheelUpdate, Tyre.updateOmega, cross]
    rw [this, h1, hk, hsp]; norm_num
  have h4 : o.Fy = 0 := by
    have : o.Fy = Tyre.stdY a.std o.kin.kappa o.kin.lambda o.Fz := rfl
    rw [this, h2, Tyre.stdY, Tyre.stdPureY, Tyre.magic_zero]; simp
  have h5 : o.Fx = Tyre.stdX a.std o.kin.kappa 0 1000 := by
    have : o.Fx = Tyre.stdX a.std o.kin.kappa o.kin.lambda o.Fz := rfl
    rw [this, h2, h3]
  have h6 : o.kin.kappa = ((if a.onlyLateral then 10 / (139 / 1000) else om) * (139 / 1000) - 10) / 10 := by
    have e : o.kin.kappa = ((if a.onlyLateral then o.kin.vx / a.susp.R0 else om) * a.susp.R0 - o.kin.vx) / o.kin.vx := rfl
    have e2 : o.kin.vx = 10 := by simp [o, wheelUpdate, Tyre.updateOmega, rotZ, cross]
    rw [e, e2, hs]
  have h7 : o.kin.R0 = 139 / 1000 := hs
  refine ⟨h1, h2, h3, h4, h5, h6, h7, ?_⟩
  have e : o.wheel = ⟨(Tyre.forceTorque o.kin o.Fx o.Fy o.Fz).1, (Tyre.forceTorque o.kin o.Fx o.Fy o.Fz).2, 0,
    (0, y, -(1 / 100))⟩ := rfl
  rw [e]
  simp [Tyre.forceTorque, h1, h3, h4, h7]

theorem straight_axle (a : AxleK) (hs : a.susp.R0 = 139 / 1000) (hk : a.susp.kTire = 100000)
    (hkc : a.susp.kChassis = 100000) (hka : a.susp.kAntiroll = 0)
    (x om : ℝ) : axleUpdate straightKart (steadyMembers straightX 0 10) a (x, 0, 161 / 1000) 0 om =
    let l := wheelUpdate a (x, 0, -(119 / 1000)) 0 (-(1 / 2) * a.susp.track) (-(1 / 100)) 0 0 (10, 0, 0) 0 om
    let r := wheelUpdate a (x, 0, -(119 / 1000)) 0 (1 / 2 * a.susp.track) (-(1 / 100)) 0 0 (10, 0, 0) 0 om
    ⟨l, r, axleForces l.wheel r.wheel, (x, 0, -(119 / 1000))⟩ := by
  have hp : comPosition straightKart (steadyMembers straightX 0 10)
      + axlePosition (x, 0, 161 / 1000) (steadyMembers straightX 0 10) = (x, 0, -(119 / 1000)) := by
    rw [straight_members]
    norm_num [comPosition, axlePosition, straightKart, exKart]
  have hv : (0, 0, (steadyMembers straightX 0 10).dz) + axleVelocity (x, 0, 161 / 1000) (steadyMembers straightX 0 10)
      = 0 := by
    rw [straight_members]
    simp [axleVelocity]
  have hh : Power.tyreHeight a.susp (-(119 / 1000)) (steadyMembers straightX 0 10).phi 0 = (-(1 / 100), -(1 / 100)) := by
    rw [straight_members]
    simp only [Power.tyreHeight, Power.chassisDeformation, Power.tyreDeformation, Power.displSym, Power.displAsym,
      Power.symK, Power.asymK, hs, hk, hkc, hka]
    norm_num
  have hd : Power.tyreVelocity a.susp 0 (steadyMembers straightX 0 10).dphi = (0, 0) := by
    rw [straight_members]
    simp [Power.tyreVelocity, Power.chassisDeformation, Power.tyreDeformation, Power.displRates]
  have hu : ((steadyMembers straightX 0 10).u, (steadyMembers straightX 0 10).v, (0 : ℝ)) = (10, 0, 0) := by
    rw [straight_members]
  have ho : ((0 : ℝ), (0 : ℝ), (steadyMembers straightX 0 10).omega) = 0 := by
    rw [straight_members]; rfl
  simp only [axleUpdate, hp, hv, hh, Prod.snd_zero, hd, hu, ho]

/-- C161 is false: there is a kart and a solution of its steady-state equations, at constant speed on a straight and
within all bounds, whose rear axle is slowing down: nothing drives it, and the tyres that balance the drag brake
it. -/
theorem C161_steady_held_false (hs : Solver solve) (junkQ junkU : Nat → ℝ) :
    ∃ (c : Vehicle) (x : Nat → ℝ) (V : ℝ), 0 < V ∧ 0 < c.mass ∧ 0 < c.IAxle ∧
      F1.Within steadyVariableBounds [x 0, x 1, x 2, x 3, x 4, x 5] ∧
      F1.Within steadyBounds (steadyEquations solve c junkQ junkU x 0 0 V) ∧
      let m := setState (F1.written junkQ (steadyInputs x 0 V)) (F1.written junkU (steadyControls x))
      (evaluate solve c m (roadCartesian m)).dstates.getD 0 0 < 0 := by
  have hT := exForce_pos
  set M := steadyMembers straightX 0 10 with hM
  have hr3 : M.road3 = 0 := by rw [hM, straight_members]
  have hrear : rearAxle straightKart M = _ := straight_axle straightKart.rear rfl rfl rfl rfl (-(4 / 10)) M.omegaAxle
  have hfront : frontAxle straightKart M = _ :=
    straight_axle straightKart.front rfl rfl rfl rfl (4 / 10 - 28 / 100000 * exForce) 0
  have hom : M.omegaAxle = 11 / 10 * 10 / (139 / 1000) := by rw [hM, straight_members]
  have wr := fun y => straight_wheel straightKart.rear rfl rfl rfl (-(4 / 10)) y M.omegaAxle
  have wf := fun y => straight_wheel straightKart.front rfl rfl rfl (4 / 10 - 28 / 100000 * exForce) y 0
  have kr : ∀ y, (wheelUpdate straightKart.rear (-(4 / 10), 0, -(119 / 1000)) 0 y (-(1 / 100)) 0 0 (10, 0, 0) 0
      M.omegaAxle).kin.kappa = 1 / 10 := fun y => by
    rw [(wr y).2.2.2.2.2.1, hom]
    norm_num [straightKart, exKart]
  have kf : ∀ y, (wheelUpdate straightKart.front (4 / 10 - 28 / 100000 * exForce, 0, -(119 / 1000)) 0 y (-(1 / 100)) 0 0
      (10, 0, 0) 0 0).kin.kappa = 0 := fun y => by
    rw [(wf y).2.2.2.2.2.1]
    norm_num [straightKart, exKart]
  have fr : ∀ y, (wheelUpdate straightKart.rear (-(4 / 10), 0, -(119 / 1000)) 0 y (-(1 / 100)) 0 0 (10, 0, 0) 0
      M.omegaAxle).Fx = exForce := fun y => by
    rw [(wr y).2.2.2.2.1, kr]
    rfl
  have ff : ∀ y, (wheelUpdate straightKart.front (4 / 10 - 28 / 100000 * exForce, 0, -(119 / 1000)) 0 y (-(1 / 100)) 0 0
      (10, 0, 0) 0 0).Fx = 0 := fun y => by
    rw [(wf y).2.2.2.2.1, kf, Tyre.stdX, Tyre.stdPureX, Tyre.magic_zero]
    simp
  have hair : aeroForce straightKart M 0 = (-(2 * exForce), 0, 0) := by
    have hu : M.u = 10 ∧ M.v = 0 := by rw [hM, straight_members]; exact ⟨rfl, rfl⟩
    have hn : √(100 : ℝ) = 10 := by rw [show (100 : ℝ) = 10 ^ 2 by norm_num]; exact sqrt_sq (by norm_num)
    simp only [aeroForce, aeroForces, hu.1, hu.2, straightKart, toBody, rotZ, rotY, rotX]
    apply vec_ext
    · norm_num [hn]; ring
    · norm_num
    · norm_num
  have hforce : totalForce straightKart M 0 = 0 := by
    simp only [totalForce, hair, hrear, hfront, axleForces, (wr _).2.2.2.2.2.2.2, (wf _).2.2.2.2.2.2.2, fr, ff, rotZ_zero]
    apply vec_ext <;> norm_num [straightKart, exKart]
    ring
  have hcom : comPosition straightKart M = (0, 0, -(28 / 100)) := by
    rw [hM, straight_members]
    norm_num [comPosition, straightKart, exKart]
  have htorque : totalTorque straightKart M 0 = 0 := by
    simp only [totalTorque, hair, hcom, hrear, hfront, axleForces, (wr _).2.2.2.2.2.2.2, (wf _).2.2.2.2.2.2.2, fr, ff,
      rotZ_zero]
    apply vec_ext <;> norm_num [straightKart, exKart, cross]
    ring
  have hdv : dvdt straightKart M 0 = 0 := by
    rw [dvdt, hforce]
    have : newtonLhs M = 0 := by rw [hM, straight_members]; simp [newtonLhs, cross]
    rw [this]; simp
  have hal : angularAcceleration solve straightKart M 0 = 0 := by
    have hlhs : eulerLhs straightKart M 0 0 = 0 := by
      rw [hM, straight_members]; norm_num [eulerLhs, straightKart, exKart]
    have hdet : det (eulerM straightKart M) ≠ 0 := by
      rw [det_eulerM]; norm_num [straightKart]
    have h0 : mulVec (eulerM straightKart M) (solve (eulerM straightKart M) 0) = mulVec (eulerM straightKart M) 0 := by
      rw [hs _ _ hdet]; apply vec_ext <;> simp [mulVec, dot]
    simp only [angularAcceleration, hdv, Prod.fst_zero, Prod.snd_zero, hlhs, htorque, neg_zero, add_zero]
    exact mulVec_inj hdet h0
  refine ⟨straightKart, straightX, 10, by norm_num, by norm_num [straightKart], by norm_num [straightKart, exKart],
    ?_, ?_, ?_⟩
  · have := pi_pos
    refine ⟨rfl, rfl, fun k hk => ?_⟩
    simp only [List.length_cons, List.length_nil] at hk
    match k, hk with
    | 0, _ => norm_num [steadyVariableBounds, straightX]
    | 1, _ => norm_num [steadyVariableBounds, straightX]
    | 2, _ | 3, _ | 4, _ | 5, _ => constructor <;> norm_num [steadyVariableBounds, straightX, DEG] <;> linarith
  · have e : steadyEquations solve straightKart junkQ junkU straightX 0 0 10
        = [0, 0, 0, 0, 0, 0, 1 / 10, 1 / 10, 0, 0, 0, 0] := by
      simp only [steadyEquations, setState_steady, ← hM, evaluate, allStates, roadCartesian, hr3, hdv, hal, hrear, hfront,
        kr, (wr _).2.1, (wf _).2.1]
      simp [iBody, iChassis, iAxle]
    rw [e]
    refine ⟨rfl, rfl, fun k hk => ?_⟩
    simp only [List.length_cons, List.length_nil] at hk
    match k, hk with
    | 0, _ | 1, _ | 2, _ | 3, _ | 4, _ | 5, _ | 6, _ | 7, _ | 8, _ | 9, _ | 10, _ | 11, _ =>
      constructor <;> norm_num [steadyBounds]
  · intro m
    have e : m = M := setState_steady junkQ junkU straightX 0 10
    rw [e]
    show axleAcceleration straightKart M * 1 < 0
    have ht : Power.kartTorque straightKart.power M.throttle M.omegaAxle = 0 := by
      rw [hM, straight_members]; rfl
    simp only [axleAcceleration, ht, hrear, Tyre.wheelTorque, (wr _).1, (wr _).2.2.2.2.2.2.1, fr]
    norm_num [straightKart, exKart]
    linarith

example : ∃ (c : Vehicle) (x : Nat → ℝ) (V : ℝ),
    F1.Within steadyBounds (steadyEquations cramer c (fun _ => 0) (fun _ => 0) x 0 0 V) ∧
    let m := setState (F1.written (fun _ => 0) (steadyInputs x 0 V)) (F1.written (fun _ => 0) (steadyControls x))
    lateralAcceleration c.mass m.u m.v (totalForce c m m.road3) = 0 ∧
    ∀ k, 1 ≤ k → k ≤ 9 → (evaluate cramer c m (roadCartesian m)).dstates.getD k 0 = 0 := by
  obtain ⟨c, x, V, hV, hm, -, -, hw, -⟩ := C161_steady_held_false cramer_solver (fun _ => 0) (fun _ => 0)
  exact ⟨c, x, V, hw, (C160_steady_accelerations hm.ne' _ _ _ _ _ _ hV hw).2.1,
    C161_steady_held_partial hm.ne' _ _ _ _ _ hV hw⟩

end Verif.Kart
