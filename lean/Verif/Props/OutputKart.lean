import Verif.Props.OutputMotion

/-! Property theorem C245: the reported positions of the kart move with its reported velocities. -/

set_option autoImplicit false

namespace Verif.Outputs

open Verif.Road Verif.Chassis Real

/-- The centre of a wheel of the kart in the axes of the road, its height given. -/
def wheelPlace (c : Kart.Vehicle) (m : Kart.Members) (x : Vec3) (y h : ℝ) : Vec3 :=
  Kart.comPosition c m + Kart.axlePosition x m + (0, y, h)

/-- The height of a wheel of the kart in its axle. -/
noncomputable def wheelHeight (c : Kart.Vehicle) (m : Kart.Members) (k : Kart.AxleK) (x : Vec3) (delta : ℝ) : ℝ × ℝ :=
  Power.tyreHeight k.susp (Kart.comPosition c m + Kart.axlePosition x m).2.2 m.phi delta

/-- The rate of the height of a wheel of the kart in its axle, for a steering angle that does not change. -/
noncomputable def wheelHeightRate (m : Kart.Members) (k : Kart.AxleK) (x : Vec3) : ℝ × ℝ :=
  Power.tyreVelocity k.susp (((0, 0, m.dz) : Vec3) + Kart.axleVelocity x m).2.2 m.dphi

/-- The velocity of the centre of a wheel in the axes of the road. -/
def wheelRate (m : Kart.Members) (x : Vec3) (dh : ℝ) (p : Vec3) : Vec3 :=
  (m.u, m.v, 0) + (((0, 0, m.dz) : Vec3) + Kart.axleVelocity x m + (0, 0, dh)) + cross (0, 0, m.omega) p

/-- Axle, steering angle, place in the axle and side of a wheel. -/
noncomputable def Corner.data (c : Kart.Vehicle) (steering : ℝ) : Corner → Kart.AxleK × Vec3 × ℝ × ℝ
  | .frontLeft => (c.front, c.xFront, steering, -(1 / 2) * c.front.susp.track)
  | .frontRight => (c.front, c.xFront, steering, 1 / 2 * c.front.susp.track)
  | .rearLeft => (c.rear, c.xRear, 0, -(1 / 2) * c.rear.susp.track)
  | .rearRight => (c.rear, c.xRear, 0, 1 / 2 * c.rear.susp.track)

def Corner.side : Corner → ℝ × ℝ → ℝ
  | .frontLeft | .rearLeft => Prod.fst
  | .frontRight | .rearRight => Prod.snd

theorem kart_tyre (solve : Vec3 × Vec3 × Vec3 → Vec3 → Vec3) (c : Kart.Vehicle) (f : TrackPoint) (q u : Nat → ℝ)
    (i : Corner) :
    let t := (kartTrack solve c f q u).tyre i
    let m := Kart.setState q u
    let d := i.data c (u 0)
    let p := wheelPlace c m d.2.1 d.2.2.2 (i.side (wheelHeight c m d.1 d.2.1 d.2.2.1))
    t.position = (Road.update f m.road2 m.road3 m.u m.v m.omega).position + rotZ (f.yaw + q 12) p ∧
    rotZ t.delta t.velocity = wheelRate m d.2.1 (i.side (wheelHeightRate m d.1 d.2.1)) p := by
  intro t m d p
  have hz : ∀ v : Vec3, absolute ⟨f.yaw, 0, 0, q 12⟩ v = rotZ (f.yaw + q 12) v := fun v => by
    refine vec_ext ?_ ?_ ?_ <;> simp [absolute, rotZ, rotX, rotY, cos_add, sin_add] <;> ring
  have hc : ∀ (om z : ℝ) (v : Vec3), cross (0, 0, om) (v + (0, 0, z)) = cross (0, 0, om) v := fun om z v => by
    refine vec_ext ?_ ?_ ?_ <;> simp [cross]
  constructor
  · rw [← hz]
    cases i <;> rfl
  · simp only [wheelRate]
    rw [← hc m.omega (i.kartRadius c - (Corner.rec (motive := fun _ => F1.WheelOut) (Kart.frontAxle c m).left
      (Kart.frontAxle c m).right (Kart.rearAxle c m).left (Kart.rearAxle c m).right i).kin.w) p]
    cases i <;> exact rotZ_neg _ _

/-- The kart follows the equations of its road along a flat track: position and direction of the kart in the plane. -/
theorem kart_plane {F : ℝ → TrackPoint} (hF : ∀ s, Level (F s)) {n alpha : ℝ → ℝ} {u v omega s : ℝ}
    (hp : HasDerivAt (fun s => (F s).position) (tangent (F s)) s) (hy : HasDerivAt (fun s => (F s).yaw) (F s).dyaw s)
    (hden : u * cos (alpha s) - v * sin (alpha s) ≠ 0) (hn : 1 - n s * (F s).dyaw ≠ 0)
    (h11 : HasDerivAt n ((Road.update (F s) (n s) (alpha s) u v omega).nDot
      * (Road.update (F s) (n s) (alpha s) u v omega).dtimeds) s)
    (h12 : HasDerivAt alpha ((Road.update (F s) (n s) (alpha s) u v omega).alphaDot
      * (Road.update (F s) (n s) (alpha s) u v omega).dtimeds) s) :
    let dt := (Road.update (F s) (n s) (alpha s) u v omega).dtimeds
    HasDerivAt (fun s => (F s).position + n s • normal (F s)) (dt • rotZ ((F s).yaw + alpha s) (u, v, 0)) s ∧
    HasDerivAt (fun s => (F s).yaw + alpha s) (dt * omega) s := by
  intro dt
  obtain ⟨f1, f2, f3, f4⟩ := hF s
  have hcurv : (curvature (F s)).2.2 = (F s).dyaw := by simp [curvature, f1, f2]
  have hdt : dt * (u * cos (alpha s) - v * sin (alpha s)) = 1 - n s * (F s).dyaw := by
    simp only [dt, Road.update, hcurv]
    exact div_mul_cancel₀ _ hden
  have hne : dt ≠ 0 := by
    intro h0
    rw [h0, zero_mul] at hdt
    exact hn hdt.symm
  have e1 : (Road.update (F s) (n s) (alpha s) u v omega).nDot = u * sin (alpha s) + v * cos (alpha s) := rfl
  have e2 : (Road.update (F s) (n s) (alpha s) u v omega).alphaDot = omega - (F s).dyaw / dt := by
    simp only [Road.update, hcurv, dt]
  rw [e1] at h11
  rw [e2] at h12
  have hnormal : ∀ s, normal (F s) = (-sin (F s).yaw, cos (F s).yaw, 0) := fun s =>
    (C42_flat (F s) (hF s).1 (hF s).2.1).2.1
  have htangent : tangent (F s) = (cos (F s).yaw, sin (F s).yaw, 0) := (C42_flat (F s) f1 f2).1
  rw [htangent] at hp
  obtain ⟨px, py, pz⟩ := hasDerivAt_comp hp
  constructor
  · refine hasDerivAt_vec ?_ ?_ ?_ <;> simp only [hnormal, Prod.fst_add, Prod.snd_add, Prod.smul_fst, Prod.smul_snd,
      smul_eq_mul, rotZ, mul_zero, add_zero]
    · refine (px.add (h11.mul hy.sin.neg)).congr_deriv ?_
      simp only [Pi.neg_apply, cos_add, sin_add]
      linear_combination -cos (F s).yaw * hdt
    · refine (py.add (h11.mul hy.cos)).congr_deriv ?_
      simp only [cos_add, sin_add]
      linear_combination -sin (F s).yaw * hdt
    · exact pz
  · refine (hy.add h12).congr_deriv ?_
    simp only [dt] at hne ⊢
    field_simp
    ring

theorem rate_z (m : Kart.Members) (x p : Vec3) (dh psi : ℝ) :
    (rotZ psi (wheelRate m x dh p)).2.2 = (((0, 0, m.dz) : Vec3) + Kart.axleVelocity x m).2.2 + dh := by
  simp [wheelRate, rotZ, cross]

/-- A point `x` carried by a frame that moves and turns in the plane. -/
theorem carried {G x : ℝ → Vec3} {psi : ℝ → ℝ} {dt u v omega s : ℝ} {dx : Vec3}
    (hG : HasDerivAt G (dt • rotZ (psi s) (u, v, 0)) s) (hpsi : HasDerivAt psi (dt * omega) s)
    (hx : HasDerivAt x (dt • dx) s) :
    HasDerivAt (fun s => G s + rotZ (psi s) (x s))
      (dt • rotZ (psi s) ((u, v, 0) + dx + cross (0, 0, omega) (x s))) s := by
  refine (hG.add (rotZ_deriv hpsi hx)).congr_deriv ?_
  refine vec_ext ?_ ?_ ?_ <;> simp [rotZ, cross] <;> ring

theorem tyreVelocity_smul (a : Power.Axle6) (dz dphi k : ℝ) :
    Power.tyreVelocity a (k * dz) (k * dphi) = k • Power.tyreVelocity a dz dphi := by
  refine Prod.ext ?_ ?_ <;>
    simp only [Power.tyreVelocity, Power.chassisDeformation, Power.tyreDeformation, Power.displRates, Prod.smul_fst,
      Prod.smul_snd, smul_eq_mul] <;> ring

section
variable {solve : Vec3 × Vec3 × Vec3 → Vec3 → Vec3} {c : Kart.Vehicle} {F : ℝ → TrackPoint} {q u : ℝ → Nat → ℝ} {s : ℝ}

theorem KartDrives.derivs (h : KartDrives solve c F q u s) :
    ∃ dt, HasDerivAt (fun s => q s 10) dt s ∧
      HasDerivAt (fun s => q s 4) (dt * q s 7) s ∧ HasDerivAt (fun s => q s 5) (dt * q s 8) s ∧
      HasDerivAt (fun s => q s 6) (dt * q s 9) s ∧
      HasDerivAt (fun s => (kartTrack solve c (F s) (q s) (u s)).chassis.ground)
        (dt • rotZ ((F s).yaw + q s 12) (q s 1, q s 2, 0)) s ∧
      HasDerivAt (fun s => (F s).yaw + q s 12) (dt * q s 3) s := by
  have h4 := h.obeys 4 (by simp)
  have h5 := h.obeys 5 (by simp)
  have h6 := h.obeys 6 (by simp)
  have h10 := h.obeys 10 (by simp)
  have h11 := h.obeys 11 (by simp)
  have h12 := h.obeys 12 (by simp)
  simp only [Kart.evaluate, Kart.allStates, List.map_cons, List.map_nil, List.getD_cons_succ,
    List.getD_cons_zero] at h4 h5 h6 h10 h11 h12
  obtain ⟨hg, hpsi⟩ := kart_plane (n := fun s => q s 11) (alpha := fun s => q s 12) (u := q s 1) (v := q s 2)
    (omega := q s 3) h.flat h.position h.yaw h.advances h.centre h11 h12
  exact ⟨_, h10.congr_deriv (one_mul _), h4.congr_deriv (mul_comm _ _), h5.congr_deriv (mul_comm _ _),
    h6.congr_deriv (mul_comm _ _), hg, hpsi⟩

/-- The axle of the kart moves up and down with height and pitch. -/
theorem axle_rate {dt : ℝ} (h4 : HasDerivAt (fun s => q s 4) (dt * q s 7) s)
    (h6 : HasDerivAt (fun s => q s 6) (dt * q s 9) s) (x : Vec3) :
    HasDerivAt (fun s => Kart.comPosition c (Kart.setState (q s) (u s)) + Kart.axlePosition x (Kart.setState (q s) (u s)))
      (dt • (((0, 0, q s 7) : Vec3) + Kart.axleVelocity x (Kart.setState (q s) (u s)))) s := by
  refine hasDerivAt_vec ?_ ?_ ?_ <;>
    simp only [Kart.comPosition, Kart.axlePosition, Kart.axleVelocity, Prod.fst_add, Prod.snd_add, Prod.smul_fst,
      Prod.smul_snd, smul_eq_mul]
  · exact (hasDerivAt_const _ _).congr_deriv (by simp)
  · exact (hasDerivAt_const _ _).congr_deriv (by simp)
  · refine ((h4.const_add _).add ((h6.neg.mul_const x.1).const_add _)).congr_deriv ?_
    simp only [Kart.setState, Kart.iBody, Kart.iChassis, Kart.iAxle]
    ring

theorem yaw_reported : value (values (kartTrack solve c (F s) (q s) (u s))) "chassis.attitude.yaw" = (F s).yaw + q s 12 :=
  chassis_attitude_yaw (kartTrack solve c (F s) (q s) (u s))

/-- C245: the reported position of the kart moves with its velocity, and the reported positions of its wheels move in the
plane with their reported velocities, turned by the reported direction of the kart: `dt` is the time per metre. -/
theorem C245_plane (h : KartDrives solve c F q u s) :
    let o := fun s => values (kartTrack solve c (F s) (q s) (u s))
    let yaw := value (o s) "chassis.attitude.yaw"
    ∃ dt, HasDerivAt (fun s => q s 10) dt s ∧
      HasDerivAt (fun s => value (o s) "chassis.position.x") (dt * (rotZ yaw (q s 1, q s 2, 0)).1) s ∧
      HasDerivAt (fun s => value (o s) "chassis.position.y") (dt * (rotZ yaw (q s 1, q s 2, 0)).2.1) s ∧
      ∀ i : Corner,
        let v := rotZ yaw (vector (o s) (i.name ++ ".velocity.car_frame"))
        HasDerivAt (fun s => (vector (o s) (i.name ++ ".position")).1) (dt * v.1) s ∧
        HasDerivAt (fun s => (vector (o s) (i.name ++ ".position")).2.1) (dt * v.2.1) s := by
  intro o yaw
  obtain ⟨dt, ht, h4, -, h6, hg, hpsi⟩ := h.derivs
  have hyaw : yaw = (F s).yaw + q s 12 := yaw_reported
  have hx : (fun s => value (o s) "chassis.position.x")
      = fun s => (kartTrack solve c (F s) (q s) (u s)).chassis.ground.1 := funext fun s => chassis_position_x _
  have hy : (fun s => value (o s) "chassis.position.y")
      = fun s => (kartTrack solve c (F s) (q s) (u s)).chassis.ground.2.1 := funext fun s => chassis_position_y _
  rw [hx, hy]
  obtain ⟨g1, g2, -⟩ := hasDerivAt_comp hg
  refine ⟨dt, ht, by rw [hyaw]; exact g1, by rw [hyaw]; exact g2, fun i => ?_⟩
  intro v
  have hp : (fun s => vector (o s) (i.name ++ ".position"))
      = fun s => ((kartTrack solve c (F s) (q s) (u s)).tyre i).position := funext fun s => tyre_position _ i
  have hv : vector (o s) (i.name ++ ".velocity.car_frame") = _ := tyre_carFrame _ i
  rw [(kart_tyre solve c (F s) (q s) (u s) i).2] at hv
  have e := fun s => (kart_tyre solve c (F s) (q s) (u s) i).1
  -- the wheel at the height of its axle
  have hw : ∀ s, i.data c (u s 0) = ((i.data c 0).1, (i.data c 0).2.1, (i.data c (u s 0)).2.2.1, (i.data c 0).2.2.2) := by
    intro s; cases i <;> rfl
  have k := carried hg hpsi ((axle_rate (c := c) (u := u) h4 h6 (i.data c 0).2.1).add_const ((0, (i.data c 0).2.2.2, 0) : Vec3))
  obtain ⟨k1, k2, -⟩ := hasDerivAt_comp k
  have p1 : ∀ s, (vector (o s) (i.name ++ ".position")).1
      = ((kartTrack solve c (F s) (q s) (u s)).chassis.ground + rotZ ((F s).yaw + q s 12)
        (Kart.comPosition c (Kart.setState (q s) (u s)) + Kart.axlePosition (i.data c 0).2.1 (Kart.setState (q s) (u s))
          + (0, (i.data c 0).2.2.2, 0))).1 ∧
      (vector (o s) (i.name ++ ".position")).2.1
      = ((kartTrack solve c (F s) (q s) (u s)).chassis.ground + rotZ ((F s).yaw + q s 12)
        (Kart.comPosition c (Kart.setState (q s) (u s)) + Kart.axlePosition (i.data c 0).2.1 (Kart.setState (q s) (u s))
          + (0, (i.data c 0).2.2.2, 0))).2.1 := by
    intro s
    have := congrFun hp s
    beta_reduce at this
    rw [this, e s, hw s]
    constructor <;> rfl
  refine ⟨?_, ?_⟩
  · rw [funext fun s => (p1 s).1]
    refine k1.congr_deriv ?_
    simp only [v]
    rw [hv, hyaw, hw s]
    simp [wheelRate, wheelPlace, rotZ, cross, Kart.setState, Kart.axleVelocity, Kart.iBody, Kart.iChassis, Kart.iAxle]
  · rw [funext fun s => (p1 s).2]
    refine k2.congr_deriv ?_
    simp only [v]
    rw [hv, hyaw, hw s]
    simp [wheelRate, wheelPlace, rotZ, cross, Kart.setState, Kart.axleVelocity, Kart.iBody, Kart.iChassis, Kart.iAxle]

/-- C245, also vertically. Missing: the front wheels while they are being steered, see `C245_false`. -/
theorem C245_moves_partial (h : KartDrives solve c F q u s) (i : Corner)
    (hd : ∀ t, i.steered (u t 0) = i.steered (u s 0)) :
    let o := fun s => values (kartTrack solve c (F s) (q s) (u s))
    ∃ dt, HasDerivAt (fun s => q s 10) dt s ∧
      HasDerivAt (fun s => vector (o s) (i.name ++ ".position"))
        (dt • rotZ (value (o s) "chassis.attitude.yaw") (vector (o s) (i.name ++ ".velocity.car_frame"))) s := by
  intro o
  obtain ⟨dt, ht, h4, h5, h6, hg, hpsi⟩ := h.derivs
  have hyaw : value (o s) "chassis.attitude.yaw" = (F s).yaw + q s 12 := yaw_reported
  have hp : (fun s => vector (o s) (i.name ++ ".position"))
      = fun s => ((kartTrack solve c (F s) (q s) (u s)).tyre i).position := funext fun s => tyre_position _ i
  have hv : vector (o s) (i.name ++ ".velocity.car_frame") = _ := tyre_carFrame _ i
  rw [(kart_tyre solve c (F s) (q s) (u s) i).2] at hv
  refine ⟨dt, ht, ?_⟩
  rw [hp, hv, hyaw]
  have hw : ∀ t, i.data c (u t 0) = i.data c (u s 0) := by
    intro t
    have := hd t
    cases i <;> simp only [Corner.steered] at this <;> simp only [Corner.data, this]
  obtain ⟨d, hdd⟩ : ∃ d, d = i.data c (u s 0) := ⟨_, rfl⟩
  have ha := axle_rate (c := c) (u := u) h4 h6 d.2.1
  have hh := Power.C78_tyre_velocity_partial d.1.susp _ _ d.2.2.1 _ _ s (hasDerivAt_comp ha).2.2 h5
  have hi : HasDerivAt (fun s => i.side (wheelHeight c (Kart.setState (q s) (u s)) d.1 d.2.1 d.2.2.1))
      (dt * i.side (wheelHeightRate (Kart.setState (q s) (u s)) d.1 d.2.1)) s := by
    have e : ∀ z : ℝ, Power.tyreVelocity d.1.susp (dt * z) (dt * q s 8) = dt • Power.tyreVelocity d.1.susp z (q s 8) :=
      fun z => tyreVelocity_smul _ _ _ _
    simp only [Prod.smul_snd, smul_eq_mul, e] at hh
    cases i
    · exact hh.1
    · exact hh.2
    · exact hh.1
    · exact hh.2
  have hx := ha.add (hasDerivAt_vec (f := fun s => ((0, d.2.2.2,
    i.side (wheelHeight c (Kart.setState (q s) (u s)) d.1 d.2.1 d.2.2.1)) : Vec3)) (d := dt • (0, 0,
      i.side (wheelHeightRate (Kart.setState (q s) (u s)) d.1 d.2.1)))
      ((hasDerivAt_const _ _).congr_deriv (by simp)) ((hasDerivAt_const _ _).congr_deriv (by simp)) hi)
  rw [← smul_add] at hx
  have k := carried hg hpsi hx
  have e := fun s => (kart_tyre solve c (F s) (q s) (u s) i).1
  simp only [hw, ← hdd] at e ⊢
  rw [funext e]
  exact k

end

theorem kart_drives (solve : Vec3 × Vec3 × Vec3 → Vec3 → Vec3) (c : Kart.Vehicle) (F : ℝ → TrackPoint)
    (q0 : Nat → ℝ) (u : ℝ → Nat → ℝ) (hF : ∀ s, Level (F s))
    (hp : HasDerivAt (fun s => (F s).position) (tangent (F 0)) 0) (hy : HasDerivAt (fun s => (F s).yaw) (F 0).dyaw 0)
    (ha : q0 1 * cos (q0 12) - q0 2 * sin (q0 12) ≠ 0) (hc : 1 - q0 11 * (F 0).dyaw ≠ 0) :
    ∃ q : ℝ → Nat → ℝ, q 0 = q0 ∧ KartDrives solve c F q u 0 := by
  obtain ⟨d, hd⟩ : ∃ d : Nat → ℝ, d = fun k => (Kart.evaluate solve c (Kart.setState q0 (u 0))
    (Kart.roadCurvilinear (F 0) (Kart.setState q0 (u 0)))).dstates.getD k 0 := ⟨_, rfl⟩
  have h0 : (fun k => q0 k + 0 * d k) = q0 := funext fun k => by rw [zero_mul, add_zero]
  refine ⟨fun s k => q0 k + s * d k, h0, hF, hp, hy, ?_, ?_, fun k hk => ?_⟩
  · simpa using ha
  · simpa using hc
  have h : HasDerivAt (fun s => q0 k + s * d k) (d k) 0 := by
    simpa using ((hasDerivAt_id (0 : ℝ)).mul_const (d k)).const_add (q0 k)
  beta_reduce
  rw [h0]
  have e : (fun s : ℝ => (Kart.evaluate solve c (Kart.setState (fun k => q0 k + s * d k) (u s))
      (Kart.roadCurvilinear (F s) (Kart.setState (fun k => q0 k + s * d k) (u s)))).states.getD k 0)
      = fun s => q0 k + s * d k := by
    funext s
    simp only [List.mem_cons, List.not_mem_nil, or_false] at hk
    rcases hk with rfl | rfl | rfl | rfl | rfl | rfl <;> rfl
  rw [e]
  exact h.congr_deriv (congrFun hd k)

/-- A straight track. -/
def exRoad (s : ℝ) : TrackPoint := ⟨(s, 0, 0), 0, 0, 0, 0, 0, 0⟩

/-- A kart on it with 10 m/s, turning, with roll and pitch. -/
noncomputable def exQ : Nat → ℝ := fun k => if k = 1 then 10 else if k = 3 then 2 else if k = 12 then 0 else 1 / 100

theorem exRoad_drives (u : ℝ → Nat → ℝ) : ∃ q : ℝ → Nat → ℝ, q 0 = exQ ∧ KartDrives Kart.cramer Kart.exKart exRoad q u 0 := by
  refine kart_drives _ _ _ _ _ (fun s => ⟨rfl, rfl, rfl, rfl⟩) ?_ (hasDerivAt_const _ _) ?_ ?_
  · simp only [exRoad, tangent, cos_zero, sin_zero, mul_one, neg_zero]
    exact hasDerivAt_vec (hasDerivAt_id 0) (hasDerivAt_const _ _) (hasDerivAt_const _ _)
  · norm_num [exQ]
  · norm_num [exQ, exRoad]

/-- C245: a kart that turns on a straight track while it is steered. -/
example : ∃ q : ℝ → Nat → ℝ, q 0 = exQ ∧ ∃ dt, HasDerivAt (fun s => q s 10) dt 0 ∧
    HasDerivAt (fun s => value (values (kartTrack Kart.cramer Kart.exKart (exRoad s) (q s) fun _ => s)) "chassis.position.x")
      (dt * (rotZ (value (values (kartTrack Kart.cramer Kart.exKart (exRoad 0) (q 0) fun _ => 0)) "chassis.attitude.yaw")
        (q 0 1, q 0 2, 0)).1) 0 := by
  obtain ⟨q, hq, h⟩ := exRoad_drives fun s _ => s
  obtain ⟨dt, ht, hx, -⟩ := C245_plane h
  exact ⟨q, hq, dt, ht, hx⟩

/-- C245: with the steering held. -/
example : ∃ q : ℝ → Nat → ℝ, q 0 = exQ ∧ KartDrives Kart.cramer Kart.exKart exRoad q (fun _ _ => 1 / 10) 0 ∧
    ∀ t : ℝ, Corner.frontRight.steered ((fun _ _ => 1 / 10 : ℝ → Nat → ℝ) t 0) = Corner.frontRight.steered (1 / 10) := by
  obtain ⟨q, hq, h⟩ := exRoad_drives fun _ _ => 1 / 10
  exact ⟨q, hq, h, fun _ => rfl⟩

/-- C245 is false for a front wheel while it is steered: the reported velocity does not take account of the rate at which
the steering moves the wheel up or down. -/
theorem C245_false : ∃ (c : Kart.Vehicle) (F : ℝ → TrackPoint) (q u : ℝ → Nat → ℝ) (i : Corner),
    KartDrives Kart.cramer c F q u 0 ∧
    let o := fun s => values (kartTrack Kart.cramer c (F s) (q s) (u s))
    ¬∃ dt, HasDerivAt (fun s => q s 10) dt 0 ∧
      HasDerivAt (fun s => vector (o s) (i.name ++ ".position"))
        (dt • rotZ (value (o 0) "chassis.attitude.yaw") (vector (o 0) (i.name ++ ".velocity.car_frame"))) 0 := by
  obtain ⟨q, hq, h⟩ := exRoad_drives fun s _ => s
  refine ⟨Kart.exKart, exRoad, q, fun s _ => s, .frontRight, h, ?_⟩
  intro o
  rintro ⟨dt, ht, hx⟩
  have hp : (fun s => vector (o s) (Corner.frontRight.name ++ ".position"))
      = fun s => ((kartTrack Kart.cramer Kart.exKart (exRoad s) (q s) fun _ => s).tyre .frontRight).position :=
    funext fun s => tyre_position _ _
  have hv : vector (o 0) (Corner.frontRight.name ++ ".velocity.car_frame") = _ := tyre_carFrame _ _
  rw [(kart_tyre Kart.cramer Kart.exKart (exRoad 0) (q 0) (fun _ => 0) .frontRight).2] at hv
  rw [hp, hv] at hx
  have e := fun s => (kart_tyre Kart.cramer Kart.exKart (exRoad s) (q s) (fun _ => s) .frontRight).1
  rw [funext e] at hx
  have hx := (hasDerivAt_comp hx).2.2
  obtain ⟨dt', ht', h4, h5, h6, -, -⟩ := h.derivs
  obtain rfl := ht.unique ht'
  have ha := (hasDerivAt_comp (axle_rate (c := Kart.exKart) (u := fun s _ => s) h4 h6 Kart.exKart.xFront)).2.2
  have hh := Kart.tyreHeight_deriv Kart.exKart.front.susp rfl ha h5 (hasDerivAt_id 0)
  have hx' := hx.congr_of_eventuallyEq (f₁ := fun s => (Kart.comPosition Kart.exKart (Kart.setState (q s) fun _ => s) +
        Kart.axlePosition Kart.exKart.xFront (Kart.setState (q s) fun _ => s)).2.2
      + (Power.tyreHeight Kart.exKart.front.susp (Kart.comPosition Kart.exKart (Kart.setState (q s) fun _ => s) +
        Kart.axlePosition Kart.exKart.xFront (Kart.setState (q s) fun _ => s)).2.2 (q s 5) (id s)).2)
    (Filter.Eventually.of_forall fun s => by
      simp only [Road.update, exRoad, normal, rotZ, wheelPlace, wheelHeight, Corner.data, Corner.side, Prod.snd_add,
        Prod.smul_snd, smul_eq_mul, sin_zero, cos_zero, id]
      rw [mul_zero, mul_zero, zero_add, zero_add]
      rfl)
  have hu := hx'.unique (ha.add hh)
  have e2 : Power.tyreVelocity Kart.exKart.front.susp
      (dt * (((0, 0, q 0 7) : Vec3) + Kart.axleVelocity Kart.exKart.xFront (Kart.setState (q 0) fun _ => 0)).2.2)
      (dt * q 0 8) = _ := tyreVelocity_smul _ _ _ _
  simp only [Prod.smul_snd, smul_eq_mul, e2] at hu
  rw [rate_z] at hu
  have hK : (Kart.exKart.front.susp.kChassis * Power.symK Kart.exKart.front.susp + Power.asymK Kart.exKart.front.susp)
      * (Kart.exKart.front.susp.betaR * 1) ≠ 0 := by
    norm_num [Kart.exKart, Power.symK, Power.asymK]
  apply hK
  have e4 : Corner.frontRight.side (wheelHeightRate (Kart.setState (q 0) fun _ => 0)
      (Corner.data Kart.exKart 0 .frontRight).1 (Corner.data Kart.exKart 0 .frontRight).2.1)
      = (Power.tyreVelocity Kart.exKart.front.susp (((0, 0, q 0 7) : Vec3)
        + Kart.axleVelocity Kart.exKart.xFront (Kart.setState (q 0) fun _ => 0)).2.2 (q 0 8)).2 := rfl
  have e5 : (((0, 0, (Kart.setState (q 0) fun _ => 0).dz) : Vec3)
      + Kart.axleVelocity (Corner.data Kart.exKart 0 .frontRight).2.1 (Kart.setState (q 0) fun _ => 0)).2.2
      = (((0, 0, q 0 7) : Vec3) + Kart.axleVelocity Kart.exKart.xFront (Kart.setState (q 0) fun _ => 0)).2.2 := rfl
  rw [e4, e5] at hu
  linear_combination -hu

end Verif.Outputs
