import Verif.Lemmas.Outputs
import Verif.Lemmas.KartMirror

/-! Lemmas for the outputs of the mirror image of a vehicle. -/

set_option autoImplicit false

namespace Verif.Outputs

open Verif.Road Verif.Chassis Real
open Verif.F1 (mirrorVec mirrorAxial mirrorAtt mirrorAero mirrorVec_add rotZ_mirrorVec rotY_mirrorVec rotX_mirrorVec)

/-- The mirror image of a tyre. -/
def mirrorTyre (t : TyreState) : TyreState :=
  ⟨mirrorVec t.position, mirrorVec t.velocity, -t.delta, -t.lambda, t.kappa, t.dissipation, mirrorVec t.force, t.omega⟩

/-- The mirror image of a chassis with another indicator. -/
def mirrorChassis (c : ChassisState) (indicator : ℝ) : ChassisState :=
  ⟨c.mass, c.u, -c.v, c.groundVz, mirrorVec c.force, mirrorAxial c.torque, -c.yawRateDot, mirrorVec c.ground,
    mirrorAtt c.att, mirrorAero c.aero, indicator⟩

/-- The mirror image of a vehicle with another indicator. -/
def mirrorState (s : State) (indicator : ℝ) : State :=
  ⟨mirrorChassis s.chassis indicator, mirrorTyre s.fr, mirrorTyre s.fl, mirrorTyre s.rr, mirrorTyre s.rl⟩

theorem absolute_mirror (a : Attitude) (v : Vec3) : absolute (mirrorAtt a) (mirrorVec v) = mirrorVec (absolute a v) := by
  simp only [absolute, mirrorAtt, rotZ_mirrorVec, rotY_mirrorVec, rotX_mirrorVec]

theorem toWorld_mirror (a : Attitude) (v : Vec3) : toWorld (mirrorAtt a) (mirrorVec v) = mirrorVec (toWorld a v) :=
  absolute_mirror a v

theorem mirror_tyre (s : State) (x : ℝ) (i : Corner) : (mirrorState s x).tyre i = mirrorTyre (s.tyre i.opposite) := by
  cases i <;> rfl

theorem wind_mirror (c : ChassisState) (x : ℝ) :
    (mirrorChassis c x).wind.lift = mirrorVec c.wind.lift ∧ (mirrorChassis c x).wind.drag = mirrorVec c.wind.drag ∧
    (mirrorChassis c x).wind.velocity = mirrorVec c.wind.velocity ∧
    (mirrorChassis c x).wind.windBody = mirrorVec c.wind.windBody := by
  obtain ⟨h1, h2⟩ := F1.aeroForces_mirror c.aero c.att (c.u, c.v, c.groundVz)
  have hw : ((c.aero.eastward, -(-c.aero.northward), 0) : Vec3) = mirrorVec (c.aero.eastward, -c.aero.northward, 0) := rfl
  have hv : ((c.u, -c.v, c.groundVz) : Vec3) = mirrorVec (c.u, c.v, c.groundVz) := rfl
  refine ⟨h1, h2, ?_, ?_⟩
  · simp only [ChassisState.wind, mirrorChassis, aeroForces, mirrorAero, hw, hv, F1.toBody_mirror, ← F1.mirrorVec_neg,
      ← mirrorVec_add]
  · simp only [ChassisState.wind, mirrorChassis, aeroForces, mirrorAero, hw, F1.toBody_mirror]

theorem chassis_torque (s : State) : vector (values s) "chassis.torque" = s.chassis.torque := by
  have e1 : "chassis.torque" ++ ".x" = "chassis.torque.x" := rfl
  have e2 : "chassis.torque" ++ ".y" = "chassis.torque.y" := rfl
  have e3 : "chassis.torque" ++ ".z" = "chassis.torque.z" := rfl
  unfold vector
  rw [e1, e2, e3, chassis_torque_x, chassis_torque_y, chassis_torque_z]

theorem mirrored (s : State) (x : ℝ) : Mirrored (values s) (values (mirrorState s x)) := by
  obtain ⟨w1, w2, w3, w4⟩ := wind_mirror s.chassis x
  constructor
  · intro i v hv
    simp only [List.mem_cons, List.not_mem_nil, or_false] at hv
    rcases hv with rfl | rfl | rfl | rfl | rfl
    · rw [tyre_position, tyre_position, mirror_tyre]; rfl
    · rw [tyre_velocity, tyre_velocity, mirror_tyre]; rfl
    · rw [tyre_carFrame, tyre_carFrame, mirror_tyre]
      exact rotZ_mirrorVec _ _
    · rw [tyre_force, tyre_force, mirror_tyre]; rfl
    · rw [tyre_inertial, tyre_inertial, mirror_tyre]
      exact (congrArg (toWorld (mirrorAtt s.chassis.att)) (rotZ_mirrorVec _ _)).trans (toWorld_mirror _ _)
  · intro i n hn
    simp only [List.mem_cons, List.not_mem_nil, or_false] at hn
    rcases hn with rfl | rfl | rfl
    · rw [tyre_kappa, tyre_kappa, mirror_tyre]; rfl
    · rw [tyre_omega, tyre_omega, mirror_tyre]; rfl
    · rw [tyre_dissipation, tyre_dissipation, mirror_tyre]; rfl
  · intro i
    rw [tyre_lambda, tyre_lambda, mirror_tyre]; rfl
  · rw [chassis_force, chassis_force]; rfl
  · rw [chassis_torque, chassis_torque]; rfl
  · intro n hn
    simp only [List.mem_cons, List.not_mem_nil, or_false] at hn
    rcases hn with rfl | rfl | rfl | rfl | rfl | rfl | rfl | rfl
    · rw [chassis_acceleration_x, chassis_acceleration_x]
      simp [mirrorState, mirrorChassis, longitudinalAcceleration, dot, mirrorVec]
    · rw [chassis_position_x, chassis_position_x]; rfl
    · rw [chassis_aerodynamics_cd, chassis_aerodynamics_cd]; rfl
    · rw [chassis_aerodynamics_lift, chassis_aerodynamics_lift]
      show (mirrorChassis s.chassis x).wind.lift.2.2 = _
      rw [w1]; rfl
    · rw [chassis_aerodynamics_drag, chassis_aerodynamics_drag]
      show √(dot (mirrorChassis s.chassis x).wind.drag (mirrorChassis s.chassis x).wind.drag) = _
      rw [w2]
      simp [dot, mirrorVec]
    · rw [chassis_aerodynamics_drag_x, chassis_aerodynamics_drag_x]
      show (mirrorChassis s.chassis x).wind.drag.1 = _
      rw [w2]; rfl
    · rw [chassis_aerodynamics_wind_velocity_body_x, chassis_aerodynamics_wind_velocity_body_x]
      show (mirrorChassis s.chassis x).wind.windBody.1 = _
      rw [w4]; rfl
    · rw [chassis_aerodynamics_aerodynamic_velocity_x, chassis_aerodynamics_aerodynamic_velocity_x]
      show (mirrorChassis s.chassis x).wind.velocity.1 = _
      rw [w3]; rfl
  · intro n hn
    simp only [List.mem_cons, List.not_mem_nil, or_false] at hn
    rcases hn with rfl | rfl | rfl | rfl | rfl | rfl | rfl
    · rw [chassis_acceleration_y, chassis_acceleration_y]
      simp only [mirrorState, mirrorChassis, lateralAcceleration, dot, mirrorVec, cross, Prod.smul_fst, Prod.smul_snd,
        smul_eq_mul, neg_mul_neg, ← neg_div]
      congr 1
      ring
    · rw [chassis_acceleration_yaw, chassis_acceleration_yaw]; rfl
    · rw [chassis_position_y, chassis_position_y]; rfl
    · rw [chassis_attitude_yaw, chassis_attitude_yaw]
      exact (neg_add _ _).symm
    · rw [chassis_aerodynamics_drag_y, chassis_aerodynamics_drag_y]
      show (mirrorChassis s.chassis x).wind.drag.2.1 = _
      rw [w2]; rfl
    · rw [chassis_aerodynamics_wind_velocity_body_y, chassis_aerodynamics_wind_velocity_body_y]
      show (mirrorChassis s.chassis x).wind.windBody.2.1 = _
      rw [w4]; rfl
    · rw [chassis_aerodynamics_aerodynamic_velocity_y, chassis_aerodynamics_aerodynamic_velocity_y]
      show (mirrorChassis s.chassis x).wind.velocity.2.1 = _
      rw [w3]; rfl

/-! ### The F1 car -/

theorem ground_mirror (f : TrackPoint) (n alpha u v omega n' alpha' u' v' omega' : ℝ) (hn : n' = -n) :
    (Road.update (F1.mirrorTrack f) n' alpha' u' v' omega').position
      = mirrorVec (Road.update f n alpha u v omega).position := by
  subst hn
  refine vec_ext ?_ ?_ ?_ <;> simp [Road.update, F1.mirrorTrack, mirrorVec, normal] <;> ring

theorem f1Tyre_mirror (R0 : ℝ) (ground : Vec3) (a : Attitude) (x : Vec3) (y delta : ℝ) (vel om : Vec3) (w : F1.WheelOut) :
    f1Tyre R0 (mirrorVec ground) (mirrorAtt a) (mirrorVec x) (-y) (-delta) (mirrorVec vel) (mirrorAxial om)
      (F1.mirrorWheel w) = mirrorTyre (f1Tyre R0 ground a x y delta vel om w) := by
  have h : ∀ z, mirrorVec x + (0, -y, z) = mirrorVec (x + (0, y, z)) := fun z => by rw [mirrorVec_add]; rfl
  simp only [f1Tyre, mirrorTyre, TyreState.mk.injEq]
  refine ⟨?_, ?_, trivial, rfl, rfl, ?_, rfl, rfl⟩
  · rw [h, absolute_mirror, ← mirrorVec_add]
  · have : (F1.mirrorWheel w).kin.w = w.kin.w := rfl
    rw [this, h, F1.cross_mirrorAxial, ← mirrorVec_add, rotZ_mirrorVec]
  · simp [Tyre.dissipation, F1.mirrorWheel]

theorem f1State_mirror (c : F1.Car) (m : F1.Members) (r : F1.RoadOut) (ground : Vec3) :
    f1State (F1.mirrorCar c) (F1.mirrorMembers m) (F1.mirrorRoad r) (mirrorVec ground)
      = mirrorState (f1State c m r ground)
        (understeer c.front.track c.chassis.xFront.1 c.chassis.xRear.1 m.u (-m.v) (-m.omega) (-m.steering) (-m.steering)) := by
  have e1 : ∀ t : ℝ, -(1 / 2) * t = -(1 / 2 * t) := fun t => by ring
  simp only [f1State, F1.carUpdate_mirror]
  generalize F1.carUpdate c m r = o
  simp only [mirrorState, State.mk.injEq]
  refine ⟨rfl, ?_, ?_, ?_, ?_⟩
  · rw [e1]
    exact f1Tyre_mirror c.front.R0 ground r.att c.chassis.xFront (1 / 2 * c.front.track) m.steering (m.u, m.v, r.groundVz)
      r.omega o.front.right
  · rw [e1]
    have h := f1Tyre_mirror c.front.R0 ground r.att c.chassis.xFront (-(1 / 2 * c.front.track)) m.steering
      (m.u, m.v, r.groundVz) r.omega o.front.left
    rw [neg_neg] at h
    exact h
  · rw [e1]
    have h := f1Tyre_mirror c.rear.R0 ground r.att c.chassis.xRear (1 / 2 * c.rear.track) 0 (m.u, m.v, r.groundVz)
      r.omega o.rear.right
    rw [neg_zero] at h
    exact h
  · rw [e1]
    have h := f1Tyre_mirror c.rear.R0 ground r.att c.chassis.xRear (-(1 / 2 * c.rear.track)) 0
      (m.u, m.v, r.groundVz) r.omega o.rear.left
    rw [neg_neg, neg_zero] at h
    exact h

theorem f1Track_mirror (c : F1.Car) (f : TrackPoint) (q u : Nat → ℝ) :
    f1Track (F1.mirrorCar c) (F1.mirrorTrack f) (F1.mirrorInputs q) (F1.mirrorControls u)
      = mirrorState (f1Track c f q u)
        (understeer c.front.track c.chassis.xFront.1 c.chassis.xRear.1 (q 4) (-q 5) (-q 6) (-u 0) (-u 0)) := by
  simp only [f1Track, F1.setState_mirror, F1.roadCurvilinear_mirror]
  rw [ground_mirror f (F1.setState c q u).road2 (F1.setState c q u).road3 (F1.setState c q u).u (F1.setState c q u).v
    (F1.setState c q u).omega (F1.mirrorMembers (F1.setState c q u)).road2 _ _ _ _ rfl, f1State_mirror]
  rfl

/-! ### The kart -/

theorem kartTyre_mirror (R0 : ℝ) (ground : Vec3) (a : Attitude) (axle daxle : Vec3) (y h dh delta : ℝ) (vel om : Vec3)
    (w : F1.WheelOut) :
    kartTyre R0 (mirrorVec ground) (mirrorAtt a) (mirrorVec axle) (mirrorVec daxle) (-y) h dh (-delta) (mirrorVec vel)
      (mirrorAxial om) (F1.mirrorWheel w) = mirrorTyre (kartTyre R0 ground a axle daxle y h dh delta vel om w) := by
  have h0 : ∀ z : ℝ, ((0, 0, z) : Vec3) = mirrorVec (0, 0, z) := fun z => by simp [mirrorVec]
  have hy : ∀ z, mirrorVec axle + (0, -y, z) = mirrorVec (axle + (0, y, z)) := fun z => by rw [mirrorVec_add]; rfl
  have hz : ∀ (v : Vec3) (z : ℝ), mirrorVec v + (0, 0, z) = mirrorVec (v + (0, 0, z)) := fun v z => by
    rw [mirrorVec_add, ← h0]
  simp only [kartTyre, mirrorTyre, TyreState.mk.injEq]
  refine ⟨?_, ?_, trivial, rfl, rfl, ?_, rfl, rfl⟩
  · rw [hy, absolute_mirror, ← mirrorVec_add]
  · have : (F1.mirrorWheel w).kin.w = w.kin.w := rfl
    rw [this, hy, hz, hz, F1.cross_mirrorAxial, ← mirrorVec_add, ← mirrorVec_add, rotZ_mirrorVec]
  · simp [Tyre.dissipation, F1.mirrorWheel]

theorem kartAxle_mirror (c : Kart.Vehicle) (m : Kart.Members) (k : Kart.AxleK) (x : Vec3) (delta : ℝ) (o : Kart.AxleOut)
    (ground : Vec3) (a : Attitude) (hb : k.susp.betaL = -k.susp.betaR ∨ delta = 0) :
    kartAxle (Kart.mirrorKart c) (Kart.mirrorMembers m) (Kart.mirrorAxle k) (mirrorVec x) (-delta) (Kart.mirrorAxleOut o)
        (mirrorVec ground) (mirrorAtt a)
      = (mirrorTyre (kartAxle c m k x delta o ground a).2, mirrorTyre (kartAxle c m k x delta o ground a).1) := by
  have hdz : ((0, 0, (Kart.mirrorMembers m).dz) : Vec3) = mirrorVec (0, 0, m.dz) := by
    simp [mirrorVec, Kart.mirrorMembers]
  have hv : (((Kart.mirrorMembers m).u, (Kart.mirrorMembers m).v, 0) : Vec3) = mirrorVec (m.u, m.v, 0) := rfl
  have ho : ((0, 0, (Kart.mirrorMembers m).omega) : Vec3) = mirrorAxial (0, 0, m.omega) := by
    simp [mirrorAxial, Kart.mirrorMembers]
  have hz : ∀ x : Vec3, (mirrorVec x).2.2 = x.2.2 := fun _ => rfl
  have ht : (Kart.mirrorAxle k).susp.track = k.susp.track := rfl
  have hR : (Kart.mirrorAxle k).susp.R0 = k.susp.R0 := rfl
  have hp : (Kart.mirrorMembers m).phi = -m.phi := rfl
  have hdp : (Kart.mirrorMembers m).dphi = -m.dphi := rfl
  have e1 : -(1 / 2) * k.susp.track = -(1 / 2 * k.susp.track) := by ring
  have e2 : 1 / 2 * k.susp.track = -(-(1 / 2) * k.susp.track) := by ring
  simp only [kartAxle, Kart.comPosition_mirror, Kart.axlePosition_mirror, Kart.axleVelocity_mirror, hdz, hv, ho, hp, hdp, ht,
    hR, ← mirrorVec_add, hz, Kart.heights_mirror k _ _ _ hb, Kart.velocities_mirror, Prod.fst_swap, Prod.snd_swap,
    Kart.mirrorAxleOut]
  generalize ((0, 0, m.dz) : Vec3) + Kart.axleVelocity x m = V
  generalize Power.tyreHeight k.susp _ m.phi delta = H
  generalize Power.tyreVelocity k.susp V.2.2 m.dphi = dH
  have hl := kartTyre_mirror k.susp.R0 ground a o.position V (1 / 2 * k.susp.track) H.2 dH.2 delta (m.u, m.v, 0)
    (0, 0, m.omega) o.right
  have hr := kartTyre_mirror k.susp.R0 ground a o.position V (-(1 / 2) * k.susp.track) H.1 dH.1 delta (m.u, m.v, 0)
    (0, 0, m.omega) o.left
  rw [← e1] at hl
  rw [← e2] at hr
  rw [hl, hr]

theorem kartTrack_mirror {solve : Vec3 × Vec3 × Vec3 → Vec3 → Vec3} (hs : Kart.Solver solve) (c : Kart.Vehicle)
    (f : TrackPoint) (q u : Nat → ℝ) (hdet : Kart.det (Kart.eulerM c (Kart.setState q u)) ≠ 0)
    (hb : c.front.susp.betaL = -c.front.susp.betaR ∨ u 0 = 0) :
    kartTrack solve (Kart.mirrorKart c) (F1.mirrorTrack f) (Kart.mirrorInputs q) (Kart.mirrorControls u)
      = mirrorState (kartTrack solve c f q u)
        (understeer c.front.susp.track (Kart.frontAxle c (Kart.setState q u)).position.1
          (Kart.rearAxle c (Kart.setState q u)).position.1 (q 1) (-q 2) (-q 3) (-u 0) (-u 0)) := by
  simp only [kartTrack, Kart.setState_mirror]
  obtain ⟨m, hm⟩ : ∃ m, m = Kart.setState q u := ⟨_, rfl⟩
  have h1 : q 1 = m.u := by rw [hm]; rfl
  have h2 : q 2 = m.v := by rw [hm]; rfl
  have h3 : q 3 = m.omega := by rw [hm]; rfl
  have h4 : u 0 = m.steering := by rw [hm]; rfl
  rw [h1, h2, h3, h4]
  rw [h4] at hb
  rw [← hm] at hdet ⊢
  rw [ground_mirror f m.road2 m.road3 m.u m.v m.omega (Kart.mirrorMembers m).road2 _ _ _ _ rfl]
  generalize (Road.update f m.road2 m.road3 m.u m.v m.omega).position = ground
  have ha : (⟨(F1.mirrorTrack f).yaw, 0, 0, (Kart.mirrorMembers m).road3⟩ : Attitude) = mirrorAtt ⟨f.yaw, 0, 0, m.road3⟩ := by
    simp [mirrorAtt, F1.mirrorTrack, Kart.mirrorMembers]
  have hy : (F1.mirrorTrack f).yaw + (Kart.mirrorMembers m).road3 = -(f.yaw + m.road3) := (neg_add _ _).symm
  have hF := kartAxle_mirror c m c.front c.xFront m.steering (Kart.frontAxle c m) ground ⟨f.yaw, 0, 0, m.road3⟩ hb
  have hR := kartAxle_mirror c m c.rear c.xRear 0 (Kart.rearAxle c m) ground ⟨f.yaw, 0, 0, m.road3⟩ (Or.inr rfl)
  rw [neg_zero] at hR
  rw [← ha] at hF hR
  simp only [kartState, hy, Kart.totalForce_mirror c m _ hb, Kart.totalTorque_mirror c m _ hb,
    Kart.angularAcceleration_mirror hs c m _ hdet hb, Kart.frontAxle_mirror c m hb, Kart.rearAxle_mirror]
  have hF' := congrArg Prod.fst hF
  have hF'' := congrArg Prod.snd hF
  have hR' := congrArg Prod.fst hR
  have hR'' := congrArg Prod.snd hR
  simp only [mirrorState, State.mk.injEq]
  refine ⟨?_, hF', hF'', hR', hR''⟩
  simp only [mirrorChassis, ChassisState.mk.injEq]
  exact ⟨rfl, rfl, rfl, trivial, trivial, trivial, rfl, trivial, ha, rfl, rfl⟩

end Verif.Outputs
