import Verif.Lemmas.Kart
import Verif.Lemmas.F1
import Verif.Lemmas.Tyre

/-! # Mirror image of the kart: lemmas -/

set_option autoImplicit false

namespace Verif.Kart

open Verif.Road Verif.Chassis Real
open Verif.F1 (WheelOut mirrorVec mirrorAxial mirrorWheel mirrorVec_add mirrorVec_neg mirrorVec_smul mirrorAxial_add
  cross_mirrorVec cross_mirrorAxial rotZ_mirrorVec mirrorTrack mirrorAtt)

/-- The mirror image of the members. -/
def mirrorMembers (m : Members) : Members :=
  { m with v := -m.v, omega := -m.omega, phi := -m.phi, dphi := -m.dphi, steering := -m.steering, road2 := -m.road2,
           road3 := -m.road3 }

/-- The mirror image of an axle after its update. -/
noncomputable def mirrorAxleOut (a : AxleOut) : AxleOut :=
  ⟨mirrorWheel a.right, mirrorWheel a.left, (mirrorVec a.forces.1, mirrorAxial a.forces.2), mirrorVec a.position⟩

/-- The mirror image of what the road gives. -/
def mirrorRoad (r : RoadOut) : RoadOut := ⟨-r.heading, r.dtimeds, (r.rates.1, -r.rates.2.1, -r.rates.2.2)⟩

theorem setState_mirror (q u : Nat → ℝ) :
    setState (mirrorInputs q) (mirrorControls u) = mirrorMembers (setState q u) := rfl

theorem stdX_neg (p : Tyre.Std) (k l Fz : ℝ) : Tyre.stdX p k (-l) Fz = Tyre.stdX p k l Fz := by
  simp only [Tyre.stdX, mul_neg, arctan_neg, cos_neg]

theorem stdY_neg (p : Tyre.Std) (k l Fz : ℝ) : Tyre.stdY p k (-l) Fz = -Tyre.stdY p k l Fz := by
  simp only [Tyre.stdY, Tyre.stdPureY, Tyre.magic_neg, mul_neg]

theorem wheelUpdate_mirror (a : AxleK) (axle daxle : Vec3) (y h dh delta : ℝ) (vel om : Vec3) (omega : ℝ) :
    wheelUpdate (mirrorAxle a) (mirrorVec axle) (mirrorVec daxle) (-y) h dh (-delta) (mirrorVec vel) (mirrorAxial om)
      omega = mirrorWheel (wheelUpdate a axle daxle y h dh delta vel om omega) := by
  have hy : ∀ z : ℝ, ((0, -y, z) : Vec3) = mirrorVec (0, y, z) := fun z => rfl
  have h0 : ∀ z : ℝ, ((0, 0, z) : Vec3) = mirrorVec (0, 0, z) := fun z => by simp [mirrorVec]
  have hz : ∀ x : Vec3, (mirrorVec x).2.2 = x.2.2 := fun _ => rfl
  have hR : (mirrorAxle a).susp.R0 = a.susp.R0 := rfl
  have e1 : mirrorVec axle + ((0, -y, h) : Vec3) = mirrorVec (axle + (0, y, h)) := by rw [hy, mirrorVec_add]
  have e2 : mirrorVec daxle + ((0, 0, dh) : Vec3) = mirrorVec (daxle + (0, 0, dh)) := by
    rw [mirrorVec_add, ← h0]
  have e3 : ∀ z : ℝ, mirrorVec vel + mirrorVec (daxle + (0, 0, dh))
      + cross (mirrorAxial om) (mirrorVec (axle + (0, y, h)) + ((0, 0, z) : Vec3))
      = mirrorVec (vel + (daxle + (0, 0, dh)) + cross om (axle + (0, y, h) + (0, 0, z))) := fun z => by
    have e : mirrorVec (axle + (0, y, h)) + ((0, 0, z) : Vec3) = mirrorVec (axle + (0, y, h) + (0, 0, z)) := by
      rw [mirrorVec_add _ (0, 0, z), ← h0]
    rw [e, cross_mirrorAxial, ← mirrorVec_add, ← mirrorVec_add]
  simp only [wheelUpdate, hR, e1, e2, e3, hz, rotZ_mirrorVec]
  generalize rotZ (-delta) (vel + (daxle + (0, 0, dh)) + cross om (axle + (0, y, h) +
    (0, 0, a.susp.R0 - ((axle + (0, y, h)).2.2 + a.susp.R0)))) = v
  generalize (vel + (daxle + (0, 0, dh)) + cross om (axle + (0, y, h) + (0, 0, a.susp.R0))).2.2 = dw
  have hx : (mirrorVec v).1 = v.1 := rfl
  have hl : -(mirrorVec v).2.1 / v.1 = -(-v.2.1 / v.1) := by simp only [mirrorVec]; ring
  simp only [mirrorWheel, Tyre.updateOmega, hl, hx, mirrorAxle, stdX_neg, stdY_neg]
  simp only [mirrorVec, Tyre.forceTorque, mirrorAxial]
  congr 2
  ext <;> simp

/-- The heights and vertical velocities of the tyres are exchanged. -/
theorem heights_mirror (a : AxleK) (z phi delta : ℝ) (hb : a.susp.betaL = -a.susp.betaR ∨ delta = 0) :
    Power.tyreHeight (mirrorAxle a).susp z (-phi) (-delta) = (Power.tyreHeight a.susp z phi delta).swap := by
  have hb' : a.susp.betaL * delta = -(a.susp.betaR * delta) := by rcases hb with hb | hb <;> rw [hb] <;> ring
  simp only [Power.tyreHeight, Power.chassisDeformation, Power.tyreDeformation, Power.displSym, Power.displAsym,
    Power.symK, Power.asymK, mirrorAxle, Prod.swap_prod_mk, neg_mul_neg, hb']
  by_cases hs : a.susp.steering = true
  · simp only [hs, if_true]
    refine Prod.ext ?_ ?_ <;> simp only <;> ring
  · simp only [hs]
    refine Prod.ext ?_ ?_ <;> simp <;> ring

theorem velocities_mirror (a : AxleK) (dz dphi : ℝ) :
    Power.tyreVelocity (mirrorAxle a).susp dz (-dphi) = (Power.tyreVelocity a.susp dz dphi).swap := by
  simp only [Power.tyreVelocity, Power.chassisDeformation, Power.tyreDeformation, Power.displRates,
    Power.symK, Power.asymK, mirrorAxle, Prod.swap_prod_mk]
  refine Prod.ext ?_ ?_ <;> simp only <;> ring

theorem comPosition_mirror (c : Vehicle) (m : Members) :
    comPosition (mirrorKart c) (mirrorMembers m) = mirrorVec (comPosition c m) := by
  apply vec_ext <;> simp [comPosition, mirrorKart, mirrorMembers, mirrorVec]

theorem axlePosition_mirror (x : Vec3) (m : Members) :
    axlePosition (mirrorVec x) (mirrorMembers m) = mirrorVec (axlePosition x m) := by
  apply vec_ext <;> simp [axlePosition, mirrorMembers, mirrorVec]

theorem axleVelocity_mirror (x : Vec3) (m : Members) :
    axleVelocity (mirrorVec x) (mirrorMembers m) = mirrorVec (axleVelocity x m) := by
  apply vec_ext <;> simp [axleVelocity, mirrorMembers, mirrorVec]

theorem axleUpdate_mirror (c : Vehicle) (m : Members) (a : AxleK) (x : Vec3) (delta omega : ℝ)
    (hb : a.susp.betaL = -a.susp.betaR ∨ delta = 0) :
    axleUpdate (mirrorKart c) (mirrorMembers m) (mirrorAxle a) (mirrorVec x) (-delta) omega
      = mirrorAxleOut (axleUpdate c m a x delta omega) := by
  have hdz : ((0, 0, (mirrorMembers m).dz) : Vec3) = mirrorVec (0, 0, m.dz) := by simp [mirrorVec, mirrorMembers]
  have hv : (((mirrorMembers m).u, (mirrorMembers m).v, 0) : Vec3) = mirrorVec (m.u, m.v, 0) := rfl
  have ho : ((0, 0, (mirrorMembers m).omega) : Vec3) = mirrorAxial (0, 0, m.omega) := by
    simp [mirrorAxial, mirrorMembers]
  have hz : ∀ x : Vec3, (mirrorVec x).2.2 = x.2.2 := fun _ => rfl
  have ht : (mirrorAxle a).susp.track = a.susp.track := rfl
  have hp : (mirrorMembers m).phi = -m.phi := rfl
  have hdp : (mirrorMembers m).dphi = -m.dphi := rfl
  have e1 : -(1 / 2) * a.susp.track = -(1 / 2 * a.susp.track) := by ring
  have e2 : 1 / 2 * a.susp.track = -(-(1 / 2) * a.susp.track) := by ring
  simp only [axleUpdate, comPosition_mirror, axlePosition_mirror, axleVelocity_mirror, hdz, hv, ho, hp, hdp, ht,
    ← mirrorVec_add, hz, heights_mirror a _ _ _ hb, velocities_mirror, Prod.fst_swap, Prod.snd_swap, mirrorAxleOut]
  generalize comPosition c m + axlePosition x m = X
  generalize ((0, 0, m.dz) : Vec3) + axleVelocity x m = V
  generalize Power.tyreHeight a.susp X.2.2 m.phi delta = H
  generalize Power.tyreVelocity a.susp V.2.2 m.dphi = dH
  have hl := wheelUpdate_mirror a X V (1 / 2 * a.susp.track) H.2 dH.2 delta (m.u, m.v, 0) (0, 0, m.omega) omega
  have hr := wheelUpdate_mirror a X V (-(1 / 2) * a.susp.track) H.1 dH.1 delta (m.u, m.v, 0) (0, 0, m.omega) omega
  rw [← e1] at hl
  rw [← e2] at hr
  rw [hl, hr, F1.axleForces_mirror]

theorem frontAxle_mirror (c : Vehicle) (m : Members)
    (hb : c.front.susp.betaL = -c.front.susp.betaR ∨ m.steering = 0) :
    frontAxle (mirrorKart c) (mirrorMembers m) = mirrorAxleOut (frontAxle c m) :=
  axleUpdate_mirror c m c.front c.xFront m.steering 0 hb

theorem rearAxle_mirror (c : Vehicle) (m : Members) :
    rearAxle (mirrorKart c) (mirrorMembers m) = mirrorAxleOut (rearAxle c m) := by
  have h := axleUpdate_mirror c m c.rear c.xRear 0 m.omegaAxle (Or.inr rfl)
  rw [neg_zero] at h
  exact h

theorem aeroForce_mirror (c : Vehicle) (m : Members) (heading : ℝ) :
    aeroForce (mirrorKart c) (mirrorMembers m) (-heading) = mirrorVec (aeroForce c m heading) := by
  have h := F1.aeroForces_mirror c.aero ⟨0, 0, 0, heading⟩ (m.u, m.v, 0)
  simp only [mirrorAtt, neg_zero] at h
  have hv : ((m.u, -m.v, 0) : Vec3) = mirrorVec (m.u, m.v, 0) := rfl
  simp only [aeroForce, mirrorVec_add, ← h.1, ← h.2]
  rfl

theorem totalForce_mirror (c : Vehicle) (m : Members) (heading : ℝ)
    (hb : c.front.susp.betaL = -c.front.susp.betaR ∨ m.steering = 0) :
    totalForce (mirrorKart c) (mirrorMembers m) (-heading) = mirrorVec (totalForce c m heading) := by
  have hw : ((0, 0, (mirrorKart c).mass * (mirrorKart c).g0) : Vec3) = mirrorVec (0, 0, c.mass * c.g0) := by
    simp [mirrorVec, mirrorKart]
  simp only [totalForce, frontAxle_mirror c m hb, rearAxle_mirror, aeroForce_mirror, hw, mirrorAxleOut, mirrorVec_add]

theorem totalTorque_mirror (c : Vehicle) (m : Members) (heading : ℝ)
    (hb : c.front.susp.betaL = -c.front.susp.betaR ∨ m.steering = 0) :
    totalTorque (mirrorKart c) (mirrorMembers m) (-heading) = mirrorAxial (totalTorque c m heading) := by
  simp only [totalTorque, frontAxle_mirror c m hb, rearAxle_mirror, aeroForce_mirror, comPosition_mirror, mirrorAxleOut,
    cross_mirrorVec, mirrorAxial_add]

theorem dvdt_mirror (c : Vehicle) (m : Members) (heading : ℝ)
    (hb : c.front.susp.betaL = -c.front.susp.betaR ∨ m.steering = 0) :
    dvdt (mirrorKart c) (mirrorMembers m) (-heading) = mirrorVec (dvdt c m heading) := by
  have hn : newtonLhs (mirrorMembers m) = mirrorVec (newtonLhs m) := by
    apply vec_ext <;> simp [newtonLhs, mirrorMembers, mirrorVec, cross]
  simp only [dvdt, hn, totalForce_mirror c m heading hb, mirrorVec_add, mirrorVec_neg, mirrorVec_smul]
  rfl

theorem eulerLhs_mirror (c : Vehicle) (m : Members) (du dv : ℝ) :
    eulerLhs (mirrorKart c) (mirrorMembers m) du (-dv) = mirrorAxial (eulerLhs c m du dv) := by
  apply vec_ext <;> simp only [eulerLhs, mirrorKart, mirrorMembers, mirrorAxial, mirrorVec] <;> ring

theorem eulerM_mirror (c : Vehicle) (m : Members) (x : Vec3) :
    mulVec (eulerM (mirrorKart c) (mirrorMembers m)) (mirrorAxial x) = mirrorAxial (mulVec (eulerM c m) x) := by
  apply vec_ext <;> simp only [eulerM, mirrorKart, mirrorMembers, mirrorAxial, mulVec, dot] <;> ring

theorem det_mirror (c : Vehicle) (m : Members) :
    det (eulerM (mirrorKart c) (mirrorMembers m)) = det (eulerM c m) := by
  simp only [eulerM, mirrorKart, mirrorMembers, det, dot, cross]
  ring

theorem angularAcceleration_mirror {solve : Vec3 × Vec3 × Vec3 → Vec3 → Vec3} (hs : Solver solve) (c : Vehicle)
    (m : Members) (heading : ℝ) (hdet : det (eulerM c m) ≠ 0)
    (hb : c.front.susp.betaL = -c.front.susp.betaR ∨ m.steering = 0) :
    angularAcceleration solve (mirrorKart c) (mirrorMembers m) (-heading)
      = mirrorAxial (angularAcceleration solve c m heading) := by
  have hd := hdet
  rw [← det_mirror] at hd
  apply mulVec_inj hd
  rw [eulerM_mirror]
  simp only [angularAcceleration]
  rw [hs _ _ hd, hs _ _ hdet, dvdt_mirror c m heading hb, totalTorque_mirror c m heading hb, mirrorAxial_add]
  congr 1
  have e := eulerLhs_mirror c m (dvdt c m heading).1 (dvdt c m heading).2.1
  have e1 : eulerLhs (mirrorKart c) (mirrorMembers m) (mirrorVec (dvdt c m heading)).1 (mirrorVec (dvdt c m heading)).2.1
      = mirrorAxial (eulerLhs c m (dvdt c m heading).1 (dvdt c m heading).2.1) := e
  rw [e1]
  apply vec_ext <;> simp [mirrorAxial]

theorem axleAcceleration_mirror (c : Vehicle) (m : Members) :
    axleAcceleration (mirrorKart c) (mirrorMembers m) = axleAcceleration c m := by
  simp only [axleAcceleration, rearAxle_mirror, mirrorAxleOut, mirrorWheel, Tyre.wheelTorque]
  have e : (mirrorKart c).power = c.power := rfl
  have e1 : (mirrorKart c).IAxle = c.IAxle := rfl
  have e2 : (mirrorMembers m).throttle = m.throttle := rfl
  have e3 : (mirrorMembers m).omegaAxle = m.omegaAxle := rfl
  rw [e, e1, e2, e3]
  congr 1
  ring

theorem roadCurvilinear_mirror (f : TrackPoint) (m : Members) :
    roadCurvilinear (mirrorTrack f) (mirrorMembers m) = mirrorRoad (roadCurvilinear f m) := by
  have hd : (1 - -m.road2 * -(curvature f).2.2) / (m.u * cos (-m.road3) - -m.v * sin (-m.road3)) =
      (1 - m.road2 * (curvature f).2.2) / (m.u * cos m.road3 - m.v * sin m.road3) := by
    simp
  have hk : (curvature (mirrorTrack f)).2.2 = -(curvature f).2.2 := by rw [F1.curvature_mirror]; rfl
  simp only [roadCurvilinear, Road.update, mirrorMembers, hk, hd]
  generalize (1 - m.road2 * (curvature f).2.2) / (m.u * cos m.road3 - m.v * sin m.road3) = d
  simp only [mirrorTrack, mirrorRoad, RoadOut.mk.injEq, Prod.mk.injEq]
  refine ⟨by ring, trivial, trivial, ?_, by ring⟩
  simp only [sin_neg, cos_neg]; ring

theorem roadCartesian_mirror (m : Members) : roadCartesian (mirrorMembers m) = mirrorRoad (roadCartesian m) := by
  simp only [roadCartesian, mirrorMembers, mirrorRoad, cartesian, RoadOut.mk.injEq, Prod.mk.injEq]
  refine ⟨trivial, trivial, ?_, ?_, trivial⟩ <;> simp only [sin_neg, cos_neg] <;> ring

theorem evaluate_mirror {solve : Vec3 × Vec3 × Vec3 → Vec3 → Vec3} (hs : Solver solve) (c : Vehicle) (m : Members)
    (r : RoadOut) (hdet : det (eulerM c m) ≠ 0) (hb : c.front.susp.betaL = -c.front.susp.betaR ∨ m.steering = 0) :
    evaluate solve (mirrorKart c) (mirrorMembers m) (mirrorRoad r) =
      ⟨mirrorStates (evaluate solve c m r).states, mirrorStates (evaluate solve c m r).dstates⟩ := by
  have e : (mirrorRoad r).heading = -r.heading := rfl
  simp only [evaluate, allStates, e, dvdt_mirror c m _ hb, angularAcceleration_mirror hs c m _ hdet hb,
    axleAcceleration_mirror]
  generalize dvdt c m r.heading = a
  generalize angularAcceleration solve c m r.heading = b
  simp only [mirrorMembers, mirrorRoad, mirrorVec, mirrorAxial, mirrorStates, List.map_cons, List.map_nil, neg_mul]

end Verif.Kart
