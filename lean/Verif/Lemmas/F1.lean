import Verif.Spec.F1
import Verif.Lemmas.Chassis
import Mathlib.Tactic.LinearCombination

/-! Helper lemmas for the F1 car. -/

set_option autoImplicit false

namespace Verif.F1

open Verif.Road Verif.Chassis

theorem mirrorVec_add (a b : Vec3) : mirrorVec (a + b) = mirrorVec a + mirrorVec b := by
  apply vec_ext <;> simp [mirrorVec]; ring

theorem mirrorAxial_add (a b : Vec3) : mirrorAxial (a + b) = mirrorAxial a + mirrorAxial b := by
  apply vec_ext <;> simp [mirrorAxial] <;> ring

theorem mirrorVec_neg (a : Vec3) : mirrorVec (-a) = -mirrorVec a := by apply vec_ext <;> simp [mirrorVec]

theorem mirrorVec_sub (a b : Vec3) : mirrorVec (a - b) = mirrorVec a - mirrorVec b := by
  apply vec_ext <;> simp [mirrorVec]; ring

theorem mirrorVec_smul (c : ℝ) (a : Vec3) : mirrorVec (c • a) = c • mirrorVec a := by
  apply vec_ext <;> simp [mirrorVec]

theorem cross_mirrorVec (a b : Vec3) : cross (mirrorVec a) (mirrorVec b) = mirrorAxial (cross a b) := by
  apply vec_ext <;> simp [mirrorVec, mirrorAxial, cross] <;> ring

theorem cross_mirrorAxial (a b : Vec3) : cross (mirrorAxial a) (mirrorVec b) = mirrorVec (cross a b) := by
  apply vec_ext <;> simp [mirrorVec, mirrorAxial, cross]; ring

theorem rotZ_mirrorVec (t : ℝ) (v : Vec3) : rotZ (-t) (mirrorVec v) = mirrorVec (rotZ t v) := by
  apply vec_ext <;> simp [mirrorVec, rotZ]; ring

theorem rotZ_mirrorAxial (t : ℝ) (v : Vec3) : rotZ (-t) (mirrorAxial v) = mirrorAxial (rotZ t v) := by
  apply vec_ext <;> simp [mirrorAxial, rotZ]; ring

theorem rotY_mirrorVec (t : ℝ) (v : Vec3) : rotY t (mirrorVec v) = mirrorVec (rotY t v) := by
  apply vec_ext <;> simp [mirrorVec, rotY]

theorem rotX_mirrorVec (t : ℝ) (v : Vec3) : rotX (-t) (mirrorVec v) = mirrorVec (rotX t v) := by
  apply vec_ext <;> simp [mirrorVec, rotX]; ring

/-- The mirror image of an attitude. -/
def mirrorAtt (a : Attitude) : Attitude := ⟨-a.yaw, a.pitch, -a.roll, -a.heading⟩

theorem toBody_mirror (a : Attitude) (v : Vec3) : toBody (mirrorAtt a) (mirrorVec v) = mirrorVec (toBody a v) := by
  simp only [toBody, mirrorAtt, rotZ_mirrorVec, rotY_mirrorVec, rotX_mirrorVec]

theorem omegaBody_mirror (a : Attitude) (dy dp dr dh : ℝ) :
    omegaBody (mirrorAtt a) (-dy) dp (-dr) (-dh) = mirrorAxial (omegaBody a dy dp dr dh) := by
  apply vec_ext <;> simp [omegaBody, mirrorAtt, mirrorAxial, rotZ] <;> ring

theorem gravity_mirror (m g0 : ℝ) (a : Attitude) : gravity m g0 (mirrorAtt a) = mirrorVec (gravity m g0 a) := by
  apply vec_ext <;> simp [gravity, mirrorAtt, mirrorVec]
  ring

/-- The mirror image of the aerodynamic parameters. -/
def mirrorAero (p : Aero) : Aero := { p with northward := -p.northward }

theorem aeroForces_mirror (p : Aero) (a : Attitude) (v : Vec3) :
    (aeroForces (mirrorAero p) (mirrorAtt a) (mirrorVec v)).lift = mirrorVec (aeroForces p a v).lift ∧
    (aeroForces (mirrorAero p) (mirrorAtt a) (mirrorVec v)).drag = mirrorVec (aeroForces p a v).drag := by
  have hw : ((p.eastward, -(-p.northward), 0) : Vec3) = mirrorVec (p.eastward, -p.northward, 0) := rfl
  constructor
  · simp only [aeroForces, mirrorAero, hw, toBody_mirror, ← mirrorVec_neg, ← mirrorVec_add]
    apply vec_ext <;> simp [mirrorVec]
  · simp only [aeroForces, mirrorAero, hw, toBody_mirror, ← mirrorVec_neg, ← mirrorVec_add, mirrorVec_smul]
    congr 1
    simp only [mirrorVec, neg_mul_neg]

/-- The mirror image of a wheel. -/
def mirrorWheel (w : WheelOut) : WheelOut :=
  { kin := { w.kin with vy := -w.kin.vy, lambda := -w.kin.lambda }
    Fx := w.Fx, Fy := -w.Fy, Fz := w.Fz
    wheel := ⟨mirrorVec w.wheel.force, mirrorAxial w.wheel.torque, -w.wheel.delta, mirrorVec w.wheel.position⟩ }

theorem rho_neg (p : Tyre.Simple) (k l Fz : ℝ) : Tyre.rho p k (-l) Fz = Tyre.rho p k l Fz := by
  simp only [Tyre.rho, neg_div, neg_mul_neg]

theorem simpleX_neg (p : Tyre.Simple) (k l Fz : ℝ) : Tyre.simpleX p k (-l) Fz = Tyre.simpleX p k l Fz := by
  simp only [Tyre.simpleX, rho_neg]

theorem simpleY_neg (p : Tyre.Simple) (k l Fz : ℝ) : Tyre.simpleY p k (-l) Fz = -Tyre.simpleY p k l Fz := by
  simp only [Tyre.simpleY, rho_neg, neg_div, mul_neg]

theorem wheelUpdate_mirror (p : AxleP) (x : Vec3) (y delta : ℝ) (vel om : Vec3) (Fz kd : ℝ) :
    wheelUpdate p (mirrorVec x) (-y) (-delta) (mirrorVec vel) (mirrorAxial om) Fz kd =
      mirrorWheel (wheelUpdate p x y delta vel om Fz kd) := by
  have hz : (mirrorVec x).2.2 = x.2.2 := rfl
  have hc : mirrorVec x + ((0, -y, p.R0 - (x.2.2 + p.R0)) : Vec3) = mirrorVec (x + (0, y, p.R0 - (x.2.2 + p.R0))) := by
    rw [mirrorVec_add]; rfl
  have hv : rotZ (-(-delta)) (mirrorVec vel + cross (mirrorAxial om) (mirrorVec x + ((0, -y, p.R0 - (x.2.2 + p.R0)) : Vec3))) =
      mirrorVec (rotZ (-delta) (vel + cross om (x + (0, y, p.R0 - (x.2.2 + p.R0))))) := by
    rw [hc, cross_mirrorAxial, ← mirrorVec_add, rotZ_mirrorVec]
  simp only [wheelUpdate, hz, hv]
  generalize rotZ (-delta) (vel + cross om (x + (0, y, p.R0 - (x.2.2 + p.R0)))) = v
  have hl : -(mirrorVec v).2.1 / (mirrorVec v).1 = -(-v.2.1 / v.1) := by simp only [mirrorVec]; ring
  simp only [mirrorWheel, Tyre.updateKappa, hl, simpleX_neg, simpleY_neg]
  simp only [mirrorVec, Tyre.forceTorque, mirrorAxial]
  congr 2
  ext <;> simp

theorem axleForces_mirror (l r : WheelOut) :
    axleForces (mirrorWheel r).wheel (mirrorWheel l).wheel =
      (mirrorVec (axleForces l.wheel r.wheel).1, mirrorAxial (axleForces l.wheel r.wheel).2) := by
  simp only [axleForces, mirrorWheel, rotZ_mirrorVec, rotZ_mirrorAxial, cross_mirrorVec, mirrorVec_add, mirrorAxial_add]
  exact Prod.ext (add_comm _ _) (add_comm _ _)

/-- The mirror image of an axle. -/
noncomputable def mirrorAxle (a : AxleOut) : AxleOut :=
  ⟨mirrorWheel a.right, mirrorWheel a.left, a.torqueR, a.torqueL, a.dR, a.dL,
    (mirrorVec a.forces.1, mirrorAxial a.forces.2)⟩

theorem axleUpdate_mirror (p : AxleP) (x : Vec3) (delta : ℝ) (vel om : Vec3) (Fl Fr kl kr : ℝ)
    (t : ℝ → ℝ → ℝ × ℝ) (ht : ∀ a b, t b a = (t a b).swap) :
    axleUpdate p (mirrorVec x) (-delta) (mirrorVec vel) (mirrorAxial om) Fr Fl kr kl t =
      mirrorAxle (axleUpdate p x delta vel om Fl Fr kl kr t) := by
  have h1 := wheelUpdate_mirror p x (1 / 2 * p.track) delta vel om Fr kr
  have h2 := wheelUpdate_mirror p x (-(1 / 2) * p.track) delta vel om Fl kl
  have e1 : -(1 / 2 * p.track) = -(1 / 2) * p.track := by ring
  have e2 : -(-(1 / 2) * p.track) = 1 / 2 * p.track := by ring
  rw [e1] at h1
  rw [e2] at h2
  simp only [axleUpdate, h1, h2, axleForces_mirror, mirrorAxle]
  generalize wheelUpdate p x (-(1 / 2) * p.track) delta vel om Fl kl = l
  generalize wheelUpdate p x (1 / 2 * p.track) delta vel om Fr kr = r
  have ho (w : WheelOut) : (mirrorWheel w).kin.omega = w.kin.omega := rfl
  simp only [ho, ht l.kin.omega r.kin.omega, Prod.fst_swap, Prod.snd_swap]
  rfl

theorem steeringTorques_swap (a : Power.Axle3) (th b ol or : ℝ) :
    Power.steeringTorques a th b or ol = (Power.steeringTorques a th b ol or).swap := rfl

theorem poweredTorques_swap (a : Power.Axle3) (th bo b ol or : ℝ) :
    Power.poweredTorques a th bo b or ol = (Power.poweredTorques a th bo b ol or).swap := by
  have e : 1 / 2 * (or + ol) = 1 / 2 * (ol + or) := by ring
  simp only [Power.poweredTorques, e, Prod.swap_prod_mk]
  refine Prod.ext ?_ ?_ <;> simp only <;> ring

/-- The mirror image of the chassis parameters. -/
def mirrorParams (p : Params) : Params :=
  { p with aero := mirrorAero p.aero, xCom := mirrorVec p.xCom, xFront := mirrorVec p.xFront
           xRear := mirrorVec p.xRear, xAero := mirrorVec p.xAero }

/-- The mirror image of the inputs of the chassis. -/
def mirrorInput (i : Input) : Input :=
  ⟨i.u, -i.v, -i.omegaZ, i.groundVz, mirrorAtt i.att, -i.omegaX, i.omegaY, i.fr, i.fl, i.rr, i.rl⟩

/-- The mirror image of the outputs of the chassis. -/
noncomputable def mirrorOutput (o : Output) : Output :=
  ⟨mirrorVec o.force, mirrorAxial o.torque, mirrorVec o.comVelocity, mirrorVec o.comVelocityDot,
    -o.rollMomentum, o.pitchMomentum, -o.rollMomentumDot, o.pitchMomentumDot, -o.yawRateDot, -o.rollBalance⟩

theorem aeroForce_mirror (p : Params) (i : Input) :
    aeroForce (mirrorParams p) (mirrorInput i) = mirrorVec (aeroForce p i) := by
  have h := aeroForces_mirror p.aero i.att (i.u, i.v, i.groundVz)
  have hv : ((i.u, -i.v, i.groundVz) : Vec3) = mirrorVec (i.u, i.v, i.groundVz) := rfl
  simp only [aeroForce, mirrorParams, mirrorInput, hv, h.1, h.2, mirrorVec_add]

theorem totalTorque_mirror (p : Params) (i : Input) (F R : Vec3 × Vec3) :
    totalTorque (mirrorParams p) (mirrorInput i) (mirrorVec F.1, mirrorAxial F.2) (mirrorVec R.1, mirrorAxial R.2) =
      mirrorAxial (totalTorque p i F R) := by
  simp only [totalTorque, aeroForce_mirror]
  simp only [mirrorParams, ← mirrorVec_sub, ← mirrorVec_add, ← mirrorVec_neg, cross_mirrorVec, ← mirrorAxial_add]

theorem update_mirror (p : Params) (i : Input) (F R : Vec3 × Vec3) :
    Chassis.update (mirrorParams p) (mirrorInput i) (mirrorVec F.1, mirrorAxial F.2) (mirrorVec R.1, mirrorAxial R.2) =
      mirrorOutput (Chassis.update p i F R) := by
  have hg : gravity (mirrorParams p).mass (mirrorParams p).g0 (mirrorInput i).att =
      mirrorVec (gravity p.mass p.g0 i.att) := gravity_mirror _ _ _
  simp only [Chassis.update, totalTorque_mirror, aeroForce_mirror, hg, ← mirrorVec_add]
  generalize totalTorque p i F R = T
  generalize F.1 + R.1 + aeroForce p i + gravity p.mass p.g0 i.att = G
  simp only [mirrorOutput, mirrorParams, mirrorInput, Params.h, mirrorVec, mirrorAxial, Output.mk.injEq, Prod.mk.injEq]
  refine ⟨trivial, trivial, ?_, ?_, ?_, ?_, ?_, ?_, ?_, ?_⟩ <;> (try refine ⟨?_, ?_, ?_⟩) <;> first | trivial | ring1

/-- The mirror image of the members. -/
def mirrorMembers (m : Members) : Members :=
  ⟨m.kappaFR, m.kappaFL, m.kappaRR, m.kappaRL, -m.steering, m.boost, m.u, -m.v, -m.omega, m.throttle, m.bias,
    m.fr, m.fl, m.rr, m.rl, m.road1, -m.road2, -m.road3⟩

/-- The mirror image of what the road gives. -/
def mirrorRoad (r : RoadOut) : RoadOut :=
  ⟨mirrorAtt r.att, mirrorAxial r.omega, r.groundVz, r.dtimeds, (r.rates.1, -r.rates.2.1, -r.rates.2.2)⟩

theorem mirrorCar_eq (c : Car) : mirrorCar c = ⟨mirrorParams c.chassis, c.front, c.rear⟩ := rfl

theorem setState_mirror (c : Car) (q u : Nat → ℝ) :
    setState (mirrorCar c) (mirrorInputs q) (mirrorControls u) = mirrorMembers (setState c q u) := rfl

theorem curvature_mirror (f : TrackPoint) : curvature (mirrorTrack f) = mirrorAxial (curvature f) := by
  apply vec_ext <;> simp [curvature, mirrorTrack, mirrorAxial] <;> ring

theorem roadCurvilinear_mirror (f : TrackPoint) (m : Members) :
    roadCurvilinear (mirrorTrack f) (mirrorMembers m) = mirrorRoad (roadCurvilinear f m) := by
  have hd : (1 - -m.road2 * -(curvature f).2.2) / (m.u * Real.cos (-m.road3) - -m.v * Real.sin (-m.road3)) =
      (1 - m.road2 * (curvature f).2.2) / (m.u * Real.cos m.road3 - m.v * Real.sin m.road3) := by
    simp
  have hk : (curvature (mirrorTrack f)).2.2 = -(curvature f).2.2 := by rw [curvature_mirror]; rfl
  have hk1 : (curvature (mirrorTrack f)).1 = -(curvature f).1 := by rw [curvature_mirror]; rfl
  simp only [roadCurvilinear, Road.update, mirrorMembers, eulerAnglesDot, hk, hk1, hd]
  generalize (1 - m.road2 * (curvature f).2.2) / (m.u * Real.cos m.road3 - m.v * Real.sin m.road3) = d
  have ho := omegaBody_mirror ⟨f.yaw, f.pitch, f.roll, m.road3⟩ (f.dyaw / d) (f.dpitch / d) (f.droll / d)
    (m.omega - (curvature f).2.2 / d)
  simp only [mirrorAtt] at ho
  have e : -m.omega - -(curvature f).2.2 / d = -(m.omega - (curvature f).2.2 / d) := by ring
  simp only [mirrorTrack, mirrorRoad, mirrorAtt, neg_div, RoadOut.mk.injEq, Prod.mk.injEq]
  refine ⟨trivial, ?_, by ring, trivial, trivial, ?_, by ring⟩
  · rw [← ho, ← e]
    simp only [neg_div]
  · simp only [Real.sin_neg, Real.cos_neg]; ring

theorem roadCartesian_mirror (m : Members) : roadCartesian (mirrorMembers m) = mirrorRoad (roadCartesian m) := by
  have ho := omegaBody_mirror ⟨0, 0, 0, m.road3⟩ 0 0 0 m.omega
  simp only [mirrorAtt, neg_zero] at ho
  simp only [roadCartesian, mirrorMembers, mirrorRoad, mirrorAtt, cartesian, ho, neg_zero, RoadOut.mk.injEq, Prod.mk.injEq]
  refine ⟨trivial, trivial, trivial, trivial, ?_, ?_, trivial⟩ <;> simp only [Real.sin_neg, Real.cos_neg] <;> ring

theorem carUpdate_mirror (c : Car) (m : Members) (r : RoadOut) :
    carUpdate (mirrorCar c) (mirrorMembers m) (mirrorRoad r) =
      ⟨mirrorInput (carUpdate c m r).input, mirrorAxle (carUpdate c m r).front, mirrorAxle (carUpdate c m r).rear,
        mirrorOutput (carUpdate c m r).chassis⟩ := by
  have hv : ((m.u, -m.v, r.groundVz) : Vec3) = mirrorVec (m.u, m.v, r.groundVz) := rfl
  have hf := axleUpdate_mirror c.front c.chassis.xFront m.steering (m.u, m.v, r.groundVz) r.omega
    (tyreLoad c.chassis m.fl) (tyreLoad c.chassis m.fr) m.kappaFL m.kappaFR
    (Power.steeringTorques c.front.torque m.throttle (Power.axleBiases m.bias).1) (fun _ _ => steeringTorques_swap _ _ _ _ _)
  have hr := axleUpdate_mirror c.rear c.chassis.xRear 0 (m.u, m.v, r.groundVz) r.omega
    (tyreLoad c.chassis m.rl) (tyreLoad c.chassis m.rr) m.kappaRL m.kappaRR
    (Power.poweredTorques c.rear.torque m.throttle m.boost (Power.axleBiases m.bias).2) (fun _ _ => poweredTorques_swap _ _ _ _ _ _)
  rw [neg_zero] at hr
  have hf' : (carUpdate (mirrorCar c) (mirrorMembers m) (mirrorRoad r)).front = mirrorAxle (carUpdate c m r).front := hf
  have hr' : (carUpdate (mirrorCar c) (mirrorMembers m) (mirrorRoad r)).rear = mirrorAxle (carUpdate c m r).rear := hr
  have hu := update_mirror c.chassis (carUpdate c m r).input (carUpdate c m r).front.forces (carUpdate c m r).rear.forces
  have hi : (carUpdate (mirrorCar c) (mirrorMembers m) (mirrorRoad r)).input = mirrorInput (carUpdate c m r).input := rfl
  have ho : (carUpdate (mirrorCar c) (mirrorMembers m) (mirrorRoad r)).chassis = mirrorOutput (carUpdate c m r).chassis := by
    refine Eq.trans ?_ hu
    show Chassis.update (mirrorParams c.chassis) (carUpdate (mirrorCar c) (mirrorMembers m) (mirrorRoad r)).input
      (carUpdate (mirrorCar c) (mirrorMembers m) (mirrorRoad r)).front.forces
      (carUpdate (mirrorCar c) (mirrorMembers m) (mirrorRoad r)).rear.forces = _
    rw [hi, hf', hr']
    rfl
  generalize carUpdate (mirrorCar c) (mirrorMembers m) (mirrorRoad r) = o at hf' hr' hi ho
  cases o
  simp only at hf' hr' hi ho
  subst hf' hr' hi ho
  rfl

theorem evaluate_mirror (c : Car) (m : Members) (r : RoadOut) :
    evaluate (mirrorCar c) (mirrorMembers m) (mirrorRoad r) = (evaluate c m r).mirror := by
  simp only [evaluate, carUpdate_mirror]
  generalize carUpdate c m r = o
  simp only [allStates, axleState, Chassis.state, mirrorCar_eq, mirrorParams, mirrorInput, mirrorOutput, mirrorAxle,
    mirrorWheel, mirrorMembers, mirrorRoad, mirrorVec, List.cons_append, List.nil_append, List.map_cons, List.map_nil,
    Equations.mirror, mirrorStates, neg_mul, neg_div, neg_zero]

end Verif.F1
