import Verif.Lemmas.Chassis
import Mathlib.Analysis.SpecialFunctions.Sqrt
import Mathlib.Tactic.Positivity
import Mathlib.Tactic.Linarith
import Mathlib.Tactic.FieldSimp
import Mathlib.Tactic.NormNum

/-! Property theorems C52, C86-C96: chassis of the F1 car. -/

set_option autoImplicit false

namespace Verif.Chassis

open Verif.Road Real

/-! ### C52: gravity -/

/-- On every road and for every heading of the car, the gravity force is vertical (downwards in fixed
axes) with value `m g0`. -/
theorem C52_vertical (m g0 : ℝ) (a : Attitude) : toWorld a (gravity m g0 a) = (0, 0, m * g0) := by
  have e : gravity m g0 a = toBody a (0, 0, m * g0) := by
    refine vec_ext ?_ ?_ ?_ <;> simp only [gravity, toBody, rotZ, rotX, rotY, cos_neg, sin_neg] <;> ring
  rw [e, toWorld_toBody]

/-- Its magnitude does not depend on the road. -/
theorem C52_magnitude (m g0 : ℝ) (a : Attitude) :
    dot (gravity m g0 a) (gravity m g0 a) = (m * g0) ^ 2 := by
  rw [← toWorld_dot a, C52_vertical]
  simp only [dot]
  ring

example : toWorld ⟨1, 2, 3, 4⟩ (gravity 660 (981 / 100) ⟨1, 2, 3, 4⟩) = (0, 0, 660 * (981 / 100)) :=
  C52_vertical _ _ _

/-! ### C95: the yaw rate of the car is the rotation of its axes about its own vertical -/

/-- When the road is updated at a point `f` with the yaw rate `omega`, the axes of the car turn about
their own vertical at that yaw rate, on every road. -/
theorem C95_yaw_rate (f : TrackPoint) (n u v omega : ℝ) (a : Attitude) (hp : a.pitch = f.pitch)
    (hr : a.roll = f.roll) :
    let m := Road.update f n a.heading u v omega
    let e := eulerAnglesDot f m
    (omegaBody a e.1 e.2.1 e.2.2 m.alphaDot).2.2 = omega := by
  simp only [omegaBody, Road.update, eulerAnglesDot, curvature, rotZ, Prod.snd_add, hp, hr]
  ring

/-- The axes of the car turn with the reported angular velocity: a vector fixed in the car changes in
fixed axes as the vector product of the angular velocity and itself. -/
theorem C95_angular_velocity (a : ℝ → Attitude) (dy dp dr dh t : ℝ) (ha : Turns a dy dp dr dh t) (x : Vec3) :
    HasDerivAt (fun s => toWorld (a s) x) (toWorld (a t) (cross (omegaBody (a t) dy dp dr dh) x)) t := by
  have h := toWorld_deriv ha (hasDerivAt_const t x)
  simpa using h

example : (omegaBody ⟨0, 1, 2, 3⟩
    (eulerAnglesDot ⟨0, 0, 1, 2, 4, 5, 6⟩ (Road.update ⟨0, 0, 1, 2, 4, 5, 6⟩ 1 3 10 1 7)).1
    (eulerAnglesDot ⟨0, 0, 1, 2, 4, 5, 6⟩ (Road.update ⟨0, 0, 1, 2, 4, 5, 6⟩ 1 3 10 1 7)).2.1
    (eulerAnglesDot ⟨0, 0, 1, 2, 4, 5, 6⟩ (Road.update ⟨0, 0, 1, 2, 4, 5, 6⟩ 1 3 10 1 7)).2.2
    (Road.update ⟨0, 0, 1, 2, 4, 5, 6⟩ 1 3 10 1 7).alphaDot).2.2 = 7 :=
  C95_yaw_rate ⟨0, 0, 1, 2, 4, 5, 6⟩ 1 10 1 7 ⟨0, 1, 2, 3⟩ rfl rfl

/-! ### C86: momentum -/

theorem follows_velocity {p : Params} (hg : p.g0 ≠ 0) {i : ℝ → Input} {front rear : ℝ → Vec3 × Vec3}
    {t : ℝ} (hf : Follows p i front rear t) :
    HasDerivAt (fun s => (update p (i s) (front s) (rear s)).comVelocity)
      (update p (i t) (front t) (rear t)).comVelocityDot t := by
  refine hasDerivAt_vec ?_ ?_ ?_
  · exact hf 0
  · exact hf 1
  · have h : HasDerivAt (fun s => (update p (i s) (front s) (rear s)).comVelocity.2.2 / p.g0)
        ((update p (i t) (front t) (rear t)).comVelocityDot.2.2 / p.g0) t := hf 3
    have h2 := h.mul_const p.g0
    simpa only [div_mul_cancel₀ _ hg] using h2

/-- Along every motion in which the reported state has the reported derivative, on every road, the
momentum of the car in fixed axes, mass times the reported velocity of the centre of mass, changes at a
rate equal to the reported total force. -/
theorem C86_momentum (p : Params) (hm : p.mass ≠ 0) (hg : p.g0 ≠ 0) (i : ℝ → Input)
    (front rear : ℝ → Vec3 × Vec3) (dy dp dr dh t : ℝ)
    (ha : Turns (fun s => (i s).att) dy dp dr dh t)
    (hw : omegaBody (i t).att dy dp dr dh = ((i t).omegaX, (i t).omegaY, (i t).omegaZ))
    (hf : Follows p i front rear t) :
    HasDerivAt (fun s => p.mass • toWorld (i s).att (update p (i s) (front s) (rear s)).comVelocity)
      (toWorld (i t).att (update p (i t) (front t) (rear t)).force) t := by
  have h := (toWorld_deriv ha (follows_velocity hg hf)).const_smul p.mass
  refine h.congr_deriv ?_
  rw [hw, ← toWorld_smul]
  congr 1
  refine vec_ext ?_ ?_ ?_ <;>
    simp only [update, cross, Prod.smul_fst, Prod.smul_snd, Prod.fst_add, Prod.snd_add, smul_eq_mul] <;>
    field_simp <;> ring

/-- The total force, in fixed axes, is the sum of the forces of the axles, the aerodynamic force and the
weight. -/
theorem C86_total_force (p : Params) (i : Input) (front rear : Vec3 × Vec3) :
    toWorld i.att (update p i front rear).force
      = toWorld i.att front.1 + toWorld i.att rear.1 + toWorld i.att (aeroForce p i)
        + (0, 0, p.mass * p.g0) := by
  simp only [update, toWorld_add, C52_vertical]

/-- An F1 car. -/
noncomputable def exP : Params :=
  { g0 := 981 / 100, mass := 660, I := ((225 / 2, 0, 0), (0, 425, 0), (0, 0, 450))
    aero := ⟨6 / 5, 9 / 10, 3, 3 / 2, 0, 0⟩
    xCom := (0, 0, -(3 / 10)), xFront := (9 / 5, 0, -(33 / 100)), xRear := (-(8 / 5), 0, -(33 / 100))
    xAero := (-(1 / 10), 0, -(3 / 10)), rollBalance := 1 / 2, sp := fun x => max x 0 }

/-- A car without aerodynamics that turns on the spot, held by its axles. -/
noncomputable def spinP (ixz : ℝ) (xCom : Vec3) : Params :=
  { exP with aero := ⟨0, 0, 0, 0, 0, 0⟩, xCom := xCom, xFront := 0, xRear := 0, xAero := 0
             I := ((100, 0, ixz), (0, 400, 0), (ixz, 0, 450)) }

/-- Turning to the right at one radian per second. -/
def spinI (s : ℝ) : Input := ⟨0, 0, 1, 0, ⟨0, 0, 0, s⟩, 0, 0, 0, 0, 0, 0⟩

/-- The force that holds the car and the torque that cancels its moment. -/
noncomputable def spinF (xCom : Vec3) : Vec3 × Vec3 :=
  ((0, 0, -(660 * (981 / 100))), cross xCom (0, 0, -(660 * (981 / 100))))

theorem spin_turns (t : ℝ) : Turns (fun s => (spinI s).att) 0 0 0 1 t :=
  ⟨hasDerivAt_const t 0, hasDerivAt_const t 0, hasDerivAt_const t 0, hasDerivAt_id t⟩

theorem spin_omega (t : ℝ) : omegaBody (spinI t).att 0 0 0 1
    = ((spinI t).omegaX, (spinI t).omegaY, (spinI t).omegaZ) := by
  simp [omegaBody, spinI, rotZ]

theorem spin_update (ixz : ℝ) (xCom : Vec3) (t : ℝ) :
    update (spinP ixz xCom) (spinI t) (spinF xCom) 0
      = ⟨0, 0, 0, 0, 0, 0, 0, 0, 0, 0⟩ := by
  have ha : aeroForce (spinP ixz xCom) (spinI t) = 0 := by
    refine vec_ext ?_ ?_ ?_ <;> simp [aeroForce, aeroForces, spinP]
  have hF : (spinF xCom).1 + 0 + 0 + gravity 660 (981 / 100) (spinI t).att = 0 := by
    refine vec_ext ?_ ?_ ?_ <;> simp [spinF, gravity, spinI]
  have hT : totalTorque (spinP ixz xCom) (spinI t) (spinF xCom) 0 = 0 := by
    simp only [totalTorque, ha]
    refine vec_ext ?_ ?_ ?_ <;> simp [spinP, spinF, cross]
  have hm : (spinP ixz xCom).mass = 660 := rfl
  have hg : (spinP ixz xCom).g0 = 981 / 100 := rfl
  have hx : (spinI t).omegaX = 0 := rfl
  have hy : (spinI t).omegaY = 0 := rfl
  have hu : (spinI t).u = 0 := rfl
  have hv : (spinI t).v = 0 := rfl
  have hz : (spinI t).groundVz = 0 := rfl
  have hfl : (spinI t).fl = 0 := rfl
  have hfr : (spinI t).fr = 0 := rfl
  have hrl : (spinI t).rl = 0 := rfl
  have hrr : (spinI t).rr = 0 := rfl
  simp only [update, ha, hT, hm, hg]
  rw [show (0 : Vec3 × Vec3).1 = 0 from rfl, hF]
  simp [hx, hy, hu, hv, hz, hfl, hfr, hrl, hrr]

theorem spin_follows (ixz : ℝ) (xCom : Vec3) (t : ℝ) :
    Follows (spinP ixz xCom) spinI (fun _ => spinF xCom) (fun _ => 0) t := by
  intro k
  have e : ∀ s, state (spinP ixz xCom) (spinI s) (update (spinP ixz xCom) (spinI s) (spinF xCom) 0)
      = [(0, 0), (0, 0), (1, 0), (0, 0), (0, 0), (0, 0), (0, 0)] := by
    intro s
    rw [spin_update]
    simp [state, spinI]
  simp only [e]
  refine (hasDerivAt_const t _).congr_deriv ?_
  rcases k with _ | _ | _ | _ | _ | _ | _ | k <;> simp

example : HasDerivAt (fun s => (660 : ℝ) • toWorld (spinI s).att
      (update (spinP 0 0) (spinI s) (spinF 0) 0).comVelocity)
    (toWorld (spinI 1).att (update (spinP 0 0) (spinI 1) (spinF 0) 0).force) 1 :=
  C86_momentum (spinP 0 0) (by simp [spinP, exP]) (by simp [spinP, exP]) spinI (fun _ => spinF 0) (fun _ => 0) 0 0 0 1 1
    (spin_turns 1) (spin_omega 1) (spin_follows 0 0 1)

/-! ### C87: the reported velocity is that of the centre of mass -/

/-- For a centre of mass above the origin of the road frame: if the origin moves with the velocity of the
car, the centre of mass moves with the reported velocity. -/
theorem C87_com_velocity_partial (p : Params) (hx : p.xCom.1 = 0) (hy : p.xCom.2.1 = 0) (i : ℝ → Input)
    (front rear : Vec3 × Vec3) (origin : ℝ → Vec3) (dy dp dr dh t : ℝ)
    (ha : Turns (fun s => (i s).att) dy dp dr dh t)
    (hw : omegaBody (i t).att dy dp dr dh = ((i t).omegaX, (i t).omegaY, (i t).omegaZ))
    (ho : HasDerivAt origin (toWorld (i t).att ((i t).u, (i t).v, (i t).groundVz)) t) :
    HasDerivAt (fun s => origin s + toWorld (i s).att p.xCom)
      (toWorld (i t).att (update p (i t) front rear).comVelocity) t := by
  refine (ho.add (C95_angular_velocity _ _ _ _ _ _ ha p.xCom)).congr_deriv ?_
  rw [hw, ← toWorld_add]
  congr 1
  refine vec_ext ?_ ?_ ?_ <;>
    simp only [update, cross, Params.h, hx, hy, Prod.fst_add, Prod.snd_add] <;> ring

example : HasDerivAt (fun s => (0 : ℝ → Vec3) s + toWorld (spinI s).att exP.xCom)
    (toWorld (spinI 1).att (update exP (spinI 1) 0 0).comVelocity) 1 :=
  C87_com_velocity_partial exP rfl rfl spinI 0 0 0 0 0 0 1 1 (spin_turns 1) (spin_omega 1)
    ((hasDerivAt_const 1 0).congr_deriv (by simp [toWorld, spinI, rotX, rotY, rotZ]; rfl))

/-- A centre of mass half a metre ahead of the origin, in a car that turns on the spot, moves sideways,
but its reported velocity is zero. -/
theorem C87_false : ∃ p : Params, p.xCom = (1 / 2, 0, -(3 / 10)) ∧
    Turns (fun s => (spinI s).att) 0 0 0 1 0 ∧
    omegaBody (spinI 0).att 0 0 0 1 = ((spinI 0).omegaX, (spinI 0).omegaY, (spinI 0).omegaZ) ∧
    (update p (spinI 0) (spinF p.xCom) 0).comVelocity = 0 ∧
    HasDerivAt (fun s => toWorld (spinI s).att p.xCom) (0, 1 / 2, 0) 0 := by
  refine ⟨spinP 0 (1 / 2, 0, -(3 / 10)), rfl, spin_turns 0, spin_omega 0, ?_, ?_⟩
  · rw [show (spinP 0 (1 / 2, 0, -(3 / 10))).xCom = (1 / 2, 0, -(3 / 10)) from rfl, spin_update]
  · refine (C95_angular_velocity _ _ _ _ _ _ (spin_turns 0) _).congr_deriv ?_
    rw [spin_omega]
    refine vec_ext ?_ ?_ ?_ <;> simp [spinI, spinP, cross, toWorld, rotX, rotY, rotZ]

/-! ### C88: angular momentum -/

/-- For a diagonal inertia matrix: along every motion in which the reported state has the reported
derivative, the angular momentum in fixed axes, inertia times angular velocity, changes at a rate equal to
the reported torque. -/
theorem C88_angular_momentum_partial (p : Params) (hm : p.mass ≠ 0) (hg : p.g0 ≠ 0)
    (Ixx Iyy Izz : ℝ) (hI : p.I = ((Ixx, 0, 0), (0, Iyy, 0), (0, 0, Izz))) (hz : Izz ≠ 0) (i : ℝ → Input)
    (front rear : ℝ → Vec3 × Vec3) (dy dp dr dh t : ℝ)
    (ha : Turns (fun s => (i s).att) dy dp dr dh t)
    (hw : omegaBody (i t).att dy dp dr dh = ((i t).omegaX, (i t).omegaY, (i t).omegaZ))
    (hf : Follows p i front rear t) :
    HasDerivAt (fun s => toWorld (i s).att (mulVec p.I ((i s).omegaX, (i s).omegaY, (i s).omegaZ)))
      (toWorld (i t).att (update p (i t) (front t) (rear t)).torque) t := by
  have hgm : p.g0 * p.mass ≠ 0 := mul_ne_zero hg hm
  have hL : HasDerivAt (fun s => mulVec p.I ((i s).omegaX, (i s).omegaY, (i s).omegaZ))
      ((update p (i t) (front t) (rear t)).rollMomentumDot,
       (update p (i t) (front t) (rear t)).pitchMomentumDot,
       Izz * (update p (i t) (front t) (rear t)).yawRateDot) t := by
    refine hasDerivAt_vec ?_ ?_ ?_
    · have h : HasDerivAt (fun s => (update p (i s) (front s) (rear s)).rollMomentum / (p.g0 * p.mass))
        ((update p (i t) (front t) (rear t)).rollMomentumDot / (p.g0 * p.mass)) t := hf 4
      have h2 := h.mul_const (p.g0 * p.mass)
      simp only [div_mul_cancel₀ _ hgm] at h2
      simpa [mulVec, dot, hI, update] using h2
    · have h : HasDerivAt (fun s => (update p (i s) (front s) (rear s)).pitchMomentum / (p.g0 * p.mass))
        ((update p (i t) (front t) (rear t)).pitchMomentumDot / (p.g0 * p.mass)) t := hf 5
      have h2 := h.mul_const (p.g0 * p.mass)
      simp only [div_mul_cancel₀ _ hgm] at h2
      simpa [mulVec, dot, hI, update] using h2
    · have h : HasDerivAt (fun s => (i s).omegaZ) (update p (i t) (front t) (rear t)).yawRateDot t := hf 2
      have h2 := h.const_mul Izz
      simpa [mulVec, dot, hI] using h2
  refine (toWorld_deriv ha hL).congr_deriv ?_
  rw [hw]
  congr 1
  refine vec_ext ?_ ?_ ?_ <;>
    simp only [update, cross, mulVec, dot, hI, Prod.fst_add, Prod.snd_add]
  · ring
  · ring
  · field_simp
    ring

example : HasDerivAt (fun s => toWorld (spinI s).att (mulVec (spinP 0 0).I
      ((spinI s).omegaX, (spinI s).omegaY, (spinI s).omegaZ)))
    (toWorld (spinI 1).att (update (spinP 0 0) (spinI 1) (spinF 0) 0).torque) 1 :=
  C88_angular_momentum_partial (spinP 0 0) (by simp [spinP, exP]) (by simp [spinP, exP]) 100 400 450 rfl
    (by norm_num) spinI (fun _ => spinF 0) (fun _ => 0) 0 0 0 1 1 (spin_turns 1) (spin_omega 1) (spin_follows 0 0 1)

/-- With a product of inertia, which is an accepted parameter, the equations do not hold: a car that turns
on the spot without torque, in agreement with all the reported derivatives, has a changing angular
momentum. -/
theorem C88_false : ∃ p : Params, p.I = ((100, 0, 10), (0, 400, 0), (10, 0, 450)) ∧
    Turns (fun s => (spinI s).att) 0 0 0 1 0 ∧
    omegaBody (spinI 0).att 0 0 0 1 = ((spinI 0).omegaX, (spinI 0).omegaY, (spinI 0).omegaZ) ∧
    Follows p spinI (fun _ => spinF 0) (fun _ => 0) 0 ∧
    (update p (spinI 0) (spinF 0) 0).torque = 0 ∧
    HasDerivAt (fun s => toWorld (spinI s).att (mulVec p.I
      ((spinI s).omegaX, (spinI s).omegaY, (spinI s).omegaZ))) (0, 10, 0) 0 := by
  refine ⟨spinP 10 0, rfl, spin_turns 0, spin_omega 0, spin_follows 10 0 0, ?_, ?_⟩
  · rw [spin_update]
  · refine (C95_angular_velocity _ _ _ _ _ _ (spin_turns 0)
      (mulVec (spinP 10 0).I (0, 0, 1))).congr_deriv ?_
    rw [spin_omega]
    refine vec_ext ?_ ?_ ?_ <;> simp [spinI, spinP, mulVec, dot, cross, toWorld, rotX, rotY, rotZ]

/-! ### C90: roll balance -/

/-- Along every motion in which the reported state has the reported derivative, the loads satisfy the
documented relation. -/
theorem C90_roll_balance (p : Params) (hm : p.mass ≠ 0) (hg : p.g0 ≠ 0) (i : ℝ → Input)
    (front rear : ℝ → Vec3 × Vec3) (t : ℝ) (hf : Follows p i front rear t) :
    (i t).fr - (i t).fl = p.rollBalance * ((i t).fr + (i t).rr - (i t).fl - (i t).rl) := by
  have h : HasDerivAt (fun _ : ℝ => (0 : ℝ))
      ((update p (i t) (front t) (rear t)).rollBalance / (p.g0 * p.mass)) t := hf 6
  have h2 := h.unique (hasDerivAt_const t 0)
  have h3 := (div_eq_zero_iff.mp h2).resolve_right (mul_ne_zero hg hm)
  simp only [update] at h3
  linear_combination h3

/-- Conversely, the equation of the code vanishes whenever the relation holds. -/
theorem C90_converse (p : Params) (i : Input) (front rear : Vec3 × Vec3)
    (h : i.fr - i.fl = p.rollBalance * (i.fr + i.rr - i.fl - i.rl)) :
    (update p i front rear).rollBalance = 0 := by
  simp only [update]
  linear_combination h

example : (spinI 1).fr - (spinI 1).fl = 1 / 2 * ((spinI 1).fr + (spinI 1).rr - (spinI 1).fl - (spinI 1).rl) :=
  C90_roll_balance (spinP 0 0) (by simp [spinP, exP]) (by simp [spinP, exP]) _ _ _ _ (spin_follows 0 0 1)

example : (update exP { spinI 1 with fl := -1, fr := -3, rl := -4, rr := -6 } 0 0).rollBalance = 0 :=
  C90_converse _ _ _ _ (by simp [exP]; norm_num)

/-! ### C89: the torque is the moment of the forces about the centre of mass -/

/-- The forces that act on the car away from the centre of mass: those of the four tyres at their contact
points, a distance `r` below the centres of the wheels, and the aerodynamic force. -/
noncomputable def applied (p : Params) (i : Input) (fl fr rl rr : Wheel) (r : Fin 4 → ℝ) : List (Vec3 × Vec3) :=
  [(p.xFront + fl.position + (0, 0, r 0), rotZ fl.delta fl.force),
   (p.xFront + fr.position + (0, 0, r 1), rotZ fr.delta fr.force),
   (p.xRear + rl.position + (0, 0, r 2), rotZ rl.delta rl.force),
   (p.xRear + rr.position + (0, 0, r 3), rotZ rr.delta rr.force),
   (p.xAero, aeroForce p i)]

/-- The reported force is the sum of those forces and gravity, and the reported torque is their moment
about the centre of mass minus the vector product of the position of the centre of mass and the
aerodynamic force, which the code subtracts twice. -/
theorem C89_defect (p : Params) (i : Input) (fl fr rl rr : Wheel) (r : Fin 4 → ℝ)
    (h0 : ContactAt fl (r 0)) (h1 : ContactAt fr (r 1)) (h2 : ContactAt rl (r 2)) (h3 : ContactAt rr (r 3)) :
    (update p i (axleForces fl fr) (axleForces rl rr)).force
      = ((applied p i fl fr rl rr r).map Prod.snd).sum + gravity p.mass p.g0 i.att ∧
    (update p i (axleForces fl fr) (axleForces rl rr)).torque
      = moment p.xCom (applied p i fl fr rl rr r) - cross p.xCom (aeroForce p i) := by
  refine ⟨?_, ?_⟩
  · simp only [update, axleForces, applied, List.map_cons, List.map_nil, List.sum_cons, List.sum_nil]
    abel
  · simp only [ContactAt] at h0 h1 h2 h3
    simp only [update, totalTorque, axleForces, applied, moment, h0, h1, h2, h3, rotZ_cross, rotZ_axis]
    generalize aeroForce p i = A
    generalize rotZ fl.delta fl.force = F0
    generalize rotZ fr.delta fr.force = F1
    generalize rotZ rl.delta rl.force = F2
    generalize rotZ rr.delta rr.force = F3
    refine vec_ext ?_ ?_ ?_ <;>
      simp only [cross, Prod.fst_add, Prod.snd_add, Prod.fst_sub, Prod.snd_sub, Prod.fst_neg, Prod.snd_neg,
        Prod.fst_zero, Prod.snd_zero] <;> ring

/-- When the aerodynamic force is in line with the origin and the centre of mass (for instance when it
vanishes) the reported torque is the moment of the forces about the centre of mass. Missing: the other
aerodynamic forces, see `C89_defect` and `C89_false`. -/
theorem C89_torque_partial (p : Params) (i : Input) (fl fr rl rr : Wheel) (r : Fin 4 → ℝ)
    (h0 : ContactAt fl (r 0)) (h1 : ContactAt fr (r 1)) (h2 : ContactAt rl (r 2)) (h3 : ContactAt rr (r 3))
    (ha : cross p.xCom (aeroForce p i) = 0) :
    (update p i (axleForces fl fr) (axleForces rl rr)).torque
      = moment p.xCom (applied p i fl fr rl rr r) := by
  rw [(C89_defect p i fl fr rl rr r h0 h1 h2 h3).2, ha, sub_zero]

/-- A wheel of the example car with a longitudinal and a lateral force. -/
noncomputable def exWheel (y d : ℝ) : Wheel :=
  ⟨(100, 50, -1600), cross (0, 0, 33 / 100) (100, 50, -1600), d, (0, y, 0)⟩

example : (update (spinP 0 0) (spinI 1) (axleForces (exWheel (-1) (1 / 10)) (exWheel 1 (1 / 10)))
      (axleForces (exWheel (-1) 0) (exWheel 1 0))).torque
    = moment 0 (applied (spinP 0 0) (spinI 1) (exWheel (-1) (1 / 10)) (exWheel 1 (1 / 10)) (exWheel (-1) 0)
        (exWheel 1 0) (fun _ => 33 / 100)) :=
  C89_torque_partial (spinP 0 0) (spinI 1) _ _ _ _ _ rfl rfl rfl rfl (by simp [spinP, cross])

/-- Driving straight at 10 m/s on a flat road. -/
def straight : Input := ⟨10, 0, 0, 0, ⟨0, 0, 0, 0⟩, 0, 0, 0, 0, 0, 0⟩

theorem toBody_zero (v : Vec3) : toBody ⟨0, 0, 0, 0⟩ v = v := by
  refine vec_ext ?_ ?_ ?_ <;> simp [toBody, rotX, rotY, rotZ]

theorem straight_aero : aeroForce exP straight = (-81, 0, 270) := by
  have h : √(100 : ℝ) = 10 := by
    rw [show (100 : ℝ) = 10 * 10 by norm_num]
    exact Real.sqrt_mul_self (by norm_num)
  simp only [aeroForce, aeroForces, straight, toBody_zero, exP]
  refine vec_ext ?_ ?_ ?_ <;> norm_num [h]

/-- The F1 car of the database, driving straight: the aerodynamic force acts at the height of the centre
of mass, so that its pitching moment comes from the downforce only; the reported torque has 24.3 Nm less.
No tyre gives any force here, so that nothing hides the difference. -/
theorem C89_false : ∃ w : Wheel, w.force = 0 ∧ ContactAt w (33 / 100) ∧
    (moment exP.xCom (applied exP straight w w w w fun _ => 33 / 100)).2.1 = 27 ∧
    (update exP straight (axleForces w w) (axleForces w w)).torque.2.1 = 27 - 243 / 10 := by
  have hw : ContactAt ⟨0, 0, 0, 0⟩ (33 / 100) := by simp [ContactAt, cross]; rfl
  have hm : (moment exP.xCom (applied exP straight ⟨0, 0, 0, 0⟩ ⟨0, 0, 0, 0⟩ ⟨0, 0, 0, 0⟩ ⟨0, 0, 0, 0⟩
      fun _ => 33 / 100)).2.1 = 27 := by
    simp only [applied, moment, straight_aero]
    norm_num [exP, cross, rotZ]
  refine ⟨⟨0, 0, 0, 0⟩, rfl, hw, hm, ?_⟩
  rw [(C89_defect exP straight _ _ _ _ (fun _ => 33 / 100) hw hw hw hw).2, Prod.snd_sub, Prod.fst_sub, hm,
    straight_aero]
  norm_num [exP, cross]

/-! ### C91: longitudinal and lateral acceleration -/

/-- For a car that moves, the reported accelerations are the components of the force per unit mass along
and across the velocity. -/
theorem C91_components (m u v : ℝ) (F : Vec3) (hv : u ≠ 0 ∨ v ≠ 0) :
    let V := √(u ^ 2 + v ^ 2)
    F.1 / m = longitudinalAcceleration m u v F * (u / V) - lateralAcceleration m u v F * (v / V) ∧
    F.2.1 / m = longitudinalAcceleration m u v F * (v / V) + lateralAcceleration m u v F * (u / V) := by
  have hpos : 0 < u ^ 2 + v ^ 2 := by
    rcases hv with h | h
    · have := sq_pos_of_ne_zero h; positivity
    · have := sq_pos_of_ne_zero h; positivity
  have hs : √(u ^ 2 + v ^ 2) * √(u ^ 2 + v ^ 2) = u ^ 2 + v ^ 2 := Real.mul_self_sqrt hpos.le
  have hne : √(u ^ 2 + v ^ 2) ≠ 0 := (Real.sqrt_pos.mpr hpos).ne'
  have e : u * u + v * v + 0 * 0 = u ^ 2 + v ^ 2 := by ring
  simp only [longitudinalAcceleration, lateralAcceleration, dot, cross, e, Prod.smul_fst, Prod.smul_snd,
    smul_eq_mul]
  generalize √(u ^ 2 + v ^ 2) = V at hs hne
  have key : ∀ x : ℝ, x = x * (u ^ 2 + v ^ 2) / (V * V) := by
    intro x
    rw [hs, mul_div_assoc, div_self hpos.ne', mul_one]
  refine ⟨(key (F.1 / m)).trans ?_, (key (F.2.1 / m)).trans ?_⟩
  · field_simp
    ring
  · field_simp
    ring

example : (3 : ℝ) / 1 = longitudinalAcceleration 1 1 2 (3, 4, 5) * (1 / √(1 ^ 2 + 2 ^ 2))
    - lateralAcceleration 1 1 2 (3, 4, 5) * (2 / √(1 ^ 2 + 2 ^ 2)) :=
  (C91_components 1 1 2 (3, 4, 5) (Or.inl one_ne_zero)).1

/-- On a flat road the longitudinal acceleration is the rate of change of the speed, and the lateral one
is the speed times the rate at which the direction of travel turns: the turning of the velocity in car
axes plus the yaw rate. -/
theorem C91_rates (p : Params) (i : ℝ → Input) (front rear : ℝ → Vec3 × Vec3) (t : ℝ)
    (hflat : ∀ s, (i s).omegaX = 0 ∧ (i s).omegaY = 0 ∧ (i s).groundVz = 0)
    (hf : Follows p i front rear t) (hv : (i t).u ≠ 0 ∨ (i t).v ≠ 0) :
    let F := (update p (i t) (front t) (rear t)).force
    HasDerivAt (fun s => √((i s).u ^ 2 + (i s).v ^ 2))
      (longitudinalAcceleration p.mass (i t).u (i t).v F) t ∧
    ∃ du dv, HasDerivAt (fun s => (i s).u) du t ∧ HasDerivAt (fun s => (i s).v) dv t ∧
      lateralAcceleration p.mass (i t).u (i t).v F
        = √((i t).u ^ 2 + (i t).v ^ 2)
          * (((i t).u * dv - (i t).v * du) / ((i t).u ^ 2 + (i t).v ^ 2) + (i t).omegaZ) := by
  intro F
  have hu : HasDerivAt (fun s => (i s).u) (F.1 / p.mass + (i t).v * (i t).omegaZ) t := by
    have h : HasDerivAt (fun s => (update p (i s) (front s) (rear s)).comVelocity.1)
      (update p (i t) (front t) (rear t)).comVelocityDot.1 t := hf 0
    simpa [update, (hflat _).1, (hflat _).2.1, (hflat _).2.2, F] using h
  have hw : HasDerivAt (fun s => (i s).v) (F.2.1 / p.mass - (i t).u * (i t).omegaZ) t := by
    have h : HasDerivAt (fun s => (update p (i s) (front s) (rear s)).comVelocity.2.1)
      (update p (i t) (front t) (rear t)).comVelocityDot.2.1 t := hf 1
    simpa [update, (hflat _).1, (hflat _).2.1, (hflat _).2.2, F] using h
  generalize F = G at *
  have hpos : 0 < (i t).u ^ 2 + (i t).v ^ 2 := by
    rcases hv with h | h
    · have := sq_pos_of_ne_zero h; positivity
    · have := sq_pos_of_ne_zero h; positivity
  have hs : √((i t).u ^ 2 + (i t).v ^ 2) * √((i t).u ^ 2 + (i t).v ^ 2) = (i t).u ^ 2 + (i t).v ^ 2 :=
    Real.mul_self_sqrt hpos.le
  have hne : √((i t).u ^ 2 + (i t).v ^ 2) ≠ 0 := (Real.sqrt_pos.mpr hpos).ne'
  have e : (i t).u * (i t).u + (i t).v * (i t).v + 0 * 0 = (i t).u ^ 2 + (i t).v ^ 2 := by ring
  refine ⟨?_, _, _, hu, hw, ?_⟩
  · have h := ((hu.pow 2).add (hw.pow 2)).sqrt hpos.ne'
    refine h.congr_deriv ?_
    simp only [longitudinalAcceleration, dot, e, Prod.smul_fst, Prod.smul_snd, smul_eq_mul, Pi.add_apply, Pi.pow_apply]
    field_simp
    ring
  · simp only [lateralAcceleration, dot, cross, e, Prod.smul_fst, Prod.smul_snd, smul_eq_mul]
    rw [div_eq_iff hne, mul_right_comm, hs, mul_add, mul_div_cancel₀ _ hpos.ne']
    ring

/-- Driving in a circle of ten metres at 10 m/s. -/
def circleI (s : ℝ) : Input := ⟨10, 0, 1, 0, ⟨0, 0, 0, s⟩, 0, 0, 0, 0, 0, 0⟩

/-- The force that keeps the car in the circle. -/
noncomputable def circleF : Vec3 × Vec3 := ((0, 6600, -(660 * (981 / 100))), 0)

theorem circle_update (t : ℝ) : update (spinP 0 0) (circleI t) circleF 0
    = ⟨(0, 6600, 0), 0, (10, 0, 0), 0, 0, 0, 0, 0, 0, 0⟩ := by
  have ha : aeroForce (spinP 0 0) (circleI t) = 0 := by
    refine vec_ext ?_ ?_ ?_ <;> simp [aeroForce, aeroForces, spinP]
  have hF : circleF.1 + 0 + 0 + gravity 660 (981 / 100) (circleI t).att = (0, 6600, 0) := by
    refine vec_ext ?_ ?_ ?_ <;> simp [circleF, gravity, circleI]
  have hT : totalTorque (spinP 0 0) (circleI t) circleF 0 = 0 := by
    simp only [totalTorque, ha]
    refine vec_ext ?_ ?_ ?_ <;> simp [spinP, circleF, cross]
  have hm : (spinP 0 0).mass = 660 := rfl
  have hg : (spinP 0 0).g0 = 981 / 100 := rfl
  simp only [update, ha, hT, hm, hg]
  rw [show (0 : Vec3 × Vec3).1 = 0 from rfl, hF]
  simp only [circleI]
  norm_num

theorem circle_follows (t : ℝ) : Follows (spinP 0 0) circleI (fun _ => circleF) (fun _ => 0) t := by
  intro k
  have e : ∀ s, state (spinP 0 0) (circleI s) (update (spinP 0 0) (circleI s) circleF 0)
      = [(10, 0), (0, 0), (1, 0), (0, 0), (0, 0), (0, 0), (0, 0)] := by
    intro s
    rw [circle_update]
    simp [state, circleI]
  simp only [e]
  refine (hasDerivAt_const t _).congr_deriv ?_
  rcases k with _ | _ | _ | _ | _ | _ | _ | k <;> simp

example : HasDerivAt (fun s => √((circleI s).u ^ 2 + (circleI s).v ^ 2))
    (longitudinalAcceleration 660 10 0 (update (spinP 0 0) (circleI 1) circleF 0).force) 1 :=
  (C91_rates (spinP 0 0) circleI (fun _ => circleF) (fun _ => 0) 1 (fun _ => ⟨rfl, rfl, rfl⟩)
    (circle_follows 1) (Or.inl (by norm_num [circleI]))).1

/-! ### C92: aerodynamic forces -/

/-- The reported aerodynamic velocity is, in fixed axes, the velocity of the wind minus that of the car;
the fixed axes point to the east, to the south and down. -/
theorem C92_relative_velocity (p : Aero) (a : Attitude) (car : Vec3) :
    toWorld a (aeroForces p a car).velocity = (p.eastward, -p.northward, 0) - toWorld a car ∧
    toWorld a (aeroForces p a car).windBody = (p.eastward, -p.northward, 0) := by
  refine ⟨?_, ?_⟩
  · simp only [aeroForces, toWorld_add, toWorld_neg, toWorld_toBody]
    abel
  · simp only [aeroForces, toWorld_toBody]

/-- The drag has the direction of the aerodynamic velocity and the lift is along the vertical of the car;
with non-negative coefficients the drag takes power from a car in still air, and the lift pushes it down. -/
theorem C92_directions (p : Aero) (a : Attitude) (car : Vec3) (hr : 0 ≤ p.rho) (hd : 0 ≤ p.cd)
    (hl : 0 ≤ p.cl) (hA : 0 ≤ p.area) :
    (∃ c : ℝ, 0 ≤ c ∧ (aeroForces p a car).drag = c • (aeroForces p a car).velocity) ∧
    (∃ l : ℝ, 0 ≤ l ∧ (aeroForces p a car).lift = (0, 0, l)) ∧
    (p.northward = 0 → p.eastward = 0 → dot (aeroForces p a car).drag car ≤ 0) := by
  have hc : 0 ≤ 1 / 2 * p.rho * p.cd * p.area := by positivity
  refine ⟨⟨_, ?_, rfl⟩, ⟨_, ?_, rfl⟩, fun hn he => ?_⟩
  · positivity
  · have h1 : 0 ≤ 1 / 2 * p.rho * p.cl * p.area := by positivity
    have h2 := mul_self_nonneg ((-car + toBody a (p.eastward, -p.northward, 0)).1)
    rw [mul_assoc]
    exact mul_nonneg h1 h2
  · have hz : toBody a (0, 0, 0) = 0 := by
      refine vec_ext ?_ ?_ ?_ <;> simp [toBody, rotX, rotY, rotZ]
    simp only [aeroForces, hn, he, neg_zero, hz, add_zero]
    generalize hN : √((-car).1 * (-car).1 + (-car).2.1 * (-car).2.1) = N
    have hN0 : 0 ≤ N := hN ▸ Real.sqrt_nonneg _
    have e : dot ((1 / 2 * p.rho * p.cd * p.area * N) • -car) car
        = -(1 / 2 * p.rho * p.cd * p.area * N * (car.1 ^ 2 + car.2.1 ^ 2 + car.2.2 ^ 2)) := by
      simp only [dot, Prod.smul_fst, Prod.smul_snd, Prod.fst_neg, Prod.snd_neg, smul_eq_mul]
      ring
    rw [e, neg_nonpos]
    positivity

/-- The forces depend only on the aerodynamic velocity: a car carried along with the wind feels none. -/
theorem C92_only_relative (p : Aero) (a a' : Attitude) (car car' : Vec3) (north east : ℝ)
    (h : (aeroForces p a car).velocity
      = (aeroForces { p with northward := north, eastward := east } a' car').velocity) :
    (aeroForces p a car).drag = (aeroForces { p with northward := north, eastward := east } a' car').drag ∧
    (aeroForces p a car).lift = (aeroForces { p with northward := north, eastward := east } a' car').lift ∧
    (toWorld a car = (p.eastward, -p.northward, 0) →
      (aeroForces p a car).drag = 0 ∧ (aeroForces p a car).lift = 0) := by
  refine ⟨?_, ?_, fun hc => ?_⟩
  · simp only [aeroForces] at h ⊢
    rw [h]
  · simp only [aeroForces] at h ⊢
    rw [h]
  · have hv := (C92_relative_velocity p a car).1
    rw [hc, sub_self] at hv
    have hd : dot (aeroForces p a car).velocity (aeroForces p a car).velocity = 0 := by
      rw [← toWorld_dot a, hv]
      simp [dot]
    have h1 : (aeroForces p a car).velocity.1 = 0 ∧ (aeroForces p a car).velocity.2.1 = 0 ∧
        (aeroForces p a car).velocity.2.2 = 0 := by
      simp only [dot] at hd
      refine ⟨?_, ?_, ?_⟩ <;> nlinarith [mul_self_nonneg (aeroForces p a car).velocity.1,
        mul_self_nonneg (aeroForces p a car).velocity.2.1, mul_self_nonneg (aeroForces p a car).velocity.2.2]
    have h0 : (aeroForces p a car).velocity = 0 := vec_ext h1.1 h1.2.1 h1.2.2
    simp only [aeroForces] at h0 ⊢
    rw [h0]
    refine ⟨?_, ?_⟩
    · simp
    · refine vec_ext ?_ ?_ ?_ <;> simp

example : dot (aeroForces ⟨6 / 5, 9 / 10, 3, 3 / 2, 0, 0⟩ ⟨1, 2, 3, 4⟩ (50, 1, 2)).drag (50, 1, 2) ≤ 0 :=
  (C92_directions ⟨6 / 5, 9 / 10, 3, 3 / 2, 0, 0⟩ ⟨1, 2, 3, 4⟩ (50, 1, 2) (by norm_num) (by norm_num)
    (by norm_num) (by norm_num)).2.2 rfl rfl

/-- A car carried by an eastward wind. -/
example : (aeroForces ⟨6 / 5, 9 / 10, 3, 3 / 2, 0, 10⟩ ⟨0, 0, 0, 0⟩ (10, 0, 0)).drag = 0 :=
  ((C92_only_relative ⟨6 / 5, 9 / 10, 3, 3 / 2, 0, 10⟩ ⟨0, 0, 0, 0⟩ ⟨0, 0, 0, 0⟩ (10, 0, 0) (10, 0, 0) 0 10
    rfl).2.2 (by simp [toWorld, rotX, rotY, rotZ])).1

/-! ### C93: size of the aerodynamic forces -/

/-- When the aerodynamic velocity lies in the plane of the road, the drag is
`1/2 rho cd A` times its square; the lift is always `1/2 rho cl A` times the square of its longitudinal
component. Missing: aerodynamic velocities out of the plane of the road, see `C93_false`. -/
theorem C93_magnitude_partial (p : Aero) (a : Attitude) (car : Vec3) (hr : 0 ≤ p.rho) (hd : 0 ≤ p.cd)
    (hA : 0 ≤ p.area) :
    let va := (aeroForces p a car).velocity
    (aeroForces p a car).lift.2.2 = 1 / 2 * p.rho * p.cl * p.area * va.1 ^ 2 ∧
    (va.2.2 = 0 → √(dot (aeroForces p a car).drag (aeroForces p a car).drag)
      = 1 / 2 * p.rho * p.cd * p.area * dot va va) := by
  intro va
  have hva : va = (aeroForces p a car).velocity := rfl
  refine ⟨?_, fun hz => ?_⟩
  · simp only [hva, aeroForces]
    ring
  · have hdrag : (aeroForces p a car).drag
        = (1 / 2 * p.rho * p.cd * p.area * √(va.1 * va.1 + va.2.1 * va.2.1)) • va := rfl
    have hnn : 0 ≤ va.1 * va.1 + va.2.1 * va.2.1 :=
      add_nonneg (mul_self_nonneg _) (mul_self_nonneg _)
    have e : dot (aeroForces p a car).drag (aeroForces p a car).drag
        = (1 / 2 * p.rho * p.cd * p.area * dot va va) ^ 2 := by
      rw [hdrag]
      simp only [dot, Prod.smul_fst, Prod.smul_snd, smul_eq_mul, hz]
      linear_combination (1 / 2 * p.rho * p.cd * p.area) ^ 2 * (va.1 * va.1 + va.2.1 * va.2.1)
        * Real.mul_self_sqrt hnn
    rw [e]
    refine Real.sqrt_sq ?_
    have : 0 ≤ dot va va := by simp only [dot, hz]; linarith
    positivity

example : √(dot (aeroForces exP.aero ⟨0, 0, 0, 0⟩ (10, 0, 0)).drag (aeroForces exP.aero ⟨0, 0, 0, 0⟩ (10, 0, 0)).drag)
    = 1 / 2 * exP.aero.rho * exP.aero.cd * exP.aero.area
      * dot (aeroForces exP.aero ⟨0, 0, 0, 0⟩ (10, 0, 0)).velocity (aeroForces exP.aero ⟨0, 0, 0, 0⟩ (10, 0, 0)).velocity :=
  (C93_magnitude_partial exP.aero ⟨0, 0, 0, 0⟩ (10, 0, 0) (by norm_num [exP]) (by norm_num [exP])
    (by norm_num [exP])).2 (by simp [aeroForces, toBody_zero])

/-- A car that moves only along its own vertical, which a twisted road makes it do, has no drag however
fast it is. -/
theorem C93_false (w : ℝ) : (aeroForces exP.aero ⟨0, 0, 0, 0⟩ (0, 0, w)).drag = 0 ∧
    dot (aeroForces exP.aero ⟨0, 0, 0, 0⟩ (0, 0, w)).velocity (aeroForces exP.aero ⟨0, 0, 0, 0⟩ (0, 0, w)).velocity
      = w ^ 2 := by
  refine ⟨?_, ?_⟩
  · simp [aeroForces, toBody_zero, exP]
  · simp [aeroForces, toBody_zero, exP, dot]
    ring

/-! ### C94: understeer and oversteer -/

/-- The choice between the two differences. -/
theorem choose_difference (x y : ℝ) :
    (if x * y ≤ 0 then 0 else if 0 < x then (if x > y then y else x) else (if x > y then x else y))
      = if 0 < x ∧ 0 < y then min x y else if x < 0 ∧ y < 0 then max x y else 0 := by
  rcases lt_trichotomy x 0 with hx | hx | hx
  · have px : ¬ 0 < x := not_lt.mpr hx.le
    rcases lt_or_ge y 0 with hy | hy
    · have pm : ¬ x * y ≤ 0 := not_le.mpr (mul_pos_of_neg_of_neg hx hy)
      simp only [pm, px, hx, hy, if_false, if_true, false_and, and_self]
      rcases le_or_gt x y with h | h
      · rw [if_neg (not_lt.mpr h), max_eq_right h]
      · rw [if_pos h, max_eq_left h.le]
    · have pm : x * y ≤ 0 := mul_nonpos_of_nonpos_of_nonneg hx.le hy
      have py : ¬ y < 0 := not_lt.mpr hy
      simp only [pm, px, py, if_false, if_true, false_and, and_false]
  · simp [hx]
  · have px : ¬ x < 0 := not_lt.mpr hx.le
    rcases le_or_gt y 0 with hy | hy
    · have pm : x * y ≤ 0 := mul_nonpos_of_nonneg_of_nonpos hx.le hy
      have py : ¬ 0 < y := not_lt.mpr hy
      simp only [pm, px, py, if_false, if_true, false_and, and_false]
    · have pm : ¬ x * y ≤ 0 := not_le.mpr (mul_pos hx hy)
      simp only [pm, hx, hy, if_false, if_true, and_self]
      rcases le_or_gt x y with h | h
      · rw [if_neg (not_lt.mpr h), min_eq_left h]
      · rw [if_pos h, min_eq_right h.le]

/-- The indicator for a car that turns (`omega` not zero) around the point `(xRear, Y)` in line with the
rear axle, at the distance speed over yaw rate from the origin, with both front wheels on the same side of
it. `tl` and `tr` are the angles at which the left and right front wheels roll around that point. The
indicator is zero when one wheel is steered more and the other less than that, otherwise it is the smaller
of the two differences, positive when the wheels are steered into the turn less than the geometry asks. -/
theorem C94_indicator (track xFront xRear u v omega dl dr Y tl tr : ℝ) (ho : omega ≠ 0)
    (hV : 0 < u ^ 2 + v ^ 2) (hY : 0 < Y * omega) (hR : Y ^ 2 + xRear ^ 2 = (u ^ 2 + v ^ 2) / omega ^ 2)
    (hT : |track| / 2 < |Y|) (hl : RollsAround xFront (-(track / 2)) xRear Y tl)
    (hr : RollsAround xFront (track / 2) xRear Y tr) :
    let sg := if 0 < omega then (1 : ℝ) else -1
    let el := sg * (tl - dl)
    let er := sg * (tr - dr)
    understeer track xFront xRear u v omega dl dr
      = if 0 < el ∧ 0 < er then min el er else if el < 0 ∧ er < 0 then max el er else 0 := by
  intro sg el er
  have hVs : 0 < √(u * u + v * v) := Real.sqrt_pos.mpr (by nlinarith)
  have hVV : √(u * u + v * v) * √(u * u + v * v) = u ^ 2 + v ^ 2 := by
    rw [Real.mul_self_sqrt (by nlinarith)]; ring
  -- the ideal angles of the code are those of the geometry
  have ideal : ∀ k y th : ℝ, 0 < k → k * k * (u ^ 2 + v ^ 2) = omega ^ 2 → |track| / 2 < y →
      y ^ 2 = Y ^ 2 → ∀ b : ℝ, |b| ≤ |track| / 2 → -(π / 2) < th → th < π / 2 →
      (xRear - xFront) * cos th + (y - b) * sin th = 0 →
      arctan ((xFront + -xRear) * k / (√(1 - k * k * -xRear * -xRear) - b * k)) = th := by
    intro k y th hk hkk hy hyy b hb h1 h2 h
    have hy0 : 0 < y := lt_of_le_of_lt (by positivity) hy
    have hb2 := (abs_le.mp hb).2
    have hyb : 0 < y - b := by linarith
    have hs : √(1 - k * k * -xRear * -xRear) = k * y := by
      rw [Real.sqrt_eq_iff_mul_self_eq_of_pos (by positivity)]
      have hR2 : (Y ^ 2 + xRear ^ 2) * omega ^ 2 = u ^ 2 + v ^ 2 := by
        rw [hR]; field_simp
      have : k * k * (Y ^ 2 + xRear ^ 2) * omega ^ 2 = 1 * omega ^ 2 := by
        linear_combination k * k * hR2 + hkk
      have h3 := mul_right_cancel₀ (pow_ne_zero 2 ho) this
      linear_combination k * k * hyy + h3
    rw [hs]
    have hcos : 0 < cos th := Real.cos_pos_of_mem_Ioo ⟨h1, h2⟩
    have ht : tan th = (xFront + -xRear) * k / (k * y - b * k) := by
      rw [Real.tan_eq_sin_div_cos, div_eq_div_iff hcos.ne' (by nlinarith [mul_pos hk hyb])]
      linear_combination k * h
    rw [← ht, Real.arctan_tan h1 h2]
  have hb1 : |track / 2| ≤ |track| / 2 := by rw [abs_div]; norm_num
  have hb2 : |-(track / 2)| ≤ |track| / 2 := by rw [abs_neg]; exact hb1
  have hsub : ∀ S k : ℝ, S - 1 / 2 * track * k = S - track / 2 * k := fun S k => by ring
  have hadd : ∀ S k : ℝ, S + 1 / 2 * track * k = S - -(track / 2) * k := fun S k => by ring
  have hkk : omega / √(u * u + v * v) * (omega / √(u * u + v * v)) * (u ^ 2 + v ^ 2) = omega ^ 2 := by
    rw [div_mul_div_comm, hVV]
    field_simp
  rcases lt_or_gt_of_ne ho with hneg | hpos
  · have hk : omega / √(u * u + v * v) < 0 := div_neg_of_neg_of_pos hneg hVs
    have hYn : Y < 0 := by nlinarith
    have hab : |Y| = -Y := abs_of_neg hYn
    have h1 := ideal (-(omega / √(u * u + v * v))) (-Y) (-tl) (by linarith)
      (by linear_combination hkk) (by linarith) (by ring) (track / 2) hb1 (by linarith [hl.2.1])
      (by linarith [hl.1]) (by rw [cos_neg, sin_neg]; linear_combination hl.2.2)
    have h2 := ideal (-(omega / √(u * u + v * v))) (-Y) (-tr) (by linarith)
      (by linear_combination hkk) (by linarith) (by ring) (-(track / 2)) hb2 (by linarith [hr.2.1])
      (by linarith [hr.1]) (by rw [cos_neg, sin_neg]; linear_combination hr.2.2)
    simp only [understeer, if_neg (not_le.mpr hk), hsub, hadd, h1, h2]
    rw [choose_difference]
    have e1 : -tl - -dl = el := by simp only [el, sg, if_neg (not_lt.mpr hneg.le)]; ring
    have e2 : -tr - -dr = er := by simp only [er, sg, if_neg (not_lt.mpr hneg.le)]; ring
    rw [e1, e2]
  · have hk : 0 < omega / √(u * u + v * v) := div_pos hpos hVs
    have hYp : 0 < Y := by nlinarith
    have hab : |Y| = Y := abs_of_pos hYp
    have h1 := ideal (omega / √(u * u + v * v)) Y tr hk hkk (by linarith) rfl (track / 2) hb1 hr.1 hr.2.1
      hr.2.2
    have h2 := ideal (omega / √(u * u + v * v)) Y tl hk hkk (by linarith) rfl (-(track / 2)) hb2 hl.1 hl.2.1
      hl.2.2
    simp only [understeer, if_pos hk.le, hsub, hadd, h1, h2]
    rw [choose_difference]
    have e1 : tr - dr = er := by simp only [er, sg, if_pos hpos]; ring
    have e2 : tl - dl = el := by simp only [el, sg, if_pos hpos]; ring
    rw [e1, e2]
    simp only [and_comm, min_comm, max_comm]

/-- For every point not abreast of the wheel there is such an angle. -/
theorem rollsAround_arctan (x y cx cy q : ℝ) (h : cy ≠ y) (hq : q = (x - cx) / (cy - y)) :
    RollsAround x y cx cy (arctan q) := by
  subst hq
  refine ⟨Real.neg_pi_div_two_lt_arctan _, Real.arctan_lt_pi_div_two _, ?_⟩
  have hc := (Real.cos_arctan_pos ((x - cx) / (cy - y))).ne'
  have ht := Real.tan_mul_cos hc
  rw [Real.tan_arctan] at ht
  rw [← ht]
  have hy : cy - y ≠ 0 := sub_ne_zero.mpr h
  field_simp
  ring

/-- A car of wheelbase 4 and track 2 that turns at 5 m/s and 1 rad/s around a point at 3 behind and 4 to
the right, with its front wheels straight, oversteers. -/
example : understeer 2 1 (-3) 5 0 1 0 0 = min (arctan (4 / 5)) (arctan (4 / 3)) := by
  have h := C94_indicator 2 1 (-3) 5 0 1 0 0 4 (arctan (4 / 5)) (arctan (4 / 3)) one_ne_zero (by norm_num)
    (by norm_num) (by norm_num) (by rw [abs_of_pos, abs_of_pos] <;> norm_num)
    (rollsAround_arctan 1 (-(2 / 2)) (-3) 4 _ (by norm_num) (by norm_num))
    (rollsAround_arctan 1 (2 / 2) (-3) 4 _ (by norm_num) (by norm_num))
  have h1 : 0 < arctan (4 / 5) := Real.arctan_pos.mpr (by norm_num)
  have h2 : 0 < arctan (4 / 3) := Real.arctan_pos.mpr (by norm_num)
  simpa [h1, h2] using h

/-- Front wheels that roll around the turning point are neutral. -/
theorem C94_ackermann (track xFront xRear u v omega dl dr Y : ℝ) (ho : omega ≠ 0)
    (hV : 0 < u ^ 2 + v ^ 2) (hY : 0 < Y * omega) (hR : Y ^ 2 + xRear ^ 2 = (u ^ 2 + v ^ 2) / omega ^ 2)
    (hT : |track| / 2 < |Y|) (hl : RollsAround xFront (-(track / 2)) xRear Y dl)
    (hr : RollsAround xFront (track / 2) xRear Y dr) :
    understeer track xFront xRear u v omega dl dr = 0 := by
  have h := C94_indicator track xFront xRear u v omega dl dr Y dl dr ho hV hY hR hT hl hr
  simpa using h

/-- A car that turns and its mirror image have the same indicator. Missing: a car that goes straight, see
`C94_false`. -/
theorem C94_mirror_partial (track xFront xRear u v omega dl dr : ℝ) (ho : omega ≠ 0)
    (hV : 0 < u ^ 2 + v ^ 2) :
    understeer track xFront xRear u (-v) (-omega) (-dr) (-dl)
      = understeer track xFront xRear u v omega dl dr := by
  have hVs : 0 < √(u * u + v * v) := Real.sqrt_pos.mpr (by nlinarith)
  have e : u * u + -v * -v = u * u + v * v := by ring
  rcases lt_or_gt_of_ne ho with hneg | hpos
  · have hk : omega / √(u * u + v * v) < 0 := div_neg_of_neg_of_pos hneg hVs
    have hk2 : 0 ≤ -(omega / √(u * u + v * v)) := by linarith
    simp only [understeer, e, neg_div, if_neg (not_le.mpr hk), if_pos hk2]
  · have hk : 0 < omega / √(u * u + v * v) := div_pos hpos hVs
    have hk2 : -(omega / √(u * u + v * v)) < 0 := by linarith
    simp only [understeer, e, neg_div, if_pos hk.le, if_neg (not_le.mpr hk2), neg_neg]

example : understeer 2 1 (-3) 5 (-1) (-1) (-2) (-1) = understeer 2 1 (-3) 5 1 1 1 2 :=
  C94_mirror_partial 2 1 (-3) 5 1 1 1 2 one_ne_zero (by norm_num)

/-- A car that goes straight with its wheels steered to the right is reported to understeer, with the
wheels steered to the left to oversteer. -/
theorem C94_false (track xFront xRear u d : ℝ) (hd : 0 < d) :
    understeer track xFront xRear u 0 0 d d = -d ∧ understeer track xFront xRear u 0 0 (-d) (-d) = d := by
  refine ⟨?_, ?_⟩
  · simp only [understeer, zero_div, le_refl, if_true, mul_zero, arctan_zero, zero_sub]
    rw [if_neg (by nlinarith), if_neg (by linarith), if_neg (lt_irrefl _)]
  · simp only [understeer, zero_div, le_refl, if_true, mul_zero, arctan_zero, zero_sub, neg_neg]
    rw [if_neg (by nlinarith), if_pos hd, if_neg (lt_irrefl _)]

/-! ### C96: loads on the tyres -/

/-- The road never pulls a tyre, and a tyre that carries load gets it up to the smoothing. `d` bounds the
difference between the smoothed and the exact positive part. -/
theorem C96_pushes (p : Params) (d Fz : ℝ) (h0 : ∀ x, 0 ≤ p.sp x) (hd : ∀ x, |p.sp x - max x 0| ≤ d) :
    0 ≤ tyreLoad p Fz ∧ (Fz ≤ 0 → |tyreLoad p Fz - -Fz| ≤ d) ∧ (0 ≤ Fz → tyreLoad p Fz ≤ d) := by
  have e : tyreLoad p Fz = p.sp (-Fz) := by simp [tyreLoad, negLoad]
  rw [e]
  refine ⟨h0 _, fun h => ?_, fun h => ?_⟩
  · have := hd (-Fz)
    rwa [max_eq_left (by linarith)] at this
  · have := hd (-Fz)
    rw [max_eq_right (by linarith), sub_zero] at this
    exact (le_abs_self _).trans this

/-- On a flat and straight road the vertical velocity of the car does not change exactly when the four tyre
loads add up to the weight plus the aerodynamic lift (positive down). The vertical force of
each tyre is its load. -/
theorem C96_balance (p : Params) (i : Input) (fl fr rl rr : Wheel) (hm : p.mass ≠ 0)
    (hp : i.att.pitch = 0) (hr : i.att.roll = 0) (hx : i.omegaX = 0) (hy : i.omegaY = 0)
    (h1 : fl.force.2.2 = -tyreLoad p i.fl) (h2 : fr.force.2.2 = -tyreLoad p i.fr)
    (h3 : rl.force.2.2 = -tyreLoad p i.rl) (h4 : rr.force.2.2 = -tyreLoad p i.rr) :
    (update p i (axleForces fl fr) (axleForces rl rr)).comVelocityDot.2.2 = 0 ↔
      tyreLoad p i.fl + tyreLoad p i.fr + tyreLoad p i.rl + tyreLoad p i.rr
        = p.mass * p.g0 + (aeroForce p i).2.2 := by
  simp only [update, axleForces, gravity, rotZ, hp, hr, hx, hy, Prod.snd_add, h1, h2, h3, h4, cos_zero,
    mul_zero, mul_one, add_zero, sub_zero]
  rw [div_eq_zero_iff, or_iff_left hm]
  constructor <;> intro h <;> linarith

/-- A car of 4 kg and no aerodynamics with 1 kg on each tyre. -/
example : ∃ (p : Params) (i : Input) (w : Wheel), p.mass = 4 ∧ i.fl = -p.g0 ∧ p.g0 = 10 ∧
    (update p i (axleForces w w) (axleForces w w)).comVelocityDot.2.2 = 0 := by
  let p : Params := ⟨10, 4, 0, ⟨0, 0, 0, 0, 0, 0⟩, 0, 0, 0, 0, 1 / 2, fun x => max x 0⟩
  let i : Input := ⟨1, 0, 0, 0, ⟨0, 0, 0, 0⟩, 0, 0, -10, -10, -10, -10⟩
  let w : Wheel := ⟨(0, 0, -10), 0, 0, 0⟩
  have e : tyreLoad p (-10) = 10 := by
    change - -(max (- -10 : ℝ) 0) = 10
    norm_num
  refine ⟨p, i, w, rfl, rfl, rfl, ?_⟩
  refine (C96_balance p i w w w w (by norm_num [p]) rfl rfl rfl rfl ?_ ?_ ?_ ?_).mpr ?_
  · change (-10 : ℝ) = -tyreLoad p (-10); rw [e]
  · change (-10 : ℝ) = -tyreLoad p (-10); rw [e]
  · change (-10 : ℝ) = -tyreLoad p (-10); rw [e]
  · change (-10 : ℝ) = -tyreLoad p (-10); rw [e]
  · change tyreLoad p (-10) + tyreLoad p (-10) + tyreLoad p (-10) + tyreLoad p (-10) = _
    rw [e]
    simp [aeroForce, aeroForces, p, i]
    norm_num

/-- The exact positive part meets the assumptions with `d = 0`. -/
example (p : Params) (h : p.sp = fun x => max x 0) : tyreLoad p (-5) = 5 := by
  have := (C96_pushes p 0 (-5) (fun x => by rw [h]; exact le_max_right _ _) (fun x => by rw [h]; simp)).2.1
    (by norm_num)
  have := abs_eq_zero.mp (le_antisymm this (abs_nonneg _))
  linarith

end Verif.Chassis
