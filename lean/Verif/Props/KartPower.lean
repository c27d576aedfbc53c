import Verif.Props.Kart

/-! # Properties of the kart: rear axle and air -/

set_option autoImplicit false

namespace Verif.Kart

open Verif.Road Verif.Chassis Real
open Verif.F1 (RoadKind WheelOut)

variable {solve : Vec3 × Vec3 × Vec3 → Vec3 → Vec3} {c : Vehicle}

/-! ## C181: the rear axle -/

/-- The power given to the rear axle by the force of the road on the wheel `w`: the moment of the force at the contact
point about the centre of the wheel, times the angular velocity. The axle points to the right, and turns to the left seen
from there as the kart goes forward. -/
noncomputable def roadPower (c : Vehicle) (m : Members) (w : WheelOut) : ℝ :=
  dot (cross (contact (rearAxle c m) c.rear.susp.R0 w - ((rearAxle c m).position + w.wheel.position))
    (w.Fx, w.Fy, -w.Fz)) (0, -m.omegaAxle, 0)

theorem roadPower_rear (m : Members) (w : WheelOut) (h : w.kin.R0 = c.rear.susp.R0) :
    roadPower c m w = Tyre.wheelTorque w.kin w.Fx * m.omegaAxle := by
  have e : contact (rearAxle c m) c.rear.susp.R0 w - ((rearAxle c m).position + w.wheel.position) =
      (0, 0, c.rear.susp.R0 - w.kin.w) := by
    simp only [contact]
    abel
  simp only [roadPower, e, cross, dot, Tyre.wheelTorque, h]
  ring

/-- C181: the kinetic energy of the rear axle changes by the power of engine and brakes and that of the forces of the road
on both wheels. -/
theorem C181_axle_energy {m : ℝ → Members} {t : ℝ} (hI : c.IAxle ≠ 0) (h : Follows solve c m t) :
    HasDerivAt (fun s => 1 / 2 * c.IAxle * (m s).omegaAxle ^ 2)
      (Power.kartTorque c.power (m t).throttle (m t).omegaAxle * (m t).omegaAxle
        + roadPower c (m t) (rearAxle c (m t)).left + roadPower c (m t) (rearAxle c (m t)).right) t := by
  have hl : (rearAxle c (m t)).left.kin.R0 = c.rear.susp.R0 := rfl
  have hr : (rearAxle c (m t)).right.kin.R0 = c.rear.susp.R0 := rfl
  rw [roadPower_rear _ _ hl, roadPower_rear _ _ hr]
  refine ((h.derivs.omegaAxle.pow 2).const_mul (1 / 2 * c.IAxle)).congr_deriv ?_
  rw [axleAcceleration]
  field_simp
  simp only [Nat.add_one_sub_one, pow_one, Nat.cast_ofNat]
  ring

/-- C181: engine and brakes give no more than the power of the engine, and with a free brake exactly that. -/
theorem C181_engine_power (hs : Power.Smooth c.power) (hd : c.power.engine.directTorque = false)
    (hm : c.power.engine.onlyMaxPower = true) (hT : 0 ≤ c.power.Tmax) (throttle omega : ℝ) (ho : omega ≠ 0) :
    Power.kartTorque c.power throttle omega * omega ≤ c.power.sp throttle * (c.power.engine.maxPower * 1000) ∧
    (c.power.sp (-throttle) = 0 →
      Power.kartTorque c.power throttle omega * omega = c.power.sp throttle * (c.power.engine.maxPower * 1000)) := by
  have h := (Power.C44_power c.power.engine (c.power.sp throttle) omega hd ho).1 hm
  refine ⟨h ▸ Power.C51_kart c.power hs hd throttle omega hT, fun h0 => ?_⟩
  rw [← h]
  simp [Power.kartTorque, hd, h0, Power.brakeTorque]

example : ∃ m : ℝ → Members, m 0 = exMembers ∧ Follows cramer exKart m 0 ∧
    HasDerivAt (fun s => 1 / 2 * exKart.IAxle * (m s).omegaAxle ^ 2)
      (Power.kartTorque exKart.power (m 0).throttle (m 0).omegaAxle * (m 0).omegaAxle
        + roadPower exKart (m 0) (rearAxle exKart (m 0)).left + roadPower exKart (m 0) (rearAxle exKart (m 0)).right) 0 := by
  obtain ⟨m, h0, h, -⟩ := exists_follows cramer exKart exMembers (fun _ => 1 / 10) rfl
  exact ⟨m, h0, h, C181_axle_energy (by norm_num [exKart]) h⟩

example : Power.kartTorque Power.exAxle (1 / 2) 80 * 80 = 1 / 2 * (600 * 1000) := by
  have := (C181_engine_power (c := { exKart with power := Power.exAxle }) Power.exAxle_smooth rfl rfl
    (by norm_num [Power.exAxle]) (1 / 2) 80 (by norm_num)).2 (by norm_num [Power.exAxle])
  refine this.trans ?_
  norm_num [Power.exAxle]

/-! ## C182: the air -/

/-- C182: the force of the air on a kart with direction `psi`, in fixed axes to the east, to the south and down: a drag along
the velocity of the wind relative to the kart, `1/2 rho cd A` times the square of its magnitude, and a vertical force
`1/2 rho cl A` times the square of its component along the kart. -/
theorem C182_air (c : Vehicle) (m : Members) (psi : ℝ) :
    let wind : Vec3 := (c.aero.eastward, -c.aero.northward, 0)
    let relative := wind - world psi (m.u, m.v, 0)
    let forward := world psi (1, 0, 0)
    world psi (aeroForce c m psi) =
      (1 / 2 * c.aero.rho * c.aero.cd * c.aero.area * √(dot relative relative)) • relative
        + (0, 0, 1 / 2 * c.aero.rho * c.aero.cl * c.aero.area * dot relative forward ^ 2) := by
  intro wind relative forward
  have hr : world psi (-(m.u, m.v, 0) + toBody ⟨0, 0, 0, psi⟩ wind) = relative := by
    have hw : world psi (toBody ⟨0, 0, 0, psi⟩ wind) = wind := by
      have := sin_sq_add_cos_sq psi
      apply vec_ext <;> simp [world, toBody, rotX, rotY, rotZ, wind]
      · linear_combination c.aero.eastward * this
      · linear_combination -c.aero.northward * this
    rw [world, rotZ_add, ← world, ← world, hw]
    apply vec_ext <;> simp [world, rotZ, relative] <;> ring
  obtain ⟨va, hva⟩ : ∃ va : Vec3, va = -(m.u, m.v, 0) + toBody ⟨0, 0, 0, psi⟩ wind := ⟨_, rfl⟩
  have hz : va.2.2 = 0 := by
    simp [hva, toBody, rotX, rotY, rotZ, wind]
  rw [← hva] at hr
  have hd : dot relative relative = va.1 * va.1 + va.2.1 * va.2.1 := by
    have := sin_sq_add_cos_sq psi
    rw [← hr]
    simp only [dot, world, rotZ, hz]
    linear_combination (va.1 ^ 2 + va.2.1 ^ 2) * this
  have hf : dot relative forward = va.1 := by
    have := sin_sq_add_cos_sq psi
    rw [← hr]
    simp only [dot, world, rotZ, hz, forward]
    linear_combination va.1 * this
  have ha : aeroForce c m psi = (0, 0, 1 / 2 * c.aero.rho * c.aero.cl * c.aero.area * va.1 * va.1) +
      (1 / 2 * c.aero.rho * c.aero.cd * c.aero.area * √(va.1 * va.1 + va.2.1 * va.2.1)) • va := by
    rw [hva]
    rfl
  rw [ha, hd, hf, ← hr]
  apply vec_ext <;> simp [world, rotZ] <;> ring

example : world 0 (aeroForce { exKart with aero := ⟨2, 1, 3, 1, 0, 0⟩ } { exMembers with u := 3, v := -4 } 0) =
    (-15, 20, 27) := by
  rw [C182_air]
  have e : (√25 : ℝ) = 5 := by
    rw [show (25 : ℝ) = 5 ^ 2 by norm_num]
    exact Real.sqrt_sq (by norm_num)
  apply vec_ext <;> norm_num [world, rotZ, dot, e]

end Verif.Kart
