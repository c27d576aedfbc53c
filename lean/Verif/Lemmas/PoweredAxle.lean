import Verif.Model.PoweredAxle
import Mathlib.Tactic.Ring
import Mathlib.Tactic.FieldSimp
import Mathlib.Tactic.LinearCombination
import Mathlib.Tactic.NormNum
import Mathlib.Tactic.Positivity

/-! # The tyres of a single powered axle -/

set_option autoImplicit false

namespace Verif.PoweredAxle

open Verif.Road (Vec3)

/-- The deformation of both tyres. -/
noncomputable def sink (m : Model) : ℝ := m.Fz / m.axle.susp.kTire

theorem tyres_eq (m : Model) (hc : 0 < m.axle.susp.kChassis) (ht : 0 < m.axle.susp.kTire) (q : State) :
    (tyres m q).1.kin.w = sink m ∧ (tyres m q).2.kin.w = sink m ∧
    (tyres m q).1.kin.R0 = m.axle.susp.R0 ∧ (tyres m q).2.kin.R0 = m.axle.susp.R0 ∧
    (tyres m q).1.Fz = m.axle.sp m.Fz ∧ (tyres m q).2.Fz = m.axle.sp m.Fz ∧
    (tyres m q).1.kin.vx = q.u ∧ (tyres m q).2.kin.vx = q.u ∧
    (tyres m q).1.kin.vy = 0 ∧ (tyres m q).2.kin.vy = 0 ∧
    (tyres m q).1.wheel.force.1 = (tyres m q).1.Fx ∧ (tyres m q).2.wheel.force.1 = (tyres m q).2.Fx ∧
    (tyres m q).1.wheel.delta = 0 ∧ (tyres m q).2.wheel.delta = 0 := by
  have hs : m.axle.susp.kChassis + m.axle.susp.kTire ≠ 0 := by positivity
  have hw : height m + ((m.axle.susp.kChassis * Power.symK m.axle.susp *
      (Power.displSym m.axle.susp (height m) - 0) - 0 * Power.asymK m.axle.susp)
      - Power.displSym m.axle.susp (height m) + 0) + m.axle.susp.R0 = sink m := by
    simp only [height, Power.displSym, Power.symK, sink]
    field_simp
    ring
  have hF : m.axle.susp.kTire * sink m = m.Fz := by
    unfold sink; field_simp
  simp only [tyres, Kart.wheelUpdate, Power.tyreHeight, Power.tyreVelocity, Power.chassisDeformation,
    Power.tyreDeformation, Power.displAsym, Power.displRates, Tyre.updateOmega, Tyre.forceTorque,
    Chassis.rotZ, Road.cross, mul_zero, zero_mul, add_zero, zero_add, ite_self, Prod.mk_add_mk,
    neg_zero, Real.cos_zero, Real.sin_zero, one_mul, sub_zero] at hw ⊢
  simp only [hw, hF, and_self]

end Verif.PoweredAxle
