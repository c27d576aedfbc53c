import Verif.Lemmas.PoweredAxle
import Mathlib.Tactic.Ring
import Mathlib.Tactic.FieldSimp
import Mathlib.Tactic.LinearCombination
import Mathlib.Tactic.NormNum
import Mathlib.Tactic.Positivity

/-!
# Properties of a single powered axle

The reader needs `Model.Fz` (the load given to the constructor), `State`, `derivative` and the tyres of the
axle (`tyres`: load `Fz`, longitudinal force `Fx`, deformation `kin.w`).
-/

set_option autoImplicit false

namespace Verif.PoweredAxle

/-- Whatever the state, both tyres carry the load given to the constructor (through the smoothed positive part
`sp` of the tyre model) and are deformed by this load over their stiffness: the height of the axle is the one at
which chassis and tyre, in series, hold the load. The tyres do not drift: their lateral velocity is zero. -/
theorem C242_load (m : Model) (hc : 0 < m.axle.susp.kChassis) (ht : 0 < m.axle.susp.kTire) (q : State) :
    (tyres m q).1.Fz = m.axle.sp m.Fz ∧ (tyres m q).2.Fz = m.axle.sp m.Fz ∧
    m.axle.susp.kTire * (tyres m q).1.kin.w = m.Fz ∧ m.axle.susp.kTire * (tyres m q).2.kin.w = m.Fz ∧
    (tyres m q).1.kin.vy = 0 ∧ (tyres m q).2.kin.vy = 0 := by
  obtain ⟨h1, h2, -, -, h5, h6, -, -, h9, h10, -⟩ := tyres_eq m hc ht q
  have hF : m.axle.susp.kTire * sink m = m.Fz := by unfold sink; field_simp
  exact ⟨h5, h6, by rw [h1, hF], by rw [h2, hF], h9, h10⟩

/-- The axle moves along its heading, which never changes, with the speed `u`, and Newton's law holds along the
heading: mass times acceleration is the force of both tyres less a drag of `0.42 u²`. -/
theorem C242_motion (m : Model) (hc : 0 < m.axle.susp.kChassis) (ht : 0 < m.axle.susp.kTire) (hm : m.mass ≠ 0)
    (q : State) (throttle : ℝ) :
    (derivative m q throttle).x = q.u * Real.cos q.psi ∧
    (derivative m q throttle).y = q.u * Real.sin q.psi ∧
    (derivative m q throttle).psi = 0 ∧
    m.mass * (derivative m q throttle).u
      = (tyres m q).1.Fx + (tyres m q).2.Fx - 42 / 100 * q.u ^ 2 := by
  obtain ⟨-, -, -, -, -, -, -, -, -, -, h11, h12, h13, h14⟩ := tyres_eq m hc ht q
  refine ⟨by simp [derivative, Road.cartesian], by simp [derivative, Road.cartesian],
    by simp [derivative, Road.cartesian], ?_⟩
  simp only [derivative, Chassis.axleForces, Chassis.rotZ, h13, h14, Real.cos_zero, Real.sin_zero, one_mul,
    zero_mul, sub_zero, Prod.fst_add, h11, h12]
  field_simp
  ring

/-- Energy: the kinetic energy of mass and axle changes by the power of the torque of the engine and brakes, less
the power of the drag, plus what the tyres take from the motion: their force times the speed with which the
contact slides over the road, the rolling radius being the radius less the deformation under the load. -/
theorem C242_energy (m : Model) (hc : 0 < m.axle.susp.kChassis) (ht : 0 < m.axle.susp.kTire) (hm : m.mass ≠ 0)
    (hI : m.inertia ≠ 0) (q : State) (throttle : ℝ) :
    m.mass * q.u * (derivative m q throttle).u + m.inertia * q.omega * (derivative m q throttle).omega
      = Power.kartTorque m.power throttle q.omega * q.omega - 42 / 100 * q.u ^ 3
        + ((tyres m q).1.Fx + (tyres m q).2.Fx)
          * (q.u - q.omega * (m.axle.susp.R0 - m.Fz / m.axle.susp.kTire)) := by
  have hu := (C242_motion m hc ht hm q throttle).2.2.2
  obtain ⟨h1, h2, h3, h4, -⟩ := tyres_eq m hc ht q
  have ho : m.inertia * (derivative m q throttle).omega
      = Power.kartTorque m.power throttle q.omega
        - ((tyres m q).1.Fx + (tyres m q).2.Fx) * (m.axle.susp.R0 - m.Fz / m.axle.susp.kTire) := by
    simp only [derivative, Tyre.wheelTorque, h1, h2, h3, h4, sink]
    field_simp
    ring
  linear_combination q.u * hu + q.omega * ho

/-- Only the speeds matter: the derivatives of the speeds do not depend on where the axle is nor on its heading.
-/
theorem C242_everywhere (m : Model) (q : State)
    (x y psi throttle : ℝ) :
    (derivative m { q with x := x, y := y, psi := psi } throttle).u = (derivative m q throttle).u ∧
    (derivative m { q with x := x, y := y, psi := psi } throttle).omega = (derivative m q throttle).omega := by
  have key : ∀ q' : State, q'.u = q.u → q'.omega = q.omega →
      (tyres m q').1 = (tyres m q).1 ∧ (tyres m q').2 = (tyres m q).2 := by
    intro q' hu ho
    simp [tyres, Kart.wheelUpdate, Road.cross, Chassis.rotZ, hu, ho]
  obtain ⟨k1, k2⟩ := key { q with x := x, y := y, psi := psi } rfl rfl
  simp only [derivative, k1, k2, and_self]

/-- A concrete axle: a load of 700 N over tyres of 84 kN/m and a chassis of 81 kN/m. -/
noncomputable example (std : Tyre.Std) (power : Power.Axle3) (sp : ℝ → ℝ) (q : State) :
    let m : Model := ⟨⟨⟨false, 12 / 10, 81000, 6000, 84000, 139 / 1000, 0, 0⟩, true, 0, sp, std⟩, 1 / 10, power, 165, 700⟩
    0 < m.axle.susp.kChassis ∧ 0 < m.axle.susp.kTire ∧ m.mass ≠ 0 ∧ m.inertia ≠ 0 ∧
      (tyres m q).1.kin.w = 1 / 120 := by
  intro m
  have h1 : (0 : ℝ) < m.axle.susp.kChassis := by norm_num [m]
  have h2 : (0 : ℝ) < m.axle.susp.kTire := by norm_num [m]
  refine ⟨h1, h2, by norm_num [m], by norm_num [m], ?_⟩
  have h := (C242_load m h1 h2 q).2.2.1
  have h3 : (84000 : ℝ) * (tyres m q).1.kin.w = 700 := h
  linear_combination h3 / 84000

end Verif.PoweredAxle
