import Verif.Model.Powertrain
import Mathlib.Analysis.Calculus.Deriv.Inv
import Mathlib.Analysis.Calculus.Deriv.Mul
import Mathlib.Analysis.Calculus.Deriv.Add
import Mathlib.Topology.Order.OrderClosed
import Mathlib.Topology.Piecewise
import Mathlib.Topology.Algebra.Order.Field
import Mathlib.Tactic.Linarith
import Mathlib.Tactic.NormNum
import Mathlib.Tactic.Ring
import Mathlib.Tactic.FieldSimp
import Mathlib.Tactic.Positivity

/-! Property theorems C44, C49, C50, C51, C74, C75, C77, C78: engine, brakes, differential and kart axle. -/

set_option autoImplicit false

namespace Verif.Power

/-! ### C44 -/

/-- A power curve: data on a positive range, without negative power in it. -/
structure GoodCurve (e : Engine) : Prop where
  left_pos : 0 < e.left
  le : e.left ≤ e.right
  nonneg : ∀ w, e.left ≤ w → w ≤ e.right → 0 ≤ e.P w

/-- The power delivered (torque times speed) is the throttle times: the maximum power in maximum-power
mode; otherwise the data in their range, a line from zero below them, and above them a line that reaches
zero at 15/14 of the highest speed, and zero from there on. -/
theorem C44_power (e : Engine) (throttle omega : ℝ) (hd : e.directTorque = false) (ho : omega ≠ 0) :
    (e.onlyMaxPower = true → engineTorque e throttle omega * omega = throttle * (e.maxPower * 1000)) ∧
    (e.onlyMaxPower = false →
      (e.left ≤ e.gear * omega → e.gear * omega ≤ e.right →
        engineTorque e throttle omega * omega = throttle * e.P (e.gear * omega)) ∧
      (GoodCurve e → 0 ≤ e.gear * omega → e.gear * omega < e.left →
        engineTorque e throttle omega * omega =
          throttle * (e.P e.left * (e.gear * omega / e.left))) ∧
      (GoodCurve e → e.right < e.gear * omega → 14 * (e.gear * omega) ≤ 15 * e.right →
        engineTorque e throttle omega * omega =
          throttle * (e.P e.right * (15 - 14 * (e.gear * omega / e.right)))) ∧
      (GoodCurve e → 15 * e.right ≤ 14 * (e.gear * omega) → engineTorque e throttle omega = 0)) := by
  refine ⟨fun h => ?_, fun h => ⟨fun h1 h2 => ?_, fun g h0 h1 => ?_, fun g h1 h2 => ?_,
    fun g h1 => ?_⟩⟩
  · simp only [engineTorque, hd, h]
    simp [div_mul_cancel₀ _ ho]
  · simp only [engineTorque, hd, h, curvePower, if_neg (not_lt.2 h1), gt_iff_lt, if_neg (not_lt.2 h2)]
    simp [div_mul_cancel₀ _ ho]
  · have hP := g.nonneg e.left le_rfl g.le
    have hl := g.left_pos
    simp only [engineTorque, hd, h, curvePower, if_pos h1]
    rw [max_eq_right (div_nonneg (mul_nonneg h0 hP) hl.le)]
    simp only [Bool.false_eq_true, if_false, div_mul_cancel₀ _ ho]
    ring
  · have hP := g.nonneg e.right g.le le_rfl
    have hr := lt_of_lt_of_le g.left_pos g.le
    have hnl : ¬ e.gear * omega < e.left := not_lt.2 (le_trans g.le h1.le)
    have e1 : e.P e.right * ((15000 : ℝ) / 14000 - e.gear * omega / e.right) / (15000 / 14000 - 1) =
        e.P e.right * (15 - 14 * (e.gear * omega / e.right)) := by ring
    have h3 : e.gear * omega / e.right ≤ 15 / 14 := by
      rw [div_le_div_iff₀ hr (by norm_num)]; linarith
    simp only [engineTorque, hd, h, curvePower, if_neg hnl, gt_iff_lt, if_pos h1]
    rw [e1, max_eq_right (mul_nonneg hP (by linarith))]
    simp [div_mul_cancel₀ _ ho]
  · have hP := g.nonneg e.right g.le le_rfl
    have hr := lt_of_lt_of_le g.left_pos g.le
    have h1' : e.right < e.gear * omega := by linarith
    have hnl : ¬ e.gear * omega < e.left := not_lt.2 (le_trans g.le h1'.le)
    have e1 : e.P e.right * ((15000 : ℝ) / 14000 - e.gear * omega / e.right) / (15000 / 14000 - 1) =
        e.P e.right * (15 - 14 * (e.gear * omega / e.right)) := by ring
    have h3 : 15 / 14 ≤ e.gear * omega / e.right := by
      rw [div_le_div_iff₀ (by norm_num) hr]; linarith
    simp only [engineTorque, hd, h, curvePower, if_neg hnl, gt_iff_lt, if_pos h1']
    rw [e1, max_eq_left (mul_nonpos_of_nonneg_of_nonpos hP (by linarith))]
    simp

theorem curvePower_bounds {e : Engine} (g : GoodCurve e) {M : ℝ}
    (hM : ∀ w, e.left ≤ w → w ≤ e.right → e.P w ≤ M) (w : ℝ) :
    0 ≤ curvePower e w ∧ curvePower e w ≤ M := by
  have hl := g.left_pos
  have hr := lt_of_lt_of_le g.left_pos g.le
  have hPl := g.nonneg e.left le_rfl g.le
  have hPr := g.nonneg e.right g.le le_rfl
  have hMl := hM e.left le_rfl g.le
  have hMr := hM e.right g.le le_rfl
  simp only [curvePower]
  split
  · rename_i h
    refine ⟨le_max_left _ _, max_le (le_trans hPl hMl) ?_⟩
    rw [div_le_iff₀ hl]
    have : w * e.P e.left ≤ e.left * e.P e.left := mul_le_mul_of_nonneg_right h.le hPl
    nlinarith
  · split
    · rename_i h1 h2
      refine ⟨le_max_left _ _, max_le (le_trans hPr hMr) ?_⟩
      have h3 : 1 ≤ w / e.right := by rw [le_div_iff₀ hr]; linarith
      have e1 : ((15000 : ℝ) / 14000 - w / e.right) / (15000 / 14000 - 1) =
        15 - 14 * (w / e.right) := by ring
      rw [mul_div_assoc, e1]
      have : e.P e.right * (15 - 14 * (w / e.right)) ≤ e.P e.right * 1 :=
        mul_le_mul_of_nonneg_left (by linarith) hPr
      linarith
    · rename_i h1 h2
      exact ⟨g.nonneg w (not_lt.1 h1) (not_lt.1 h2), hM w (not_lt.1 h1) (not_lt.1 h2)⟩

/-- With non-negative throttle and positive wheel speed the engine never brakes and never delivers more
than the throttle times the highest power of the curve, at any speed. -/
theorem C44_never_brakes (e : Engine) (hd : e.directTorque = false) (M throttle omega : ℝ)
    (ht : 0 ≤ throttle) (ho : 0 < omega)
    (hmax : e.onlyMaxPower = true → 0 ≤ e.maxPower ∧ e.maxPower * 1000 ≤ M)
    (hcurve : e.onlyMaxPower = false →
      GoodCurve e ∧ ∀ w, e.left ≤ w → w ≤ e.right → e.P w ≤ M) :
    0 ≤ engineTorque e throttle omega ∧ engineTorque e throttle omega * omega ≤ throttle * M := by
  cases hm : e.onlyMaxPower with
  | true =>
    obtain ⟨h0, h1⟩ := hmax hm
    simp only [engineTorque, hd, hm, if_true, Bool.false_eq_true, if_false]
    rw [div_mul_cancel₀ _ ho.ne']
    exact ⟨by positivity, mul_le_mul_of_nonneg_left h1 ht⟩
  | false =>
    obtain ⟨g, hM⟩ := hcurve hm
    obtain ⟨h0, h1⟩ := curvePower_bounds g hM (e.gear * omega)
    simp only [engineTorque, hd, hm, Bool.false_eq_true, if_false]
    rw [div_mul_cancel₀ _ ho.ne']
    exact ⟨by positivity, mul_le_mul_of_nonneg_left h1 ht⟩

/-- The torque is proportional to the throttle. -/
theorem C44_linear_in_throttle (e : Engine) (c throttle omega : ℝ) :
    engineTorque e (c * throttle) omega = c * engineTorque e throttle omega := by
  simp only [engineTorque]
  split
  · rfl
  · split <;> ring

/-- If the data vary continuously in their range, the power varies continuously at all speeds, the ends
of the range included. -/
theorem C44_continuous (e : Engine) (g : GoodCurve e)
    (hc : ContinuousOn e.P (Set.Icc e.left e.right)) : Continuous (curvePower e) := by
  have hl := g.left_pos
  have hr := lt_of_lt_of_le g.left_pos g.le
  -- the data, frozen outside of their range
  have hcl : Continuous fun w => e.P (max e.left (min e.right w)) := by
    have h1 : Continuous fun w : ℝ => max e.left (min e.right w) :=
      continuous_const.max (continuous_const.min continuous_id)
    exact hc.comp_continuous h1 fun w => ⟨le_max_left _ _, max_le g.le (min_le_left _ _)⟩
  have h2 : Continuous fun w => if w ≤ e.right then e.P (max e.left (min e.right w))
      else max 0 (e.P e.right * (15000 / 14000 - w / e.right) / (15000 / 14000 - 1)) := by
    refine Continuous.if_le hcl ?_ continuous_id continuous_const ?_
    · exact continuous_const.max ((continuous_const.mul
        (continuous_const.sub (continuous_id.div_const _))).div_const _)
    · intro w hw
      have hw : w = e.right := hw
      subst hw
      rw [min_self, max_eq_right g.le, div_self hr.ne', mul_div_assoc, div_self (by norm_num), mul_one,
        max_eq_right (g.nonneg _ g.le le_rfl)]
  have h3 : Continuous fun w => if e.left ≤ w then
      (if w ≤ e.right then e.P (max e.left (min e.right w))
        else max 0 (e.P e.right * (15000 / 14000 - w / e.right) / (15000 / 14000 - 1)))
      else max 0 (w * e.P e.left / e.left) := by
    refine Continuous.if_le h2 ?_ continuous_const continuous_id ?_
    · exact continuous_const.max ((continuous_id.mul continuous_const).div_const _)
    · intro w hw
      have hw : e.left = w := hw
      subst hw
      rw [if_pos g.le, min_eq_right g.le, max_self, mul_div_cancel_left₀ _ hl.ne',
        max_eq_right (g.nonneg _ le_rfl g.le)]
  convert h3 using 1
  funext w
  simp only [curvePower]
  by_cases h1 : w < e.left
  · rw [if_pos h1, if_neg (not_le.2 h1)]
  · rw [if_neg h1, if_pos (not_lt.1 h1)]
    by_cases h4 : w > e.right
    · rw [if_pos h4, if_neg (not_le.2 h4)]
    · rw [if_neg h4, if_pos (not_lt.1 h4), min_eq_right (not_lt.1 h4), max_eq_right (not_lt.1 h1)]

/-- An engine with a power curve `30000 + w` between 500 and 1400 rad/s. -/
noncomputable def exEngine : Engine := ⟨false, false, 10, 0, fun w => 30000 + w, 500, 1400⟩

theorem exEngine_good : GoodCurve exEngine :=
  ⟨by norm_num [exEngine], by norm_num [exEngine],
    fun w h _ => by simp only [exEngine] at h ⊢; linarith⟩

example : engineTorque exEngine 1 145 * 145 = 31400 * (15 - 14 * (1450 / 1400)) := by
  have := (((C44_power exEngine 1 145 rfl (by norm_num)).2 rfl).2.2.1 exEngine_good
    (by norm_num [exEngine]) (by norm_num [exEngine]))
  rw [this]; norm_num [exEngine]

example : 0 ≤ engineTorque exEngine (1 / 2) 20 :=
  (C44_never_brakes exEngine rfl 31400 (1 / 2) 20 (by norm_num) (by norm_num) (by simp [exEngine])
    (fun _ => ⟨exEngine_good, fun w _ h => by simp only [exEngine] at h ⊢; linarith⟩)).1

example : Continuous (curvePower exEngine) :=
  C44_continuous exEngine exEngine_good (by
    simp only [exEngine]; exact (continuous_const.add continuous_id).continuousOn)

/-! ### C74: the reported power is the delivered power -/

/-- After a call the reported power is torque times speed, in maximum-power mode.
Partial: with a power curve the reported power is not updated (`C74_false`). -/
theorem C74_reported_power_partial (e : Engine) (old throttle omega : ℝ) (hd : e.directTorque = false)
    (hm : e.onlyMaxPower = true) (ho : omega ≠ 0) :
    enginePower e old throttle = engineTorque e throttle omega * omega := by
  rw [(C44_power e throttle omega hd ho).1 hm]
  simp [enginePower, hd, hm]

example : enginePower ⟨false, true, 1, 600, fun _ => 0, 0, 0⟩ 0 (1 / 2) =
    engineTorque ⟨false, true, 1, 600, fun _ => 0, 0, 0⟩ (1 / 2) 150 * 150 :=
  C74_reported_power_partial _ 0 (1 / 2) 150 rfl rfl (by norm_num)

/-- With a power curve the reported power stays what it was. -/
theorem C74_false : enginePower exEngine 0 1 = 0 ∧ engineTorque exEngine 1 100 * 100 = 31000 := by
  refine ⟨by simp [enginePower, exEngine], ?_⟩
  rw [((C44_power exEngine 1 100 rfl (by norm_num)).2 rfl).1 (by norm_num [exEngine])
    (by norm_num [exEngine])]
  norm_num [exEngine]

/-! ### C75: the derivatives of the torque given to the optimiser -/

/-- If throttle and speed vary with the given derivatives, the derivative computed by automatic
differentiation is that of the torque, in maximum-power and direct-torque mode.
Partial: with a power curve the dependence of the power on the speed is lost (`C75_false`). -/
theorem C75_torque_derivative_partial (e : Engine) (hm : e.directTorque = true ∨ e.onlyMaxPower = true)
    (throttle omega : ℝ → ℝ) (dthrottle domega t : ℝ) (h1 : HasDerivAt throttle dthrottle t)
    (h2 : HasDerivAt omega domega t) (ho : omega t ≠ 0) :
    (engineTorqueAD e ⟨throttle t, dthrottle⟩ ⟨omega t, domega⟩).val
      = engineTorque e (throttle t) (omega t) ∧
    HasDerivAt (fun t => engineTorque e (throttle t) (omega t))
      (engineTorqueAD e ⟨throttle t, dthrottle⟩ ⟨omega t, domega⟩).eps t := by
  cases hd : e.directTorque with
  | true =>
    simp only [engineTorque, engineTorqueAD, hd, if_true]
    exact ⟨trivial, h1⟩
  | false =>
    have hm : e.onlyMaxPower = true := by
      rcases hm with h | h
      · rw [hd] at h; cases h
      · exact h
    simp only [engineTorque, engineTorqueAD, hd, hm, if_true, Bool.false_eq_true, if_false, Dual.mul,
      Dual.div, Dual.const]
    refine ⟨trivial, ?_⟩
    refine ((h1.mul_const (e.maxPower * 1000)).div h2 ho).congr_deriv ?_
    simp

example : HasDerivAt (fun t : ℝ => engineTorque ⟨false, true, 1, 600, fun _ => 0, 0, 0⟩ 1 t)
    (engineTorqueAD ⟨false, true, 1, 600, fun _ => 0, 0, 0⟩ ⟨1, 0⟩ ⟨150, 1⟩).eps 150 :=
  (C75_torque_derivative_partial _ (.inr rfl) (fun _ => 1) (fun t => t) 0 1 150 (hasDerivAt_const _ _)
    (hasDerivAt_id _) (by norm_num)).2

/-- With a power curve, inside the data, the torque carried is right and its derivative lacks exactly the
term of the slope `dP` of the curve: it is the derivative of the torque if and only if that term is zero,
in particular for a change of the throttle at constant speed.
Partial: the derivative with respect to the speed is not that of the torque (`C75_false`). -/
theorem C75_curve_derivative_partial (e : Engine) (hd : e.directTorque = false)
    (hm : e.onlyMaxPower = false) (throttle omega : ℝ → ℝ) (dthrottle domega dP t : ℝ)
    (h1 : HasDerivAt throttle dthrottle t) (h2 : HasDerivAt omega domega t)
    (hP : HasDerivAt e.P dP (e.gear * omega t)) (ho : omega t ≠ 0)
    (hl : e.left < e.gear * omega t) (hr : e.gear * omega t < e.right) :
    (engineTorqueAD e ⟨throttle t, dthrottle⟩ ⟨omega t, domega⟩).val
      = engineTorque e (throttle t) (omega t) ∧
    HasDerivAt (fun t => engineTorque e (throttle t) (omega t))
      ((engineTorqueAD e ⟨throttle t, dthrottle⟩ ⟨omega t, domega⟩).eps
        + throttle t * (dP * (e.gear * domega)) / omega t) t ∧
    (HasDerivAt (fun t => engineTorque e (throttle t) (omega t))
      (engineTorqueAD e ⟨throttle t, dthrottle⟩ ⟨omega t, domega⟩).eps t ↔
        throttle t * (dP * (e.gear * domega)) = 0) := by
  have hval : (engineTorqueAD e ⟨throttle t, dthrottle⟩ ⟨omega t, domega⟩).val
      = engineTorque e (throttle t) (omega t) := by
    simp [engineTorqueAD, engineTorque, hd, hm, Dual.mul, Dual.div, Dual.const]
  have hder : HasDerivAt (fun t => engineTorque e (throttle t) (omega t))
      ((engineTorqueAD e ⟨throttle t, dthrottle⟩ ⟨omega t, domega⟩).eps
        + throttle t * (dP * (e.gear * domega)) / omega t) t := by
    have hg : HasDerivAt (fun t => e.gear * omega t) (e.gear * domega) t := h2.const_mul _
    have hc : HasDerivAt (fun t => e.P (e.gear * omega t)) (dP * (e.gear * domega)) t := hP.comp t hg
    have hq := (h1.mul hc).div h2 ho
    have heq : (fun t => engineTorque e (throttle t) (omega t)) =ᶠ[nhds t]
        (fun t => throttle t * e.P (e.gear * omega t) / omega t) := by
      filter_upwards [hg.continuousAt.preimage_mem_nhds (Ioo_mem_nhds hl hr)] with x hx
      have hx1 : ¬ e.gear * omega x < e.left := not_lt.2 (le_of_lt hx.1)
      have hx2 : ¬ e.gear * omega x > e.right := not_lt.2 (le_of_lt hx.2)
      simp [engineTorque, hd, hm, curvePower, hx1, hx2]
    refine (HasDerivAt.congr_of_eventuallyEq ?_ heq)
    refine hq.congr_deriv ?_
    have hx1 : ¬ e.gear * omega t < e.left := not_lt.2 (le_of_lt hl)
    have hx2 : ¬ e.gear * omega t > e.right := not_lt.2 (le_of_lt hr)
    simp only [engineTorqueAD, hd, hm, curvePower, hx1, hx2, Bool.false_eq_true, if_false, Dual.mul,
      Dual.div, Dual.const, Pi.mul_apply]
    field_simp
    ring
  refine ⟨hval, hder, ⟨fun h => ?_, fun h => ?_⟩⟩
  · have := h.unique hder
    have hz : throttle t * (dP * (e.gear * domega)) / omega t = 0 := by linarith
    exact (div_eq_zero_iff.1 hz).resolve_right ho
  · rw [h, zero_div, add_zero] at hder
    exact hder

/-- The example engine at 100 rad/s and half throttle: the derivative along the throttle is right. -/
example : HasDerivAt (fun t : ℝ => engineTorque exEngine t 100)
    (engineTorqueAD exEngine ⟨1 / 2, 1⟩ ⟨100, 0⟩).eps (1 / 2) := by
  have hP : HasDerivAt exEngine.P 1 (exEngine.gear * 100) := by
    show HasDerivAt (fun w : ℝ => 30000 + w) 1 _
    exact (hasDerivAt_id _).const_add _
  exact (C75_curve_derivative_partial exEngine rfl rfl (fun t => t) (fun _ => 100) 1 0 1 (1 / 2)
    (hasDerivAt_id _) (hasDerivAt_const _ _) hP (by norm_num) (by norm_num [exEngine])
    (by norm_num [exEngine])).2.2.2 (by ring)

/-- Inside the data of a power curve, at full throttle, the derivative given for a change of speed is
that of constant power divided by speed: `-P/omega^2`, without the slope of the curve. -/
theorem C75_actual_curve (e : Engine) (hd : e.directTorque = false) (hm : e.onlyMaxPower = false)
    (omega : ℝ) (h1 : e.left ≤ e.gear * omega) (h2 : e.gear * omega ≤ e.right) :
    (engineTorqueAD e ⟨1, 0⟩ ⟨omega, 1⟩).eps = -e.P (e.gear * omega) / omega ^ 2 := by
  simp only [engineTorqueAD, hd, hm, curvePower, if_neg (not_lt.2 h1), gt_iff_lt, if_neg (not_lt.2 h2),
    Bool.false_eq_true, if_false, Dual.mul, Dual.div, Dual.const]
  simp

/-- At 100 rad/s the torque of the example engine varies by -3 Nm per rad/s; the derivative given is
-3.1. -/
theorem C75_false : HasDerivAt (fun t : ℝ => engineTorque exEngine 1 t) (-3) 100 ∧
    (engineTorqueAD exEngine ⟨1, 0⟩ ⟨100, 1⟩).eps = -31 / 10 := by
  constructor
  · have hd : HasDerivAt (fun t : ℝ => (30000 + 10 * t) / t) (-3) 100 := by
      refine ((((hasDerivAt_id (100 : ℝ)).const_mul 10).const_add 30000).div (hasDerivAt_id (100 : ℝ))
        (by norm_num)).congr_deriv ?_
      norm_num
    refine hd.congr_of_eventuallyEq ?_
    filter_upwards [Ioo_mem_nhds (show (60 : ℝ) < 100 by norm_num) (show (100 : ℝ) < 130 by norm_num)]
      with t ht
    have h1 : ¬ (10 * t < 500) := by have := ht.1; linarith
    have h2 : ¬ (1400 < 10 * t) := by have := ht.2; linarith
    simp [engineTorque, exEngine, curvePower, h1, h2]
  · rw [C75_actual_curve exEngine rfl rfl 100 (by norm_num [exEngine]) (by norm_num [exEngine])]
    norm_num [exEngine]

/-! ### C50, C51 -/

/-- What is assumed of the smoothing functions of the library: `smooth_pos` is non-negative,
`smooth_sign` has the sign of its argument. -/
structure Smooth (a : Axle3) : Prop where
  pos : ∀ x, 0 ≤ a.sp x
  sign : ∀ x, 0 ≤ x * a.ss x

/-- Both engines deliver maximum power (as in all the vehicles, axle_car_3dof.hpp:40-41, 97-98). -/
def MaxPower (a : Axle3) : Prop :=
  a.engine.directTorque = false ∧ a.engine.onlyMaxPower = true ∧
  a.boost.directTorque = false ∧ a.boost.onlyMaxPower = true

/-- Whatever the speeds of the wheels (with non-zero mean), the power they receive is that of engine and
boost, minus what the differential dissipates, minus what the brakes dissipate. -/
theorem C50_power_balance (a : Axle3) (hm : MaxPower a) (throttle boost bias ol or : ℝ)
    (ho : ol + or ≠ 0) :
    (poweredTorques a throttle boost bias ol or).1 * ol
      + (poweredTorques a throttle boost bias ol or).2 * or =
    a.sp throttle * (a.engine.maxPower * 1000) + a.sp throttle * boost * (a.boost.maxPower * 1000)
      - a.stiffness * (ol - or) ^ 2
      - (a.sp (-throttle) * a.Tmax * bias) * (ol * a.ss ol + or * a.ss or) := by
  obtain ⟨h1, h2, h3, h4⟩ := hm
  have hne : (1 : ℝ) / 2 * (ol + or) ≠ 0 := mul_ne_zero (by norm_num) ho
  have e1 := (C44_power a.engine (a.sp throttle) _ h1 hne).1 h2
  have e2 := (C44_power a.boost (a.sp throttle * boost) _ h3 hne).1 h4
  simp only [poweredTorques, brakingTorque, brakeTorque]
  linear_combination e1 + e2

/-- Hence the wheels never receive more than the engines deliver. -/
theorem C50_at_most_engine_power (a : Axle3) (hm : MaxPower a) (hs : Smooth a)
    (throttle boost bias ol or : ℝ) (ho : ol + or ≠ 0) (hk : 0 ≤ a.stiffness) (hT : 0 ≤ a.Tmax)
    (hb : 0 ≤ bias) :
    (poweredTorques a throttle boost bias ol or).1 * ol
      + (poweredTorques a throttle boost bias ol or).2 * or ≤
    a.sp throttle * (a.engine.maxPower * 1000)
      + a.sp throttle * boost * (a.boost.maxPower * 1000) := by
  rw [C50_power_balance a hm throttle boost bias ol or ho]
  have h1 : 0 ≤ a.stiffness * (ol - or) ^ 2 := by positivity
  have h2 : 0 ≤ (a.sp (-throttle) * a.Tmax * bias) * (ol * a.ss ol + or * a.ss or) :=
    mul_nonneg (mul_nonneg (mul_nonneg (hs.pos _) hT) hb) (add_nonneg (hs.sign _) (hs.sign _))
  linarith

/-- The brakes of a wheel never deliver power. -/
theorem C51_brakes_dissipate (a : Axle3) (hs : Smooth a) (throttle bias ol or : ℝ) (hT : 0 ≤ a.Tmax)
    (hb : 0 ≤ bias) :
    (steeringTorques a throttle bias ol or).1 * ol ≤ 0 ∧
    (steeringTorques a throttle bias ol or).2 * or ≤ 0 := by
  have key : ∀ o, brakingTorque a throttle bias o * o ≤ 0 := by
    intro o
    have h : 0 ≤ (a.sp (-throttle) * a.Tmax * bias) * (o * a.ss o) :=
      mul_nonneg (mul_nonneg (mul_nonneg (hs.pos _) hT) hb) (hs.sign _)
    simp only [brakingTorque, brakeTorque]
    nlinarith
  exact ⟨key ol, key or⟩

/-- The bias only distributes the braking between the axles: for equal brakes, the torques of a front
and a rear wheel turning at the same speed add up to the same sum for every bias, with shares `b` and
`1-b`. -/
theorem C51_bias_distributes (front rear : Axle3) (heq : front.Tmax = rear.Tmax ∧ front.sp = rear.sp ∧
      front.ss = rear.ss) (throttle bias omega : ℝ) :
    brakingTorque front throttle (axleBiases bias).1 omega
      + brakingTorque rear throttle (axleBiases bias).2 omega =
      brakingTorque front throttle 1 omega ∧
    brakingTorque front throttle (axleBiases bias).1 omega =
      bias * brakingTorque front throttle 1 omega ∧
    brakingTorque rear throttle (axleBiases bias).2 omega =
      (1 - bias) * brakingTorque front throttle 1 omega := by
  obtain ⟨h1, h2, h3⟩ := heq
  simp only [brakingTorque, brakeTorque, axleBiases, h1, h2, h3]
  refine ⟨?_, ?_, ?_⟩ <;> ring

/-- The torque on the axle of the kart is that of the engine minus that of the brakes, which never
delivers power. -/
theorem C51_kart (a : Axle3) (hs : Smooth a) (hd : a.engine.directTorque = false) (throttle omega : ℝ)
    (hT : 0 ≤ a.Tmax) :
    kartTorque a throttle omega * omega ≤ engineTorque a.engine (a.sp throttle) omega * omega := by
  have h : 0 ≤ (a.sp (-throttle) * a.Tmax) * (omega * a.ss omega) :=
    mul_nonneg (mul_nonneg (hs.pos _) hT) (hs.sign _)
  simp only [kartTorque, hd, brakeTorque, Bool.false_eq_true, if_false]
  nlinarith

/-- An axle with sharp positive part and sign. -/
noncomputable def exAxle : Axle3 :=
  ⟨fun x => max x 0, fun x => if 0 ≤ x then 1 else -1, 5000, 10,
    ⟨false, true, 1, 600, fun _ => 0, 0, 0⟩, ⟨false, true, 1, 120, fun _ => 0, 0, 0⟩⟩

theorem exAxle_smooth : Smooth exAxle where
  pos x := le_max_right _ _
  sign x := by
    simp only [exAxle]
    split
    · linarith
    · linarith

example : (poweredTorques exAxle 1 1 (2 / 5) 100 104).1 * 100
    + (poweredTorques exAxle 1 1 (2 / 5) 100 104).2 * 104 ≤ 720000 := by
  have := C50_at_most_engine_power exAxle ⟨rfl, rfl, rfl, rfl⟩ exAxle_smooth 1 1 (2 / 5) 100 104
    (by norm_num) (by norm_num [exAxle]) (by norm_num [exAxle]) (by norm_num)
  refine le_trans this ?_
  norm_num [exAxle]

example : (steeringTorques exAxle (-1) (3 / 5) 100 (-20)).1 * 100 ≤ 0 :=
  (C51_brakes_dissipate exAxle exAxle_smooth (-1) (3 / 5) 100 (-20) (by norm_num [exAxle])
    (by norm_num)).1

/-! ### C49 -/

/-- The documented equations of the suspension of an axle, axle_car_6dof.h:205-208: kinematics of the
tyre deformations, and balance of chassis spring, antiroll bar and tyre on each side. -/
structure Balanced (a : Axle6) (sym asym wl wr sl sr : ℝ) : Prop where
  left : wl = sym - asym + sl
  right : wr = sym + asym + sr
  forceLeft : a.kChassis * sl + a.kAntiroll * (sl - sr) + a.kTire * wl = 0
  forceRight : a.kChassis * sr + a.kAntiroll * (sr - sl) + a.kTire * wr = 0

/-- The computed deformations are the unique solution of the documented equations, for positive spring
stiffnesses and a non-negative antiroll stiffness. The rates are computed by the same function. -/
theorem C49_suspension (a : Axle6) (hc : 0 < a.kChassis) (hk : 0 ≤ a.kAntiroll) (ht : 0 < a.kTire)
    (sym asym wl wr sl sr : ℝ) :
    Balanced a sym asym wl wr sl sr ↔
      (wl, wr) = tyreDeformation a sym asym ∧ (sl, sr) = chassisDeformation a sym asym := by
  have h1 : a.kChassis + a.kTire ≠ 0 := by positivity
  have h2 : 2 * a.kAntiroll + a.kChassis + a.kTire ≠ 0 := by positivity
  constructor
  · rintro ⟨e1, e2, e3, e4⟩
    have hsum : (a.kChassis + a.kTire) * (sl + sr) = -(2 * a.kTire * sym) := by
      rw [e1] at e3; rw [e2] at e4; linear_combination e3 + e4
    have hdif : (2 * a.kAntiroll + a.kChassis + a.kTire) * (sr - sl) = -(2 * a.kTire * asym) := by
      rw [e1] at e3; rw [e2] at e4; linear_combination e4 - e3
    have hS : sl + sr = -(2 * a.kTire * sym) / (a.kChassis + a.kTire) := by
      rw [eq_div_iff h1]; linear_combination hsum
    have hD : sr - sl = -(2 * a.kTire * asym) / (2 * a.kAntiroll + a.kChassis + a.kTire) := by
      rw [eq_div_iff h2]; linear_combination hdif
    have hsl : sl = (-(2 * a.kTire * sym) / (a.kChassis + a.kTire)
        - -(2 * a.kTire * asym) / (2 * a.kAntiroll + a.kChassis + a.kTire)) / 2 := by
      rw [← hS, ← hD]; ring
    have hsr : sr = (-(2 * a.kTire * sym) / (a.kChassis + a.kTire)
        + -(2 * a.kTire * asym) / (2 * a.kAntiroll + a.kChassis + a.kTire)) / 2 := by
      rw [← hS, ← hD]; ring
    have hwl : wl = (tyreDeformation a sym asym).1 := by
      rw [e1, hsl]; simp only [tyreDeformation, symK, asymK]; field_simp; ring
    have hwr : wr = (tyreDeformation a sym asym).2 := by
      rw [e2, hsr]; simp only [tyreDeformation, symK, asymK]; field_simp; ring
    refine ⟨Prod.ext hwl hwr, Prod.ext ?_ ?_⟩
    · simp only [chassisDeformation, ← hwl]; linear_combination -e1
    · simp only [chassisDeformation, ← hwr]; linear_combination -e2
  · rintro ⟨e1, e2⟩
    simp only [Prod.ext_iff] at e1 e2
    obtain ⟨rfl, rfl⟩ := e1
    obtain ⟨rfl, rfl⟩ := e2
    refine ⟨?_, ?_, ?_, ?_⟩
    · simp only [chassisDeformation]; ring
    · simp only [chassisDeformation]; ring
    · simp only [chassisDeformation, tyreDeformation, symK, asymK]; field_simp; ring
    · simp only [chassisDeformation, tyreDeformation, symK, asymK]; field_simp; ring

/-- The tyre deformations seen by the tyres (height of the tyre above the ground plus radius) are those
of the suspension equations, when steering lifts the two sides by opposite amounts.
Partial: nothing makes the two steering coefficients opposite (`C77_false`). -/
theorem C77_tyres_consistent_partial (a : Axle6) (hb : a.steering = true → a.betaL = -a.betaR)
    (hns : a.steering = false → a.betaL = 0 ∧ a.betaR = 0) (z phi delta : ℝ) :
    (z + (tyreHeight a z phi delta).1 + a.R0, z + (tyreHeight a z phi delta).2 + a.R0)
      = tyreDeformation a (displSym a z) (displAsym a phi delta) := by
  cases hst : a.steering with
  | true =>
    have := hb hst
    refine Prod.ext ?_ ?_ <;>
      simp only [tyreHeight, chassisDeformation, displSym, displAsym, hst, if_true, this] <;> ring
  | false =>
    obtain ⟨h1, h2⟩ := hns hst
    refine Prod.ext ?_ ?_ <;>
      simp only [tyreHeight, chassisDeformation, displSym, displAsym, hst, h1, h2] <;>
      simp <;> ring

/-- A front axle whose steering lifts only the right wheel: the deformation of the left tyre is not that
of the suspension equations. -/
theorem C77_false : ∃ a : Axle6, 0 < a.kChassis ∧ 0 < a.kTire ∧
    0 + (tyreHeight a 0 0 1).1 + a.R0 ≠ (tyreDeformation a (displSym a 0) (displAsym a 0 1)).1 := by
  refine ⟨⟨true, 1, 1, 0, 1, 0, 0, 1⟩, by norm_num, by norm_num, ?_⟩
  norm_num [tyreHeight, chassisDeformation, displSym, displAsym, tyreDeformation, symK, asymK]

/-- The vertical velocities given to the tyres are the derivatives of their heights, while the steering
angle does not change. Partial: the velocity due to a change of the steering angle is left out
(`C78_false`). -/
theorem C78_tyre_velocity_partial (a : Axle6) (z phi : ℝ → ℝ) (delta dz dphi t : ℝ) (hz : HasDerivAt z dz t)
    (hp : HasDerivAt phi dphi t) :
    HasDerivAt (fun t => (tyreHeight a (z t) (phi t) delta).1) (tyreVelocity a dz dphi).1 t ∧
    HasDerivAt (fun t => (tyreHeight a (z t) (phi t) delta).2) (tyreVelocity a dz dphi).2 t := by
  have hs : HasDerivAt (fun t => displSym a (z t)) dz t := hz.add_const _
  have ha : HasDerivAt (fun t => displAsym a (phi t) delta) (1 / 2 * a.track * dphi) t :=
    (hp.const_mul _).add_const _
  constructor
  · refine ((((((hs.sub ha).const_mul (a.kChassis * symK a)).sub (ha.mul_const (asymK a))).sub hs).add
      ha).add (hp.mul_const (-(1 / 2) * a.track))).add_const (a.betaL * delta) |>.congr_deriv ?_
    simp only [tyreVelocity, chassisDeformation, tyreDeformation, displRates]
  · refine ((((((hs.add ha).const_mul (a.kChassis * symK a)).add (ha.mul_const (asymK a))).sub hs).sub
      ha).add (hp.mul_const (1 / 2 * a.track))).add_const (a.betaR * delta) |>.congr_deriv ?_
    simp only [tyreVelocity, chassisDeformation, tyreDeformation, displRates]

/-- While the driver steers at 1 rad/s the right tyre moves vertically, the velocity given is zero. -/
theorem C78_false : ∃ a : Axle6, a.steering = true ∧ a.betaL = -a.betaR ∧
    (∃ d : ℝ, d ≠ 0 ∧ HasDerivAt (fun t => (tyreHeight a 0 0 t).2) d 0) ∧
    (tyreVelocity a 0 0).2 = 0 := by
  refine ⟨⟨true, 1, 1, 0, 1, 0, -1, 1⟩, rfl, rfl, ⟨1 / 2, by norm_num, ?_⟩, ?_⟩
  · have : (fun t : ℝ => (tyreHeight ⟨true, 1, 1, 0, 1, 0, -1, 1⟩ 0 0 t).2) = fun t => 1 / 2 * t := by
      funext t
      simp only [tyreHeight, chassisDeformation, displSym, displAsym, tyreDeformation, symK, asymK]
      norm_num
    rw [this]
    exact ((hasDerivAt_id (0 : ℝ)).const_mul (1 / 2)).congr_deriv (by norm_num)
  · norm_num [tyreVelocity, chassisDeformation, displRates, tyreDeformation, symK, asymK]

example : HasDerivAt (fun t : ℝ => (tyreHeight ⟨true, 1, 2, 1, 1, 0, -1, 1⟩ t 0 (1 / 10)).1)
    (tyreVelocity ⟨true, 1, 2, 1, 1, 0, -1, 1⟩ 1 0).1 3 :=
  (C78_tyre_velocity_partial _ (fun t => t) (fun _ => 0) (1 / 10) 1 0 3 (hasDerivAt_id _)
    (hasDerivAt_const _ _)).1

example : Balanced ⟨true, 1, 2, 1, 1, 0, -1, 1⟩ 3 5 (1 / 1 * 2 - 10 / 3 - 2 / 3)
    (1 / 1 * 2 + 10 / 3 + 2 / 3) (-1 + 1) (-1 - 1) := by
  rw [C49_suspension _ (by norm_num) (by norm_num) (by norm_num)]
  constructor <;> refine Prod.ext ?_ ?_ <;>
    norm_num [chassisDeformation, tyreDeformation, symK, asymK]

end Verif.Power
