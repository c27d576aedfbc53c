import Verif.Model.Tyre
import Mathlib.Analysis.SpecialFunctions.Trigonometric.Bounds
import Mathlib.Tactic.Linarith
import Mathlib.Tactic.NormNum
import Mathlib.Tactic.Ring
import Mathlib.Tactic.FieldSimp
import Mathlib.Tactic.Positivity

/-! Helper lemmas for the tyres. -/

set_option autoImplicit false

namespace Verif.Tyre

open Real

theorem rho_pos (p : Simple) (kappa lambda Fz : ℝ) : 0 < rho p kappa lambda Fz := by
  apply Real.sqrt_pos.2
  have h1 := mul_self_nonneg (kappa / maxKappa p Fz)
  have h2 := mul_self_nonneg (lambda / maxLambda p Fz)
  positivity

theorem rho_sq (p : Simple) (kappa lambda Fz : ℝ) : rho p kappa lambda Fz ^ 2 =
    (kappa / maxKappa p Fz) ^ 2 + (lambda / maxLambda p Fz) ^ 2 + 1 / 10 ^ 12 := by
  have h1 := mul_self_nonneg (kappa / maxKappa p Fz)
  have h2 := mul_self_nonneg (lambda / maxLambda p Fz)
  rw [rho, Real.sq_sqrt (by positivity)]
  ring

theorem muX_pos (p : Simple) (h : ∀ x, 0 ≤ p.sp x) (Fz : ℝ) : 1 ≤ muXMax p Fz := by
  have := h (atLoad p p.muX1 p.muX2 Fz - muMin)
  simp only [muXMax, muMin] at *; linarith

theorem muY_pos (p : Simple) (h : ∀ x, 0 ≤ p.sp x) (Fz : ℝ) : 1 ≤ muYMax p Fz := by
  have := h (atLoad p p.muY1 p.muY2 Fz - muMin)
  simp only [muYMax, muMin] at *; linarith

/-- `sin (Q atan (S r))` is not negative for `0 ≤ Q ≤ 2`, `0 ≤ S r`. -/
theorem sin_shape_nonneg {Q x : ℝ} (hQ : 0 ≤ Q) (hQ2 : Q ≤ 2) (hx : 0 ≤ x) :
    0 ≤ sin (Q * arctan x) := by
  have h0 : 0 ≤ arctan x := arctan_nonneg.2 hx
  have h1 := arctan_lt_pi_div_two x
  apply sin_nonneg_of_nonneg_of_le_pi (by positivity)
  nlinarith

theorem neg_sin_shape {Q x : ℝ} (hQ : 0 ≤ Q) (hQ2 : Q ≤ 2) (hx : x ≤ 0) :
    sin (Q * arctan x) ≤ 0 := by
  have := sin_shape_nonneg hQ hQ2 (x := -x) (by linarith)
  rw [arctan_neg, mul_neg, sin_neg] at this
  linarith

/-- `arctan x` is between 0 and `x`, on the positive side. -/
theorem arctan_le {x : ℝ} (hx : 0 ≤ x) : arctan x ≤ x := by
  have h := Real.le_tan (arctan_nonneg.2 hx) (arctan_lt_pi_div_two x)
  rwa [tan_arctan] at h

/-- The magic formula has the sign of the slip. -/
theorem magic_sign {C B E x : ℝ} (hC : 0 ≤ C) (hC2 : C ≤ 2) (hE : E ≤ 1) (hB : 0 ≤ B) :
    0 ≤ x * magic C B E x := by
  have key : ∀ y : ℝ, 0 ≤ y → 0 ≤ y - E * (y - arctan y) := by
    intro y hy
    have h1 := arctan_le hy
    have h2 : 0 ≤ arctan y := arctan_nonneg.2 hy
    nlinarith [mul_nonneg (sub_nonneg.2 hE) (sub_nonneg.2 h1)]
  simp only [magic]
  rcases le_total 0 x with hx | hx
  · exact mul_nonneg hx (sin_shape_nonneg hC hC2 (key _ (mul_nonneg hB hx)))
  · have h := key (B * -x) (mul_nonneg hB (by linarith))
    rw [mul_neg, arctan_neg] at h
    exact mul_nonneg_of_nonpos_of_nonpos hx (neg_sin_shape hC hC2 (by linarith))

theorem magic_neg (C B E x : ℝ) : magic C B E (-x) = -magic C B E x := by
  have h : B * -x - E * (B * -x - arctan (B * -x))
      = -(B * x - E * (B * x - arctan (B * x))) := by
    rw [mul_neg, arctan_neg]; ring
  simp only [magic]
  rw [h, arctan_neg, mul_neg, sin_neg]

theorem magic_zero (C B E : ℝ) : magic C B E 0 = 0 := by simp [magic]

theorem cos_shape_nonneg {r x : ℝ} (hr : |r| ≤ 1) : 0 ≤ cos (r * arctan x) := by
  have h1 := arctan_lt_pi_div_two x
  have h2 := neg_pi_div_two_lt_arctan x
  have h3 : |arctan x| ≤ π / 2 := abs_le.2 ⟨by linarith, h1.le⟩
  have h4 : |r * arctan x| ≤ π / 2 := by
    rw [abs_mul]
    calc |r| * |arctan x| ≤ 1 * (π / 2) := by gcongr
      _ = π / 2 := one_mul _
  exact cos_nonneg_of_neg_pi_div_two_le_of_le (abs_le.1 h4).1 (abs_le.1 h4).2

end Verif.Tyre
