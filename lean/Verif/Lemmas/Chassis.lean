import Verif.Spec.Chassis
import Verif.Model.Road
import Mathlib.Analysis.SpecialFunctions.Trigonometric.Deriv
import Mathlib.Analysis.Calculus.Deriv.Prod
import Mathlib.Tactic.LinearCombination

/-! Lemmas on rotations of vectors in space. -/

set_option autoImplicit false

namespace Verif.Chassis

open Verif.Road Real

theorem vec_ext {a b : Vec3} (h1 : a.1 = b.1) (h2 : a.2.1 = b.2.1) (h3 : a.2.2 = b.2.2) : a = b :=
  Prod.ext h1 (Prod.ext h2 h3)

theorem rotZ_neg (t : ℝ) (v : Vec3) : rotZ t (rotZ (-t) v) = v := by
  have h := sin_sq_add_cos_sq t
  refine vec_ext ?_ ?_ rfl <;> simp only [rotZ, cos_neg, sin_neg]
  · linear_combination v.1 * h
  · linear_combination v.2.1 * h

theorem rotY_neg (t : ℝ) (v : Vec3) : rotY t (rotY (-t) v) = v := by
  have h := sin_sq_add_cos_sq t
  refine vec_ext ?_ rfl ?_ <;> simp only [rotY, cos_neg, sin_neg]
  · linear_combination v.1 * h
  · linear_combination v.2.2 * h

theorem rotX_neg (t : ℝ) (v : Vec3) : rotX t (rotX (-t) v) = v := by
  have h := sin_sq_add_cos_sq t
  refine vec_ext rfl ?_ ?_ <;> simp only [rotX, cos_neg, sin_neg]
  · linear_combination v.2.1 * h
  · linear_combination v.2.2 * h

theorem rotZ_add (t : ℝ) (v w : Vec3) : rotZ t (v + w) = rotZ t v + rotZ t w := by
  refine vec_ext ?_ ?_ ?_ <;> simp only [rotZ, Prod.fst_add, Prod.snd_add] <;> ring

theorem rotY_add (t : ℝ) (v w : Vec3) : rotY t (v + w) = rotY t v + rotY t w := by
  refine vec_ext ?_ ?_ ?_ <;> simp only [rotY, Prod.fst_add, Prod.snd_add] <;> ring

theorem rotX_add (t : ℝ) (v w : Vec3) : rotX t (v + w) = rotX t v + rotX t w := by
  refine vec_ext ?_ ?_ ?_ <;> simp only [rotX, Prod.fst_add, Prod.snd_add] <;> ring

theorem rotZ_smul (t c : ℝ) (v : Vec3) : rotZ t (c • v) = c • rotZ t v := by
  refine vec_ext ?_ ?_ ?_ <;> simp only [rotZ, Prod.smul_fst, Prod.smul_snd, smul_eq_mul] <;> ring

theorem rotY_smul (t c : ℝ) (v : Vec3) : rotY t (c • v) = c • rotY t v := by
  refine vec_ext ?_ ?_ ?_ <;> simp only [rotY, Prod.smul_fst, Prod.smul_snd, smul_eq_mul] <;> ring

theorem rotX_smul (t c : ℝ) (v : Vec3) : rotX t (c • v) = c • rotX t v := by
  refine vec_ext ?_ ?_ ?_ <;> simp only [rotX, Prod.smul_fst, Prod.smul_snd, smul_eq_mul] <;> ring

theorem rotZ_cross (t : ℝ) (v w : Vec3) : rotZ t (cross v w) = cross (rotZ t v) (rotZ t w) := by
  have h := sin_sq_add_cos_sq t
  refine vec_ext ?_ ?_ ?_ <;> simp only [rotZ, cross]
  · ring
  · ring
  · linear_combination -(v.1 * w.2.1 - v.2.1 * w.1) * h

theorem rotY_cross (t : ℝ) (v w : Vec3) : rotY t (cross v w) = cross (rotY t v) (rotY t w) := by
  have h := sin_sq_add_cos_sq t
  refine vec_ext ?_ ?_ ?_ <;> simp only [rotY, cross]
  · ring
  · linear_combination -(v.2.2 * w.1 - v.1 * w.2.2) * h
  · ring

theorem rotX_cross (t : ℝ) (v w : Vec3) : rotX t (cross v w) = cross (rotX t v) (rotX t w) := by
  have h := sin_sq_add_cos_sq t
  refine vec_ext ?_ ?_ ?_ <;> simp only [rotX, cross]
  · linear_combination -(v.2.1 * w.2.2 - v.2.2 * w.2.1) * h
  · ring
  · ring

theorem rotZ_dot (t : ℝ) (v w : Vec3) : dot (rotZ t v) (rotZ t w) = dot v w := by
  have h := sin_sq_add_cos_sq t
  simp only [rotZ, dot]
  linear_combination (v.1 * w.1 + v.2.1 * w.2.1) * h

theorem rotY_dot (t : ℝ) (v w : Vec3) : dot (rotY t v) (rotY t w) = dot v w := by
  have h := sin_sq_add_cos_sq t
  simp only [rotY, dot]
  linear_combination (v.1 * w.1 + v.2.2 * w.2.2) * h

theorem rotX_dot (t : ℝ) (v w : Vec3) : dot (rotX t v) (rotX t w) = dot v w := by
  have h := sin_sq_add_cos_sq t
  simp only [rotX, dot]
  linear_combination (v.2.1 * w.2.1 + v.2.2 * w.2.2) * h

theorem toWorld_toBody (a : Attitude) (v : Vec3) : toWorld a (toBody a v) = v := by
  simp only [toWorld, toBody, rotZ_neg, rotY_neg, rotX_neg]

theorem toWorld_add (a : Attitude) (v w : Vec3) : toWorld a (v + w) = toWorld a v + toWorld a w := by
  simp only [toWorld, rotZ_add, rotY_add, rotX_add]

theorem toWorld_smul (a : Attitude) (c : ℝ) (v : Vec3) : toWorld a (c • v) = c • toWorld a v := by
  simp only [toWorld, rotZ_smul, rotY_smul, rotX_smul]

theorem toWorld_neg (a : Attitude) (v : Vec3) : toWorld a (-v) = -toWorld a v := by
  rw [← neg_one_smul ℝ v, toWorld_smul, neg_one_smul]

theorem toWorld_dot (a : Attitude) (v w : Vec3) : dot (toWorld a v) (toWorld a w) = dot v w := by
  simp only [toWorld, rotZ_dot, rotY_dot, rotX_dot]

theorem cross_add_left (a b c : Vec3) : cross (a + b) c = cross a c + cross b c := by
  refine vec_ext ?_ ?_ ?_ <;> simp only [cross, Prod.fst_add, Prod.snd_add] <;> ring

theorem cross_add_right (a b c : Vec3) : cross a (b + c) = cross a b + cross a c := by
  refine vec_ext ?_ ?_ ?_ <;> simp only [cross, Prod.fst_add, Prod.snd_add] <;> ring

theorem hasDerivAt_vec {f : ℝ → Vec3} {d : Vec3} {t : ℝ} (h1 : HasDerivAt (fun s => (f s).1) d.1 t)
    (h2 : HasDerivAt (fun s => (f s).2.1) d.2.1 t) (h3 : HasDerivAt (fun s => (f s).2.2) d.2.2 t) :
    HasDerivAt f d t := h1.prodMk (h2.prodMk h3)

theorem hasDerivAt_comp {f : ℝ → Vec3} {d : Vec3} {t : ℝ} (h : HasDerivAt f d t) :
    HasDerivAt (fun s => (f s).1) d.1 t ∧ HasDerivAt (fun s => (f s).2.1) d.2.1 t ∧
    HasDerivAt (fun s => (f s).2.2) d.2.2 t := by
  have h1 := h.hasFDerivAt.fst
  have h2 := h.hasFDerivAt.snd.fst
  have h3 := h.hasFDerivAt.snd.snd
  exact ⟨by simpa using h1.hasDerivAt, by simpa using h2.hasDerivAt, by simpa using h3.hasDerivAt⟩

theorem rotZ_deriv {q : ℝ → ℝ} {w : ℝ → Vec3} {dq t : ℝ} {dw : Vec3} (hq : HasDerivAt q dq t)
    (hw : HasDerivAt w dw t) :
    HasDerivAt (fun s => rotZ (q s) (w s)) (rotZ (q t) (dw + cross (0, 0, dq) (w t))) t := by
  obtain ⟨h1, h2, h3⟩ := hasDerivAt_comp hw
  refine hasDerivAt_vec ?_ ?_ ?_ <;> simp only [rotZ, cross, Prod.fst_add, Prod.snd_add]
  · exact ((hq.cos.mul h1).sub (hq.sin.mul h2)).congr_deriv (by ring)
  · exact ((hq.sin.mul h1).add (hq.cos.mul h2)).congr_deriv (by ring)
  · exact h3.congr_deriv (by ring)

theorem rotY_deriv {q : ℝ → ℝ} {w : ℝ → Vec3} {dq t : ℝ} {dw : Vec3} (hq : HasDerivAt q dq t)
    (hw : HasDerivAt w dw t) :
    HasDerivAt (fun s => rotY (q s) (w s)) (rotY (q t) (dw + cross (0, dq, 0) (w t))) t := by
  obtain ⟨h1, h2, h3⟩ := hasDerivAt_comp hw
  refine hasDerivAt_vec ?_ ?_ ?_ <;> simp only [rotY, cross, Prod.fst_add, Prod.snd_add]
  · exact ((hq.cos.mul h1).add (hq.sin.mul h3)).congr_deriv (by ring)
  · exact h2.congr_deriv (by ring)
  · exact ((hq.sin.neg.mul h1).add (hq.cos.mul h3)).congr_deriv (by simp only [Pi.neg_apply]; ring)

theorem rotX_deriv {q : ℝ → ℝ} {w : ℝ → Vec3} {dq t : ℝ} {dw : Vec3} (hq : HasDerivAt q dq t)
    (hw : HasDerivAt w dw t) :
    HasDerivAt (fun s => rotX (q s) (w s)) (rotX (q t) (dw + cross (dq, 0, 0) (w t))) t := by
  obtain ⟨h1, h2, h3⟩ := hasDerivAt_comp hw
  refine hasDerivAt_vec ?_ ?_ ?_ <;> simp only [rotX, cross, Prod.fst_add, Prod.snd_add]
  · exact h1.congr_deriv (by ring)
  · exact ((hq.cos.mul h2).sub (hq.sin.mul h3)).congr_deriv (by ring)
  · exact ((hq.sin.mul h2).add (hq.cos.mul h3)).congr_deriv (by ring)

theorem rotZ_axis (t d : ℝ) : rotZ t (0, 0, d) = (0, 0, d) := by simp [rotZ]

/-- The angular velocity of the frame as a sum of the four rotations. -/
theorem omegaBody_eq (a : Attitude) (dy dp dr dh : ℝ) :
    rotX a.roll (rotZ a.heading (omegaBody a dy dp dr dh))
      = rotX a.roll (0, 0, dh) + (dr, 0, 0) + ((0, dp, 0) + rotY (-a.pitch) (0, 0, dy)) := by
  have h := sin_sq_add_cos_sq a.roll
  simp only [omegaBody, rotZ_add, rotZ_neg, rotZ_axis, rotX_add]
  refine vec_ext ?_ ?_ ?_ <;>
    simp only [rotX, rotY, Prod.fst_add, Prod.snd_add, cos_neg, sin_neg]
  · ring
  · linear_combination dp * h
  · linear_combination cos a.pitch * dy * h

/-- Derivative in fixed axes of a vector given in the axes of the car. -/
theorem toWorld_deriv {a : ℝ → Attitude} {dy dp dr dh t : ℝ} (ha : Turns a dy dp dr dh t)
    {v : ℝ → Vec3} {dv : Vec3} (hv : HasDerivAt v dv t) :
    HasDerivAt (fun s => toWorld (a s) (v s))
      (toWorld (a t) (dv + cross (omegaBody (a t) dy dp dr dh) (v t))) t := by
  have key := rotZ_deriv ha.yaw (rotY_deriv ha.pitch (rotX_deriv ha.roll (rotZ_deriv ha.heading hv)))
  refine key.congr_deriv ?_
  have e := omegaBody_eq (a t) dy dp dr dh
  simp only [toWorld]
  congr 1
  have e1 : cross (0, 0, dy) (rotY (a t).pitch (rotX (a t).roll (rotZ (a t).heading (v t))))
      = rotY (a t).pitch (cross (rotY (-(a t).pitch) (0, 0, dy)) (rotX (a t).roll (rotZ (a t).heading (v t)))) := by
    rw [rotY_cross, rotY_neg]
  rw [e1, ← rotY_add]
  congr 1
  simp only [rotZ_add, rotX_add, rotZ_cross, rotX_cross, rotZ_axis]
  rw [e]
  have e2 : rotX (a t).roll (dr, 0, 0) = (dr, 0, 0) := by simp [rotX]
  simp only [cross_add_left, e2]
  abel

end Verif.Chassis
