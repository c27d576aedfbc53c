import Verif.Spec.Road
import Mathlib.Analysis.SpecialFunctions.Trigonometric.Deriv
import Mathlib.Analysis.Calculus.Deriv.Prod
import Mathlib.Tactic.Linarith
import Mathlib.Tactic.Ring
import Mathlib.Tactic.FieldSimp

/-! Helper lemmas about roads: the derivatives of the road frame. -/

set_option autoImplicit false
set_option linter.unusedSimpArgs false

namespace Verif.Road

open Real

variable {F : ℝ → TrackPoint} {s : ℝ}

/-- The Euler angles are differentiable at `s` with the derivatives carried by the track. -/
structure AnglesDeriv (F : ℝ → TrackPoint) (s : ℝ) : Prop where
  yaw : HasDerivAt (fun s => (F s).yaw) (F s).dyaw s
  pitch : HasDerivAt (fun s => (F s).pitch) (F s).dpitch s
  roll : HasDerivAt (fun s => (F s).roll) (F s).droll s

theorem tangent_deriv (h : AnglesDeriv F s) :
    HasDerivAt (fun s => tangent (F s))
      ((curvature (F s)).2.2 • normal (F s) - (curvature (F s)).2.1 • binormal (F s)) s := by
  have h1 := (h.yaw.cos).mul (h.pitch.cos)
  have h2 := (h.yaw.sin).mul (h.pitch.cos)
  have h3 := (h.pitch.sin).neg
  have hphi := Real.sin_sq_add_cos_sq (F s).roll
  refine (h1.prodMk (h2.prodMk h3)).congr_deriv ?_
  ext
  · simp only [Prod.fst_sub, Prod.smul_fst, smul_eq_mul, curvature, normal, binormal]
    linear_combination (-(sin (F s).yaw * cos (F s).pitch * (F s).dyaw)
      - cos (F s).yaw * sin (F s).pitch * (F s).dpitch) * (-hphi)
  · simp only [Prod.fst_sub, Prod.snd_sub, Prod.smul_fst, Prod.smul_snd, smul_eq_mul, curvature, normal, binormal]
    linear_combination (cos (F s).yaw * cos (F s).pitch * (F s).dyaw
      - sin (F s).yaw * sin (F s).pitch * (F s).dpitch) * (-hphi)
  · simp only [Prod.fst_sub, Prod.snd_sub, Prod.smul_fst, Prod.smul_snd, smul_eq_mul, curvature, normal, binormal]
    linear_combination (-(cos (F s).pitch * (F s).dpitch)) * (-hphi)

theorem normal_deriv (h : AnglesDeriv F s) :
    HasDerivAt (fun s => normal (F s))
      ((curvature (F s)).1 • binormal (F s) - (curvature (F s)).2.2 • tangent (F s)) s := by
  have h1 := ((h.yaw.cos.mul h.pitch.sin).mul h.roll.sin).sub (h.yaw.sin.mul h.roll.cos)
  have h2 := ((h.yaw.sin.mul h.pitch.sin).mul h.roll.sin).add (h.yaw.cos.mul h.roll.cos)
  have h3 := h.pitch.cos.mul h.roll.sin
  have hmu := Real.sin_sq_add_cos_sq (F s).pitch
  refine (h1.prodMk (h2.prodMk h3)).congr_deriv ?_
  ext
  · simp only [Prod.fst_sub, Prod.smul_fst, smul_eq_mul, curvature, tangent, binormal, Pi.mul_apply]
    linear_combination (-(cos (F s).yaw * cos (F s).roll * (F s).dyaw)) * (-hmu)
  · simp only [Prod.fst_sub, Prod.snd_sub, Prod.smul_fst, Prod.smul_snd, smul_eq_mul, curvature, tangent, binormal, Pi.mul_apply]
    linear_combination (-(sin (F s).yaw * cos (F s).roll * (F s).dyaw)) * (-hmu)
  · simp only [Prod.fst_sub, Prod.snd_sub, Prod.smul_fst, Prod.smul_snd, smul_eq_mul, curvature, tangent, binormal, Pi.mul_apply]
    ring

theorem binormal_deriv (h : AnglesDeriv F s) :
    HasDerivAt (fun s => binormal (F s))
      ((curvature (F s)).2.1 • tangent (F s) - (curvature (F s)).1 • normal (F s)) s := by
  have h1 := ((h.yaw.cos.mul h.pitch.sin).mul h.roll.cos).add (h.yaw.sin.mul h.roll.sin)
  have h2 := ((h.yaw.sin.mul h.pitch.sin).mul h.roll.cos).sub (h.yaw.cos.mul h.roll.sin)
  have h3 := h.pitch.cos.mul h.roll.cos
  have hmu := Real.sin_sq_add_cos_sq (F s).pitch
  refine (h1.prodMk (h2.prodMk h3)).congr_deriv ?_
  ext
  · simp only [Prod.fst_sub, Prod.smul_fst, smul_eq_mul, curvature, tangent, normal, Pi.mul_apply]
    linear_combination ((cos (F s).yaw * sin (F s).roll * (F s).dyaw)) * (-hmu)
  · simp only [Prod.fst_sub, Prod.snd_sub, Prod.smul_fst, Prod.smul_snd, smul_eq_mul, curvature, tangent, normal, Pi.mul_apply]
    linear_combination ((sin (F s).yaw * sin (F s).roll * (F s).dyaw)) * (-hmu)
  · simp only [Prod.fst_sub, Prod.snd_sub, Prod.smul_fst, Prod.smul_snd, smul_eq_mul, curvature, tangent, normal, Pi.mul_apply]
    ring

theorem dot_add (a b c : Vec3) : dot (a + b) c = dot a c + dot b c := by
  simp only [dot, Prod.fst_add, Prod.snd_add]; ring

theorem dot_sub (a b c : Vec3) : dot (a - b) c = dot a c - dot b c := by
  simp only [dot, Prod.fst_sub, Prod.snd_sub]; ring

theorem dot_smul (k : ℝ) (a c : Vec3) : dot (k • a) c = k * dot a c := by
  simp only [dot, Prod.smul_fst, Prod.smul_snd, smul_eq_mul]; ring

theorem dot_comm (a b : Vec3) : dot a b = dot b a := by simp only [dot]; ring

theorem dot_add' (a b c : Vec3) : dot c (a + b) = dot c a + dot c b := by
  rw [dot_comm, dot_add, dot_comm a, dot_comm b]

theorem dot_smul' (k : ℝ) (a c : Vec3) : dot c (k • a) = k * dot c a := by
  rw [dot_comm, dot_smul, dot_comm a]

end Verif.Road
