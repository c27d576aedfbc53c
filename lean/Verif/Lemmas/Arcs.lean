import Verif.Model.Arcs
import Mathlib.Analysis.SpecialFunctions.Trigonometric.Deriv
import Mathlib.Analysis.Calculus.Deriv.Prod
import Mathlib.Tactic.Linarith
import Mathlib.Tactic.Ring
import Mathlib.Tactic.FieldSimp

/-! Helper lemmas about tracks made of arcs. -/

set_option autoImplicit false

namespace Verif.Arcs

def IsUnitVec (d : Vec) : Prop := d.1 * d.1 + d.2 * d.2 = 1

/-- the left-turned direction -/
def perp (d : Vec) : Vec := (-d.2, d.1)

theorem enorm_unit {d : Vec} (h : IsUnitVec d) : enorm d = 1 := by
  rw [enorm, h, Real.sqrt_one]

theorem enorm_perp {d : Vec} (h : IsUnitVec d) (c : ℝ) : enorm (c • (-d.2, d.1)) = |c| := by
  have h' : d.1 * d.1 + d.2 * d.2 = 1 := h
  have : c * -d.2 * (c * -d.2) + c * d.1 * (c * d.1) = c ^ 2 := by
    linear_combination c ^ 2 * h'
  simp only [enorm, Prod.smul_mk, smul_eq_mul, this, Real.sqrt_sq_eq_abs]

theorem enorm_neg (v : Vec) : enorm (-v) = enorm v := by
  simp [enorm]

/-- closed form of the curved branch, in the signed angle -/
theorem onSeg_curved {g : Seg} (hu : IsUnitVec g.dir) (hk : ¬ |g.k| < 1 / 10 ^ 10) (s : ℝ) :
    (onSeg g s).r = g.point + ((1 - Real.cos ((s - g.s) * g.k)) / g.k) • perp g.dir
        + (Real.sin ((s - g.s) * g.k) / g.k) • g.dir ∧
    (onSeg g s).dr = Real.cos ((s - g.s) * g.k) • g.dir
        + Real.sin ((s - g.s) * g.k) • perp g.dir ∧
    (onSeg g s).d2r = g.k • perp (onSeg g s).dr ∧
    (onSeg g s).d3r = -(g.k * g.k) • (onSeg g s).dr := by
  have hp : (0 : ℝ) < 1 / 10 ^ 10 := by positivity
  have hk0 : g.k ≠ 0 := by
    intro h; rw [h, abs_zero] at hk; exact hk hp
  have hd1 : (1 / enorm ((1 / g.k) • (-g.dir.2, g.dir.1))) • (-((1 / g.k) • ((-g.dir.2, g.dir.1) : Vec)))
      = (-(|g.k| / g.k)) • perp g.dir := by
    rw [enorm_perp hu, abs_div, abs_one, one_div_one_div, perp, ← smul_neg, smul_smul,
      neg_smul, smul_neg, mul_one_div]
  simp only [onSeg, if_neg hk, hd1]
  refine ⟨?_, ?_, rfl, ?_⟩
  · rcases lt_or_gt_of_ne hk0 with h | h
    · rw [abs_of_neg h]
      have e : (s - g.s) * -g.k = -((s - g.s) * g.k) := by ring
      rw [e, Real.cos_neg, Real.sin_neg]
      ext <;> simp only [perp, Prod.fst_add, Prod.snd_add, Prod.smul_fst, Prod.smul_snd,
        smul_eq_mul] <;> field_simp <;> ring
    · rw [abs_of_pos h]
      ext <;> simp only [perp, Prod.fst_add, Prod.snd_add, Prod.smul_fst, Prod.smul_snd,
        smul_eq_mul] <;> field_simp <;> ring
  · rcases lt_or_gt_of_ne hk0 with h | h
    · rw [abs_of_neg h]
      have e : (s - g.s) * -g.k = -((s - g.s) * g.k) := by ring
      rw [e, Real.cos_neg, Real.sin_neg]
      ext <;> simp only [perp, Prod.fst_add, Prod.snd_add, Prod.fst_sub, Prod.snd_sub,
        Prod.smul_fst, Prod.smul_snd, smul_eq_mul] <;> field_simp <;> ring
    · rw [abs_of_pos h]
      ext <;> simp only [perp, Prod.fst_add, Prod.snd_add, Prod.fst_sub, Prod.snd_sub,
        Prod.smul_fst, Prod.smul_snd, smul_eq_mul] <;> field_simp <;> ring
  · rw [smul_neg, ← neg_smul]

theorem onSeg_straight {g : Seg} (hk : |g.k| < 1 / 10 ^ 10) (s : ℝ) :
    onSeg g s = ⟨g.point + (s - g.s) • g.dir, g.dir, 0, 0⟩ := by
  simp only [onSeg, if_pos hk]

theorem perp_add (a b : Vec) : perp (a + b) = perp a + perp b := by
  ext <;> simp [perp]; ring

theorem perp_smul (c : ℝ) (a : Vec) : perp (c • a) = c • perp a := by
  ext <;> simp [perp]

theorem perp_perp (a : Vec) : perp (perp a) = -a := by
  ext <;> simp [perp]

theorem onSeg_unit {g : Seg} (hu : IsUnitVec g.dir) (s : ℝ) : IsUnitVec (onSeg g s).dr := by
  by_cases hk : |g.k| < 1 / 10 ^ 10
  · rw [onSeg_straight hk]; exact hu
  · rw [(onSeg_curved hu hk s).2.1]
    have hu' : g.dir.1 * g.dir.1 + g.dir.2 * g.dir.2 = 1 := hu
    have hc := Real.cos_sq_add_sin_sq ((s - g.s) * g.k)
    simp only [IsUnitVec, perp, Prod.fst_add, Prod.snd_add, Prod.smul_fst, Prod.smul_snd, smul_eq_mul]
    generalize Real.cos ((s - g.s) * g.k) = c at *
    generalize Real.sin ((s - g.s) * g.k) = t at *
    linear_combination (c ^ 2 + t ^ 2) * hu' + hc

theorem onSeg_start {g : Seg} (hu : IsUnitVec g.dir) :
    (onSeg g g.s).r = g.point ∧ (onSeg g g.s).dr = g.dir := by
  by_cases hk : |g.k| < 1 / 10 ^ 10
  · rw [onSeg_straight hk]; simp
  · obtain ⟨h1, h2, -⟩ := onSeg_curved hu hk g.s
    rw [h1, h2]; simp

/-- Inside a segment the second, third and fourth outputs are successive derivatives. -/
theorem onSeg_deriv {g : Seg} (hu : IsUnitVec g.dir) (s : ℝ) :
    HasDerivAt (fun s => (onSeg g s).r) (onSeg g s).dr s ∧
    HasDerivAt (fun s => (onSeg g s).dr) (onSeg g s).d2r s ∧
    HasDerivAt (fun s => (onSeg g s).d2r) (onSeg g s).d3r s := by
  by_cases hk : |g.k| < 1 / 10 ^ 10
  · have e : ∀ s, onSeg g s = ⟨g.point + (s - g.s) • g.dir, g.dir, 0, 0⟩ := onSeg_straight hk
    simp only [e]
    refine ⟨?_, hasDerivAt_const _ _, hasDerivAt_const _ _⟩
    have := (((hasDerivAt_id s).sub_const g.s).smul_const g.dir).const_add g.point
    simpa using this
  · have hp : (0 : ℝ) < 1 / 10 ^ 10 := by positivity
    have hk0 : g.k ≠ 0 := by
      intro h; rw [h, abs_zero] at hk; exact hk hp
    have hphi : HasDerivAt (fun s : ℝ => (s - g.s) * g.k) g.k s := by
      simpa using ((hasDerivAt_id s).sub_const g.s).mul_const g.k
    have hc := hphi.cos
    have hs := hphi.sin
    have e1 : (fun s => (onSeg g s).r) = fun s => g.point
        + ((1 - Real.cos ((s - g.s) * g.k)) / g.k) • perp g.dir
        + (Real.sin ((s - g.s) * g.k) / g.k) • g.dir := by
      funext x; exact (onSeg_curved hu hk x).1
    have e2 : (fun s => (onSeg g s).dr) = fun s => Real.cos ((s - g.s) * g.k) • g.dir
        + Real.sin ((s - g.s) * g.k) • perp g.dir := by
      funext x; exact (onSeg_curved hu hk x).2.1
    have e3 : (fun s => (onSeg g s).d2r) = fun s => g.k • perp (onSeg g s).dr := by
      funext x; exact (onSeg_curved hu hk x).2.2.1
    have hd2 : HasDerivAt (fun s => (onSeg g s).dr) (onSeg g s).d2r s := by
      rw [e2, (onSeg_curved hu hk s).2.2.1, (onSeg_curved hu hk s).2.1]
      refine ((hc.smul_const g.dir).add (hs.smul_const (perp g.dir))).congr_deriv ?_
      rw [perp_add, perp_smul, perp_smul, perp_perp]
      ext <;> simp only [Prod.fst_add, Prod.snd_add, Prod.smul_fst, Prod.smul_snd, smul_eq_mul,
        Prod.fst_neg, Prod.snd_neg] <;> ring
    refine ⟨?_, hd2, ?_⟩
    · rw [e1, (onSeg_curved hu hk s).2.1]
      refine (((((hc.const_sub 1).div_const g.k).smul_const (perp g.dir)).const_add g.point).add
        ((hs.div_const g.k).smul_const g.dir)).congr_deriv ?_
      ext <;> simp only [Prod.fst_add, Prod.snd_add, Prod.smul_fst, Prod.smul_snd, smul_eq_mul] <;>
        field_simp <;> ring
    · rw [e3]
      have hperp : HasDerivAt (fun s => perp (onSeg g s).dr) (perp (onSeg g s).d2r) s := by
        have h1 : HasDerivAt (fun s => (onSeg g s).dr.1) (onSeg g s).d2r.1 s := by
          have := (hasFDerivAt_fst (𝕜 := ℝ) (p := (onSeg g s).dr)).comp_hasDerivAt s hd2
          exact this
        have h2 : HasDerivAt (fun s => (onSeg g s).dr.2) (onSeg g s).d2r.2 s := by
          have := (hasFDerivAt_snd (𝕜 := ℝ) (p := (onSeg g s).dr)).comp_hasDerivAt s hd2
          exact this
        exact h2.neg.prodMk h1
      refine (hperp.const_smul g.k).congr_deriv ?_
      rw [(onSeg_curved hu hk s).2.2.2, (onSeg_curved hu hk s).2.2.1, perp_smul, perp_perp]
      simp [smul_smul]

/-- one step of the constructor agrees with the evaluation at the end of the segment -/
theorem advance_onSeg {scale : ℝ} {p d : Vec} {node : Node} {k : ℝ} {p' d' : Vec} {L : ℝ}
    (hu : IsUnitVec d)
    (hnode : ∀ left R θ, node = .corner left R θ → 0 < scale * R ∧ scale * R ≤ 10 ^ 10)
    (h : advance scale p d node = .ok (k, p', d', L)) (s : ℝ) :
    p' = (onSeg ⟨p, d, s, k⟩ (s + L)).r ∧ d' = (onSeg ⟨p, d, s, k⟩ (s + L)).dr ∧ IsUnitVec d' := by
  cases node with
  | other => simp [advance] at h
  | straight length =>
    simp only [advance, Res.ok.injEq, Prod.mk.injEq] at h
    obtain ⟨rfl, rfl, rfl, rfl⟩ := h
    have hk : |(0 : ℝ)| < 1 / 10 ^ 10 := by rw [abs_zero]; positivity
    rw [onSeg_straight hk]
    simp [hu]
  | corner left radius sweep =>
    obtain ⟨hR, hR2⟩ := hnode left radius sweep rfl
    simp only [advance, Res.ok.injEq, Prod.mk.injEq] at h
    generalize scale * radius = R at *
    obtain ⟨rfl, rfl, rfl, rfl⟩ := h
    have habs : |curvatureOf left R| = 1 / R := by
      unfold curvatureOf
      split
      · rw [abs_neg, abs_of_pos (by positivity)]
      · rw [abs_of_pos (by positivity)]
    have hk : ¬ |curvatureOf left R| < 1 / 10 ^ 10 := by
      rw [habs, not_lt]
      exact one_div_le_one_div_of_le hR hR2
    have hcs : enorm ((1 / curvatureOf left R) • (-((-d.2, d.1) : Vec))) = R := by
      rw [smul_neg, enorm_neg, enorm_perp hu, abs_div, abs_one, habs, one_div_one_div]
    obtain ⟨h1, h2, -⟩ := onSeg_curved (g := ⟨p, d, s, curvatureOf left R⟩) hu hk (s + R * sweep)
    have hunit := onSeg_unit (g := ⟨p, d, s, curvatureOf left R⟩) hu (s + R * sweep)
    have hR0 : R ≠ 0 := ne_of_gt hR
    have key : Real.cos sweep • ((1 / enorm d) • d) - Real.sin sweep •
        ((1 / enorm ((1 / curvatureOf left R) • (-((-d.2, d.1) : Vec)))) •
          ((1 / curvatureOf left R) • (-((-d.2, d.1) : Vec)))) =
        (onSeg ⟨p, d, s, curvatureOf left R⟩ (s + R * sweep)).dr := by
      rw [h2, hcs, enorm_unit hu]
      dsimp only
      have ea : s + R * sweep - s = R * sweep := by ring
      rw [ea]
      cases left
      · simp only [curvatureOf, Bool.false_eq_true, if_false]
        have e : R * sweep * (1 / R) = sweep := by field_simp
        rw [e]
        ext <;> simp only [perp, Prod.fst_add, Prod.snd_add, Prod.fst_sub, Prod.snd_sub,
          Prod.smul_fst, Prod.smul_snd, smul_eq_mul, Prod.fst_neg, Prod.snd_neg] <;>
          field_simp <;> ring
      · simp only [curvatureOf, if_true]
        have e : R * sweep * -(1 / R) = -sweep := by field_simp
        rw [e, Real.cos_neg, Real.sin_neg]
        ext <;> simp only [perp, Prod.fst_add, Prod.snd_add, Prod.fst_sub, Prod.snd_sub,
          Prod.smul_fst, Prod.smul_snd, smul_eq_mul, Prod.fst_neg, Prod.snd_neg] <;>
          field_simp <;> ring
    refine ⟨?_, key, key ▸ hunit⟩
    rw [h1, hcs, enorm_unit hu]
    dsimp only
    have ea : s + R * sweep - s = R * sweep := by ring
    rw [ea]
    cases left
    · simp only [curvatureOf, Bool.false_eq_true, if_false]
      have e : R * sweep * (1 / R) = sweep := by field_simp
      rw [e]
      ext <;> simp only [perp, Prod.fst_add, Prod.snd_add, Prod.fst_sub, Prod.snd_sub,
        Prod.smul_fst, Prod.smul_snd, smul_eq_mul, Prod.fst_neg, Prod.snd_neg] <;>
        field_simp <;> ring
    · simp only [curvatureOf, if_true]
      have e : R * sweep * -(1 / R) = -sweep := by field_simp
      rw [e, Real.cos_neg, Real.sin_neg]
      ext <;> simp only [perp, Prod.fst_add, Prod.snd_add, Prod.fst_sub, Prod.snd_sub,
        Prod.smul_fst, Prod.smul_snd, smul_eq_mul, Prod.fst_neg, Prod.snd_neg] <;>
        field_simp <;> ring

theorem hasDerivAt_glue {f g : ℝ → Vec} {f' : Vec} {a : ℝ} (hf : HasDerivAt f f' a)
    (hg : HasDerivAt g f' a) (hfg : f a = g a) :
    HasDerivAt (fun s => if s < a then f s else g s) f' a := by
  have h1 : HasDerivWithinAt (fun s => if s < a then f s else g s) f' (Set.Iic a) a := by
    refine hf.hasDerivWithinAt.congr ?_ (by simp [hfg])
    intro x hx
    rcases lt_or_eq_of_le (Set.mem_Iic.1 hx) with h | h
    · simp [h]
    · simp [h, hfg]
  have h2 : HasDerivWithinAt (fun s => if s < a then f s else g s) f' (Set.Ici a) a := by
    refine hg.hasDerivWithinAt.congr ?_ (by simp)
    intro x hx
    simp [not_lt.2 (Set.mem_Ici.1 hx)]
  have := h1.union h2
  rw [Set.Iic_union_Ici, hasDerivWithinAt_univ] at this
  exact this

end Verif.Arcs
