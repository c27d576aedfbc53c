import Verif.Lemmas.Tyre
import Mathlib.Analysis.SpecialFunctions.Trigonometric.ArctanDeriv
import Mathlib.Analysis.Calculus.Deriv.Slope

/-! Property theorems C45-C48, C79-C85: tyres. -/

set_option autoImplicit false

namespace Verif.Tyre

open Real

/-- The example tyre: the data of limebeer-2014-f1 with the sharp positive part. -/
noncomputable def exSimple : Simple := initialise
  ⟨fun x => max x 0, 2000, 6000, 7 / 4, 7 / 5, 9 / 5, 29 / 20, 11 / 100, 1 / 10, 9, 8, 19 / 10, 19 / 10,
    0, 0, 0, 0⟩

theorem exSimple_sp : ∀ x, 0 ≤ exSimple.sp x := fun _ => le_max_right _ _

/-- A tyre of a kart. -/
noncomputable def exStd : Std := ⟨560, 8 / 5, 2, 1 / 2, 60, 1, -1 / 10, 7 / 5, 2, 1 / 2, 50, 3, 2, 9, 1, 9, 1,
  1 / 10 ^ 16⟩

/-! ### C45 -/

/-- For positive load, the point (Fx/(mu_x Fz), Fy/(mu_y Fz)) is inside the unit circle, for all slips:
`mu_x`, `mu_y` are the peak coefficients at that load. -/
theorem C45_friction_ellipse (p : Simple) (hsp : ∀ x, 0 ≤ p.sp x) (kappa lambda Fz : ℝ) (hF : 0 < Fz) :
    (simpleX p kappa lambda Fz / (muXMax p Fz * Fz)) ^ 2
      + (simpleY p kappa lambda Fz / (muYMax p Fz * Fz)) ^ 2 < 1 := by
  have hr := rho_pos p kappa lambda Fz
  have hr2 := rho_sq p kappa lambda Fz
  have hx := muX_pos p hsp Fz
  have hy := muY_pos p hsp Fz
  have hx0 : muXMax p Fz ≠ 0 := by linarith
  have hy0 : muYMax p Fz ≠ 0 := by linarith
  set r := rho p kappa lambda Fz with hrdef
  set kn := kappa / maxKappa p Fz with hkn
  set ln := lambda / maxLambda p Fz with hln
  set sx := sin (p.Qx * arctan (p.Sx * r)) with hsx
  set sy := sin (p.Qy * arctan (p.Sy * r)) with hsy
  have e1 : simpleX p kappa lambda Fz / (muXMax p Fz * Fz) = sx * kn / r := by
    simp only [simpleX, ← hrdef, ← hkn, ← hsx]; field_simp
  have e2 : simpleY p kappa lambda Fz / (muYMax p Fz * Fz) = sy * ln / r := by
    simp only [simpleY, ← hrdef, ← hln, ← hsy]; field_simp
  have b1 : sx ^ 2 ≤ 1 := sin_sq_le_one _
  have b2 : sy ^ 2 ≤ 1 := sin_sq_le_one _
  rw [e1, e2, div_pow, div_pow, ← add_div, div_lt_one (by positivity), hr2, mul_pow, mul_pow]
  have c1 : sx ^ 2 * kn ^ 2 ≤ kn ^ 2 := mul_le_of_le_one_left (sq_nonneg _) b1
  have c2 : sy ^ 2 * ln ^ 2 ≤ ln ^ 2 := mul_le_of_le_one_left (sq_nonneg _) b2
  have c3 : (0 : ℝ) < 1 / 10 ^ 12 := by norm_num
  linarith

example : (simpleX exSimple (1 / 20) (1 / 10) 4000 / (muXMax exSimple 4000 * 4000)) ^ 2
    + (simpleY exSimple (1 / 20) (1 / 10) 4000 / (muYMax exSimple 4000 * 4000)) ^ 2 < 1 :=
  C45_friction_ellipse exSimple exSimple_sp _ _ _ (by norm_num)

/-! ### C46 -/

/-- Reversing one slip reverses its force and keeps the other; without slip there is no force; a slip in
one direction only gives no force in the other. Simple model. -/
theorem C46_simple (p : Simple) (kappa lambda Fz : ℝ) :
    simpleX p (-kappa) lambda Fz = -simpleX p kappa lambda Fz ∧
    simpleX p kappa (-lambda) Fz = simpleX p kappa lambda Fz ∧
    simpleY p kappa (-lambda) Fz = -simpleY p kappa lambda Fz ∧
    simpleY p (-kappa) lambda Fz = simpleY p kappa lambda Fz ∧
    simpleX p 0 lambda Fz = 0 ∧ simpleY p kappa 0 Fz = 0 := by
  have r1 : rho p (-kappa) lambda Fz = rho p kappa lambda Fz := by
    simp only [rho]; congr 1; ring
  have r2 : rho p kappa (-lambda) Fz = rho p kappa lambda Fz := by
    simp only [rho]; congr 1; ring
  refine ⟨?_, ?_, ?_, ?_, ?_, ?_⟩
  · simp only [simpleX, r1]; ring
  · simp only [simpleX, r2]
  · simp only [simpleY, r2]; ring
  · simp only [simpleY, r1]
  · simp [simpleX]
  · simp [simpleY]

/-- The same for the standard model. -/
theorem C46_standard (p : Std) (kappa lambda Fz : ℝ) :
    stdX p (-kappa) lambda Fz = -stdX p kappa lambda Fz ∧
    stdX p kappa (-lambda) Fz = stdX p kappa lambda Fz ∧
    stdY p kappa (-lambda) Fz = -stdY p kappa lambda Fz ∧
    stdY p (-kappa) lambda Fz = stdY p kappa lambda Fz ∧
    stdX p 0 lambda Fz = 0 ∧ stdY p kappa 0 Fz = 0 := by
  have hc : ∀ r b x : ℝ, cos (r * arctan (b * -x)) = cos (r * arctan (b * x)) := by
    intro r b x; rw [mul_neg, arctan_neg, mul_neg, cos_neg]
  refine ⟨?_, ?_, ?_, ?_, ?_, ?_⟩
  · simp only [stdX, stdPureX]
    split
    · simp
    · rw [magic_neg]; ring
  · simp only [stdX, hc]
  · simp only [stdY, stdPureY, magic_neg]; ring
  · simp only [stdY, hc]
  · simp [stdX, stdPureX, magic_zero]
  · simp [stdY, stdPureY, magic_zero]

example : simpleX exSimple (-1 / 20) (1 / 10) 4000 = -simpleX exSimple (1 / 20) (1 / 10) 4000 := by
  rw [← (C46_simple exSimple (1 / 20) (1 / 10) 4000).1]; congr 1; norm_num

example : stdY exStd (1 / 20) 0 560 = 0 := (C46_standard exStd (1 / 20) 0 560).2.2.2.2.2

/-! ### C47 -/

/-- Standard model: combined forces are at most the pure ones, which are at most peak friction times
load; without the other slip they are the pure ones. -/
theorem C47_combined_at_most_pure (p : Std) (kappa lambda Fz : ℝ) :
    |stdX p kappa lambda Fz| ≤ |stdPureX p kappa Fz| ∧ |stdPureX p kappa Fz| ≤ |p.pDx1 * Fz| ∧
    |stdY p kappa lambda Fz| ≤ |stdPureY p lambda Fz| ∧ |stdPureY p lambda Fz| ≤ |p.pDy1 * Fz| ∧
    stdX p kappa 0 Fz = stdPureX p kappa Fz ∧ stdY p 0 lambda Fz = stdPureY p lambda Fz := by
  refine ⟨?_, ?_, ?_, ?_, ?_, ?_⟩
  · rw [stdX, abs_mul]
    exact mul_le_of_le_one_left (abs_nonneg _) (abs_cos_le_one _)
  · simp only [stdPureX]
    split
    · rw [abs_zero]; exact abs_nonneg _
    · rw [abs_mul]
      exact mul_le_of_le_one_right (abs_nonneg _) (abs_sin_le_one _)
  · rw [stdY, abs_mul]
    exact mul_le_of_le_one_left (abs_nonneg _) (abs_cos_le_one _)
  · rw [stdPureY, abs_mul]
    exact mul_le_of_le_one_right (abs_nonneg _) (abs_sin_le_one _)
  · simp [stdX]
  · simp [stdY]

example : |stdX exStd (1 / 20) (1 / 10) 560| ≤ 1120 := by
  have h := C47_combined_at_most_pure exStd (1 / 20) (1 / 10) 560
  refine le_trans h.1 (le_trans h.2.1 ?_)
  norm_num [exStd]

/-! ### C48 -/

/-- Setting the slip and then giving the resulting wheel speed returns the slip, and setting the speed
and then giving the resulting slip returns the speed, for a normal tyre that moves forward. -/
theorem C48_inverse (t : Kin) (hn : t.onlyLateral = false) (hR : t.R0 ≠ 0) (w vx vy kappa omega : ℝ)
    (hv : vx ≠ 0) :
    (updateOmega t w vx vy (updateKappa t w vx vy kappa).omega).kappa = kappa ∧
    (updateKappa t w vx vy (updateOmega t w vx vy omega).kappa).omega = omega := by
  simp only [updateOmega, updateKappa, hn, Bool.false_eq_true, if_false]
  constructor
  · field_simp; ring
  · field_simp; ring

/-- Both ways of setting the tyre agree on the lateral slip and on the documented longitudinal slip
`omega R0 / vx - 1`. -/
theorem C48_slips (t : Kin) (hn : t.onlyLateral = false) (hR : t.R0 ≠ 0) (w vx vy kappa omega : ℝ)
    (hv : vx ≠ 0) :
    (updateOmega t w vx vy omega).kappa = omega * t.R0 / vx - 1 ∧
    (updateKappa t w vx vy kappa).kappa = (updateKappa t w vx vy kappa).omega * t.R0 / vx - 1 ∧
    (updateOmega t w vx vy omega).lambda = -(vy / vx) ∧
    (updateKappa t w vx vy kappa).lambda = -(vy / vx) := by
  simp only [updateOmega, updateKappa, hn, Bool.false_eq_true, if_false]
  exact ⟨by field_simp, by field_simp; ring, by field_simp, by field_simp⟩

/-- A tyre of radius 0.33. -/
noncomputable def exKin : Kin := ⟨false, 33 / 100, 0, 0, 0, 0, 0, 0⟩

example : (updateOmega exKin 0 50 1 (updateKappa exKin 0 50 1 (1 / 20)).omega).kappa = 1 / 20 :=
  (C48_inverse exKin rfl (by norm_num [exKin]) 0 50 1 (1 / 20) 0 (by norm_num)).1

/-! ### C79: a lateral-only tyre rolls freely -/

/-- A lateral-only tyre has no longitudinal slip, when it is updated with its angular speed.
Partial: not when it is updated with a slip (`C79_false`). -/
theorem C79_rolls_freely_partial (t : Kin) (hl : t.onlyLateral = true) (hR : t.R0 ≠ 0)
    (w vx vy omega : ℝ) :
    (updateOmega t w vx vy omega).kappa = 0 ∧ (updateOmega t w vx vy omega).omega * t.R0 = vx := by
  simp only [updateOmega, hl, if_true]
  rw [div_mul_cancel₀ _ hR]
  simp

example : (updateOmega { exKin with onlyLateral := true } 0 50 1 7).kappa = 0 :=
  (C79_rolls_freely_partial _ rfl (by norm_num [exKin]) 0 50 1 7).1

/-- Updated with a slip, a lateral-only tyre slips like any other: the free-rolling speed is
overwritten. -/
theorem C79_false : ∃ t : Kin, t.onlyLateral = true ∧ t.R0 = 1 ∧
    (updateKappa t 0 50 0 (1 / 10)).kappa ≠ 0 ∧
    (updateKappa t 0 50 0 (1 / 10)).omega * t.R0 ≠ 50 :=
  ⟨⟨true, 1, 0, 0, 0, 0, 0, 0⟩, rfl, rfl, by norm_num [updateKappa], by norm_num [updateKappa]⟩

/-! ### C80: the derived coefficients follow the parameters -/

/-- The coefficients derived from the parameters: peak slip angles in radians and shape coefficients. -/
def Derived (p : Simple) : Prop :=
  p.lambda1 = p.lambda1Deg * π / 180 ∧ p.lambda2 = p.lambda2Deg * π / 180 ∧
  p.Sx = π / 2 / arctan p.Qx ∧ p.Sy = π / 2 / arctan p.Qy

theorem derived_initialise (p : Simple) : Derived (initialise p) := by
  refine ⟨?_, ?_, ?_, ?_⟩ <;> simp only [initialise] <;> ring

/-- If the derived coefficients fit the parameters they do so after every sequence of parameter changes,
accepted or rejected; and they do after one accepted change whatever the tyre was before. -/
theorem C80_derived_coefficients (t : SimpleTyre) :
    (Derived t.model → ∀ calls, Derived (run t calls).model) ∧
    (∀ b n v t', setParameter t b n v = .ok t' → Derived t'.model) := by
  have h2 : ∀ (t : SimpleTyre) b n v t', setParameter t b n v = .ok t' → Derived t'.model := by
    intro t b n v t' h
    simp only [setParameter] at h
    split at h
    · split at h
      · cases h; exact derived_initialise _
      · cases h
    · cases h
  refine ⟨fun h calls => ?_, h2 t⟩
  induction calls generalizing t with
  | nil => exact h
  | cons c rest ih =>
    obtain ⟨b, n, v⟩ := c
    simp only [run]
    split
    · rename_i t' e; exact ih t' (h2 t b n v t' e)
    · exact ih t h

/-- Changing `Qx` is accepted and the tyre then uses the coefficient of the new value; a name outside of
its path or unknown is rejected. -/
theorem C80_accepts (t : SimpleTyre) (v : ℝ) :
    (∃ t', setParameter t true .qx v = .ok t' ∧ t'.model.Qx = v ∧ t'.model.Sx = π / 2 / arctan v) ∧
    (∀ n, setParameter t false n v = .throw) ∧ setParameter t true .other v = .throw ∧
    (∀ n, n ≠ .other → ∃ t', setParameter t true n v = .ok t') := by
  refine ⟨⟨_, rfl, rfl, ?_⟩, fun n => rfl, rfl, fun n hn => ?_⟩
  · simp only [initialise]; ring
  · cases n <;> first | exact ⟨_, rfl⟩ | exact absurd rfl hn

/-- The parameter that a name stands for. -/
def read (t : SimpleTyre) : Name → ℝ
  | .radialStiffness => t.kt
  | .radialDamping => t.ct
  | .fzMaxRef2 => t.fzRef
  | .fz1 => t.model.Fz1
  | .fz2 => t.model.Fz2
  | .muX1 => t.model.muX1
  | .muX2 => t.model.muX2
  | .muY1 => t.model.muY1
  | .muY2 => t.model.muY2
  | .kappa1 => t.model.kappa1
  | .kappa2 => t.model.kappa2
  | .lambda1 => t.model.lambda1Deg
  | .lambda2 => t.model.lambda2Deg
  | .qx => t.model.Qx
  | .qy => t.model.Qy
  | .radius => t.R0
  | .other => 0

/-- An accepted change gives the named parameter its new value and leaves all the others alone. -/
theorem C80_sets_one (t : SimpleTyre) (n : Name) (v : ℝ) (hn : n ≠ .other) :
    ∃ t', setParameter t true n v = .ok t' ∧ read t' n = v ∧ ∀ n', n' ≠ n → read t' n' = read t n' := by
  cases n <;> first
    | exact absurd rfl hn
    | exact ⟨_, rfl, rfl, fun n' h => by cases n' <;> first | rfl | exact absurd rfl h⟩

example : ∃ t', setParameter ⟨0, 0, 1, exSimple, 33 / 100⟩ true .qy 3 = .ok t' ∧ read t' .qy = 3 :=
  let ⟨t', h, h1, _⟩ := C80_sets_one ⟨0, 0, 1, exSimple, 33 / 100⟩ .qy 3 (by simp)
  ⟨t', h, h1⟩

example : Derived (run ⟨0, 0, 1, exSimple, 33 / 100⟩ [(true, .qx, 2), (true, .other, 1), (false, .qy, 3)]).model :=
  (C80_derived_coefficients _).1 (derived_initialise _) _

/-! ### C81: the friction peak is reached at the declared slip -/

/-- The friction coefficient, relative to its peak, at the normalised slip `r`. -/
noncomputable def shape (Q S r : ℝ) : ℝ := sin (Q * arctan (S * r))

/-- For shape factors above 1 (up to 2) the peak is reached at the normalised slip
`tan(pi/(2Q))/S`, and nowhere else among the non-negative slips.
Partial: the declared slip is 1, and the code's `S` does not make it the peak (`C81_false`). -/
theorem C81_peak_partial (Q S r : ℝ) (hQ : 1 < Q) (hQ2 : Q ≤ 2) (hS : 0 < S) (hr : 0 ≤ r) :
    shape Q S r ≤ 1 ∧ (shape Q S r = 1 ↔ r = tan (π / (2 * Q)) / S) := by
  refine ⟨sin_le_one _, ?_⟩
  have hpi := pi_pos
  have h0 : 0 ≤ arctan (S * r) := arctan_nonneg.2 (mul_nonneg hS.le hr)
  have h1 := arctan_lt_pi_div_two (S * r)
  have hlo : -(π / 2) < π / (2 * Q) := lt_of_lt_of_le (by linarith) (by positivity : 0 ≤ π / (2 * Q))
  have hhi : π / (2 * Q) < π / 2 := by
    apply div_lt_div_of_pos_left hpi (by norm_num); linarith
  have key : shape Q S r = 1 ↔ Q * arctan (S * r) = π / 2 := by
    constructor
    · intro h
      have hin : Q * arctan (S * r) ∈ Set.Icc (0 : ℝ) π := by
        constructor
        · positivity
        · nlinarith
      by_contra hne
      have hcos : cos (Q * arctan (S * r)) = 0 := by
        have := sin_sq_add_cos_sq (Q * arctan (S * r))
        have h' : sin (Q * arctan (S * r)) = 1 := h
        rw [h'] at this
        have : cos (Q * arctan (S * r)) ^ 2 = 0 := by linarith
        exact pow_eq_zero_iff (two_ne_zero) |>.1 this
      have h2 : cos (Q * arctan (S * r)) = cos (π / 2) := by rw [hcos, cos_pi_div_two]
      exact hne (injOn_cos hin ⟨by positivity, by linarith⟩ h2)
    · intro h
      simp only [shape, h, sin_pi_div_two]
  rw [key]
  constructor
  · intro h
    have h2 : arctan (S * r) = π / (2 * Q) := by field_simp; linarith
    rw [eq_div_iff hS.ne', ← h2, tan_arctan]; ring
  · intro h
    have : S * r = tan (π / (2 * Q)) := by rw [h]; field_simp
    rw [this, arctan_tan hlo hhi]; field_simp

example : shape 2 1 1 = 1 := by
  have h := (C81_peak_partial 2 1 1 (by norm_num) le_rfl one_pos zero_le_one).2
  rw [h]
  have : π / (2 * 2) = π / 4 := by norm_num
  rw [this, tan_pi_div_four]; norm_num

/-- For the shape factor 1 the coefficient at the declared slip is 2/sqrt 5 of the peak. -/
theorem C81_false : (initialise { exSimple with Qx := 1 }).Sx = 2 ∧
    shape 1 (initialise { exSimple with Qx := 1 }).Sx 1 = 2 / sqrt 5 ∧ (2 : ℝ) / sqrt 5 < 1 := by
  have hS : (initialise { exSimple with Qx := 1 }).Sx = 2 := by
    simp only [initialise, arctan_one]
    have := pi_pos
    field_simp
    norm_num
  refine ⟨hS, ?_, ?_⟩
  · rw [hS, shape, one_mul, mul_one, sin_arctan]; norm_num
  · rw [div_lt_one (by positivity)]
    exact Real.lt_sqrt_of_sq_lt (by norm_num)

/-! ### C82: tyres never deliver power -/

/-- The reported dissipation of a tyre whose forces have the signs of its slips is not positive, when it
moves forward. -/
theorem dissipation_nonpos (t : Kin) (hv : 0 < t.vx) (hk : t.omega * t.R0 = (1 + t.kappa) * t.vx)
    (hl : t.vy = -(t.lambda * t.vx)) (Fx Fy : ℝ) (h : 0 ≤ t.kappa * Fx + t.lambda * Fy) :
    dissipation t Fx Fy ≤ 0 := by
  have e : dissipation t Fx Fy = -(t.vx * (t.kappa * Fx + t.lambda * Fy)) := by
    simp only [dissipation, hk, hl]; ring
  rw [e]
  have := mul_nonneg hv.le h
  linarith

/-- After an update with a slip, with the forces of the simple model, the reported dissipation is not
positive: for shape factors between 0 and 2, positive load and positive peak slips. -/
theorem C82_simple_dissipates (p : Simple) (hsp : ∀ x, 0 ≤ p.sp x) (t : Kin) (hR : t.R0 ≠ 0)
    (w vx vy kappa Fz : ℝ) (hv : 0 < vx) (hF : 0 ≤ Fz) (hQx : 0 ≤ p.Qx ∧ p.Qx ≤ 2)
    (hQy : 0 ≤ p.Qy ∧ p.Qy ≤ 2) (hS : 0 ≤ p.Sx ∧ 0 ≤ p.Sy) (hk : 0 < maxKappa p Fz)
    (hl : 0 < maxLambda p Fz) :
    let t' := updateKappa t w vx vy kappa
    dissipation t' (simpleX p t'.kappa t'.lambda Fz) (simpleY p t'.kappa t'.lambda Fz) ≤ 0 := by
  intro t'
  have hr := rho_pos p t'.kappa t'.lambda Fz
  refine dissipation_nonpos t' hv ?_ ?_ _ _ ?_
  · simp only [t', updateKappa]; field_simp
  · simp only [t', updateKappa]; field_simp
  · have h1 := sin_shape_nonneg hQx.1 hQx.2 (mul_nonneg hS.1 hr.le)
    have h2 := sin_shape_nonneg hQy.1 hQy.2 (mul_nonneg hS.2 hr.le)
    have m1 : 0 ≤ muXMax p Fz := le_trans zero_le_one (muX_pos p hsp Fz)
    have m2 : 0 ≤ muYMax p Fz := le_trans zero_le_one (muY_pos p hsp Fz)
    have e1 : t'.kappa * simpleX p t'.kappa t'.lambda Fz = muXMax p Fz
        * sin (p.Qx * arctan (p.Sx * rho p t'.kappa t'.lambda Fz)) * Fz * (t'.kappa ^ 2 / maxKappa p Fz)
        / rho p t'.kappa t'.lambda Fz := by simp only [simpleX]; ring
    have e2 : t'.lambda * simpleY p t'.kappa t'.lambda Fz = muYMax p Fz
        * sin (p.Qy * arctan (p.Sy * rho p t'.kappa t'.lambda Fz)) * Fz
        * (t'.lambda ^ 2 / maxLambda p Fz)
        / rho p t'.kappa t'.lambda Fz := by simp only [simpleY]; ring
    rw [e1, e2]
    positivity

/-- The same for the standard model, within the documented ranges of its coefficients. -/
theorem C82_standard_dissipates (p : Std) (t : Kin) (hn : t.onlyLateral = false)
    (w vx vy omega Fz : ℝ) (hv : 0 < vx) (hF : 0 ≤ Fz) (hD : 0 ≤ p.pDx1 ∧ 0 ≤ p.pDy1)
    (hC : (0 ≤ p.pCx1 ∧ p.pCx1 ≤ 2) ∧ (0 ≤ p.pCy1 ∧ p.pCy1 ≤ 2)) (hE : p.pEx1 ≤ 1 ∧ p.pEy1 ≤ 1)
    (hB : 0 ≤ stdBx p Fz ∧ 0 ≤ stdBy p Fz) (hr : |p.rCx1| ≤ 1 ∧ |p.rCy1| ≤ 1) :
    let t' := updateOmega t w vx vy omega
    dissipation t' (stdX p t'.kappa t'.lambda Fz) (stdY p t'.kappa t'.lambda Fz) ≤ 0 := by
  intro t'
  refine dissipation_nonpos t' hv ?_ ?_ _ _ ?_
  · simp only [t', updateOmega, hn, Bool.false_eq_true, if_false]; field_simp; ring
  · simp only [t', updateOmega]; field_simp
  · have g1 := cos_shape_nonneg (x := p.rBx1 * t'.lambda) hr.1
    have g2 := cos_shape_nonneg (x := p.rBy1 * t'.kappa) hr.2
    have s1 := magic_sign (x := t'.kappa) hC.1.1 hC.1.2 hE.1 hB.1
    have s2 := magic_sign (x := t'.lambda) hC.2.1 hC.2.2 hE.2 hB.2
    have e1 : 0 ≤ t'.kappa * stdX p t'.kappa t'.lambda Fz := by
      simp only [stdX, stdPureX]
      split
      · simp
      · have : 0 ≤ cos (p.rCx1 * arctan (p.rBx1 * t'.lambda)) * (p.pDx1 * Fz)
            * (t'.kappa * magic p.pCx1 (stdBx p Fz) p.pEx1 t'.kappa) :=
          mul_nonneg (mul_nonneg g1 (mul_nonneg hD.1 hF)) s1
        linarith
    have e2 : 0 ≤ t'.lambda * stdY p t'.kappa t'.lambda Fz := by
      have : 0 ≤ cos (p.rCy1 * arctan (p.rBy1 * t'.kappa)) * (p.pDy1 * Fz)
            * (t'.lambda * magic p.pCy1 (stdBy p Fz) p.pEy1 t'.lambda) :=
          mul_nonneg (mul_nonneg g2 (mul_nonneg hD.2 hF)) s2
      simp only [stdY, stdPureY]
      linarith
    linarith

example : let t' := updateKappa exKin 0 50 1 (1 / 20)
    dissipation t' (simpleX exSimple t'.kappa t'.lambda 4000) (simpleY exSimple t'.kappa t'.lambda 4000)
      ≤ 0 := by
  have hpi := pi_pos
  have hat : 0 < arctan (19 / 10) := arctan_pos.2 (by norm_num)
  refine C82_simple_dissipates exSimple exSimple_sp exKin (by norm_num [exKin]) 0 50 1 (1 / 20) 4000
    (by norm_num) (by norm_num) (by norm_num [exSimple, initialise]) (by norm_num [exSimple, initialise])
    ⟨?_, ?_⟩ ?_ ?_
  · simp only [exSimple, initialise]; positivity
  · simp only [exSimple, initialise]; positivity
  · norm_num [maxKappa, atLoad, exSimple, initialise]
  · simp only [maxLambda, atLoad, exSimple, initialise]
    nlinarith

example : let t' := updateOmega exKin 0 20 1 65
    dissipation t' (stdX exStd t'.kappa t'.lambda 560) (stdY exStd t'.kappa t'.lambda 560) ≤ 0 := by
  have hat : 0 ≤ sin (2 * arctan (560 / (560 * 3))) :=
    sin_shape_nonneg (by norm_num) le_rfl (by norm_num)
  refine C82_standard_dissipates exStd exKin rfl 0 20 1 65 560 (by norm_num) (by norm_num)
    (by norm_num [exStd]) (by norm_num [exStd]) (by norm_num [exStd]) ⟨?_, ?_⟩ (by norm_num [exStd])
  · norm_num [stdBx, dfz, exStd]
  · have h : |(560 : ℝ)| > exStd.eps := by norm_num [exStd]
    rw [stdBy, if_pos h]
    simp only [exStd]
    positivity

/-! ### C83: the reported dissipation is the power of the tyre forces -/

/-- The power of the forces on the moving tyre (`F·v` of the contact point) plus that of the wheel torque
is the reported dissipation, for an undeformed tyre.
Partial: for a deformed tyre the lever arms of torque and dissipation differ (`C83_false`). -/
theorem C83_power_balance_partial (t : Kin) (hw : t.w = 0) (Fx Fy : ℝ) :
    Fx * t.vx + Fy * t.vy + wheelTorque t Fx * t.omega = dissipation t Fx Fy := by
  simp only [wheelTorque, dissipation, hw]; ring

/-- In general the balance is off by the longitudinal force times deformation times wheel speed. -/
theorem C83_defect (t : Kin) (Fx Fy : ℝ) :
    Fx * t.vx + Fy * t.vy + wheelTorque t Fx * t.omega
      = dissipation t Fx Fy + Fx * t.w * t.omega := by
  simp only [wheelTorque, dissipation]; ring

theorem C83_false : ∃ t : Kin, ∃ Fx Fy : ℝ, 0 < t.w ∧ t.w < t.R0 ∧
    Fx * t.vx + Fy * t.vy + wheelTorque t Fx * t.omega ≠ dissipation t Fx Fy :=
  ⟨⟨false, 1, 1 / 10, 10, 0, 10, 0, 0⟩, 1, 0, by norm_num, by norm_num,
    by norm_num [wheelTorque, dissipation]⟩

example : (100 : ℝ) * 50 + 3 * 1 + wheelTorque ⟨false, 1, 0, 50, 1, 51, 0, 0⟩ 100 * 51
    = dissipation ⟨false, 1, 0, 50, 1, 51, 0, 0⟩ 100 3 :=
  C83_power_balance_partial ⟨false, 1, 0, 50, 1, 51, 0, 0⟩ rfl 100 3

/-- The reported torque is the moment of the reported force at the contact point, and its axial component
is the wheel torque with opposite sign; the vertical force pushes the car up with the load. -/
theorem C83_moment (t : Kin) (S F Fz : ℝ) :
    (forceTorque t S F Fz).1 = (S, F, -Fz) ∧
    (forceTorque t S F Fz).2.1 = -((t.R0 - t.w) * F) ∧
    (forceTorque t S F Fz).2.2.1 = -wheelTorque t S ∧ (forceTorque t S F Fz).2.2.2 = 0 := by
  refine ⟨rfl, ?_, ?_, ?_⟩ <;> simp only [forceTorque, wheelTorque] <;> ring

/-! ### C84: slip stiffness of the standard model -/

theorem magic_deriv (C B E : ℝ) : HasDerivAt (magic C B E) (C * B) 0 := by
  have h1 : HasDerivAt (fun x : ℝ => B * x) B 0 := by
    simpa using (hasDerivAt_id (0 : ℝ)).const_mul B
  have h2 : HasDerivAt (fun x : ℝ => arctan (B * x)) B 0 := by
    simpa using h1.arctan
  have h3 : HasDerivAt (fun x : ℝ => B * x - E * (B * x - arctan (B * x))) B 0 := by
    exact (h1.sub ((h1.sub h2).const_mul E)).congr_deriv (by ring)
  have h4 : HasDerivAt (fun x : ℝ => arctan (B * x - E * (B * x - arctan (B * x)))) B 0 := by
    simpa using h3.arctan
  have h5 : HasDerivAt (magic C B E) _ 0 := (h4.const_mul C).sin
  exact h5.congr_deriv (by simp)

/-- The longitudinal force grows with the slip, at zero slip, at the rate
`Fz (pKx1 + pKx2 dfz) exp(pKx3 dfz)` of the documentation of the formula. -/
theorem C84_longitudinal_stiffness (p : Std) (hC : p.pCx1 ≠ 0) (hD : p.pDx1 ≠ 0) (Fz : ℝ) :
    HasDerivAt (fun kappa => stdPureX p kappa Fz)
      (Fz * (p.pKx1 + p.pKx2 * ((Fz - p.Fz0p) / p.Fz0p)) * exp (p.pKx3 * ((Fz - p.Fz0p) / p.Fz0p))) 0 := by
  simp only [stdPureX, if_neg hD]
  refine ((magic_deriv p.pCx1 (stdBx p Fz) p.pEx1).const_mul (p.pDx1 * Fz)).congr_deriv ?_
  simp only [stdBx, dfz]; field_simp

/-- The lateral force grows at the rate `pKy1 Fz0' sin(pKy4 atan(Fz/(Fz0' pKy2)))` for loads above the
tolerance; below it at the rate `pKy1 pKy4 / pKy2` times the load. -/
theorem C84_lateral_stiffness (p : Std) (hC : p.pCy1 ≠ 0) (hD : p.pDy1 ≠ 0) (Fz : ℝ) (heps : 0 ≤ p.eps) :
    HasDerivAt (fun lambda => stdPureY p lambda Fz)
      (if p.eps < |Fz| then p.pKy1 * p.Fz0p * sin (p.pKy4 * arctan (Fz / (p.Fz0p * p.pKy2)))
        else p.pKy1 * p.pKy4 / p.pKy2 * Fz) 0 := by
  simp only [stdPureY]
  refine ((magic_deriv p.pCy1 (stdBy p Fz) p.pEy1).const_mul (p.pDy1 * Fz)).congr_deriv ?_
  simp only [stdBy, gt_iff_lt]
  split
  · rename_i h
    have : Fz ≠ 0 := by
      intro h0; rw [h0, abs_zero] at h; linarith
    field_simp
  · by_cases hk : p.pKy2 = 0
    · simp [hk]
    · field_simp

/-- The two branches of the lateral stiffness fit: stiffness over load tends to that of the second branch
as the load vanishes. -/
theorem C84_lateral_limit (p : Std) (hF : p.Fz0p ≠ 0) :
    Filter.Tendsto (fun Fz => p.pKy1 * p.Fz0p * sin (p.pKy4 * arctan (Fz / (p.Fz0p * p.pKy2))) / Fz)
      (nhdsWithin 0 {0}ᶜ) (nhds (p.pKy1 * p.pKy4 / p.pKy2)) := by
  have h1 : HasDerivAt (fun Fz : ℝ => Fz / (p.Fz0p * p.pKy2)) (1 / (p.Fz0p * p.pKy2)) 0 :=
    (hasDerivAt_id (0 : ℝ)).div_const _
  have h2 : HasDerivAt (fun Fz : ℝ => arctan (Fz / (p.Fz0p * p.pKy2))) (1 / (p.Fz0p * p.pKy2)) 0 := by
    simpa using h1.arctan
  have h3 := ((h2.const_mul p.pKy4).sin).const_mul (p.pKy1 * p.Fz0p)
  have h4 := hasDerivAt_iff_tendsto_slope.1 h3
  have e : p.pKy1 * p.Fz0p * (cos (p.pKy4 * arctan (0 / (p.Fz0p * p.pKy2)))
      * (p.pKy4 * (1 / (p.Fz0p * p.pKy2)))) = p.pKy1 * p.pKy4 / p.pKy2 := by
    by_cases hk : p.pKy2 = 0
    · simp [hk]
    · simp; field_simp
  rw [e] at h4
  refine h4.congr' ?_
  filter_upwards with x
  simp [slope_def_field]

example : HasDerivAt (fun kappa => stdPureX exStd kappa 560) (560 * 60) 0 := by
  refine (C84_longitudinal_stiffness exStd (by norm_num [exStd]) (by norm_num [exStd]) 560).congr_deriv ?_
  norm_num [exStd]

example : HasDerivAt (fun lambda => stdPureY exStd lambda 0) 0 0 := by
  refine (C84_lateral_stiffness exStd (by norm_num [exStd]) (by norm_num [exStd]) 0
    (by norm_num [exStd])).congr_deriv ?_
  norm_num [exStd]

/-! ### C85: the friction coefficient is the declared one -/

/-- If `smooth_pos` is within `d` of the positive part, the peak coefficients are within `d` of the line
through the declared ones at the two reference loads, where that line is at least 1.
Partial: coefficients below 1 are replaced (`C85_false`). -/
theorem C85_declared_friction_partial (p : Simple) (d : ℝ) (hd : ∀ x, |p.sp x - max x 0| ≤ d)
    (hF : p.Fz1 ≠ p.Fz2) (Fz s : ℝ) (hs : Fz = p.Fz1 + s * (p.Fz2 - p.Fz1)) :
    (1 ≤ (1 - s) * p.muX1 + s * p.muX2 → |muXMax p Fz - ((1 - s) * p.muX1 + s * p.muX2)| ≤ d) ∧
    (1 ≤ (1 - s) * p.muY1 + s * p.muY2 → |muYMax p Fz - ((1 - s) * p.muY1 + s * p.muY2)| ≤ d) := by
  have hne : p.Fz2 - p.Fz1 ≠ 0 := sub_ne_zero.2 hF.symm
  have key : ∀ a b : ℝ, atLoad p a b Fz = (1 - s) * a + s * b := by
    intro a b; simp only [atLoad, hs]; field_simp; ring
  constructor
  · intro h
    have := hd ((1 - s) * p.muX1 + s * p.muX2 - 1)
    rw [max_eq_left (by linarith)] at this
    simp only [muXMax, key, muMin]
    convert this using 2; ring
  · intro h
    have := hd ((1 - s) * p.muY1 + s * p.muY2 - 1)
    rw [max_eq_left (by linarith)] at this
    simp only [muYMax, key, muMin]
    convert this using 2; ring

/-- The slips of the peak are interpolated exactly. -/
theorem C85_declared_slips (p : Simple) (hF : p.Fz1 ≠ p.Fz2) (Fz s : ℝ)
    (hs : Fz = p.Fz1 + s * (p.Fz2 - p.Fz1)) :
    maxKappa p Fz = (1 - s) * p.kappa1 + s * p.kappa2 ∧
    maxLambda p Fz = (1 - s) * p.lambda1 + s * p.lambda2 := by
  have hne : p.Fz2 - p.Fz1 ≠ 0 := sub_ne_zero.2 hF.symm
  constructor <;> simp only [maxKappa, maxLambda, atLoad, hs] <;> field_simp <;> ring

example : |muXMax exSimple 4000 - 63 / 40| ≤ 0 := by
  have h := (C85_declared_friction_partial exSimple 0 (fun x => by simp [exSimple, initialise])
    (by norm_num [exSimple, initialise]) 4000 (1 / 2) (by norm_num [exSimple, initialise])).1
    (by norm_num [exSimple, initialise])
  have e : (1 - (1 / 2 : ℝ)) * exSimple.muX1 + 1 / 2 * exSimple.muX2 = 63 / 40 := by
    norm_num [exSimple, initialise]
  rwa [e] at h

/-- Whatever non-negative `smooth_pos` is used, a tyre declared with friction 1/2 (a wet track) has peak
coefficients of at least 1, at every load. -/
theorem C85_false (sp : ℝ → ℝ) (hsp : ∀ x, 0 ≤ sp x) (Fz : ℝ) :
    let p : Simple := { exSimple with sp := sp, muX1 := 1 / 2, muX2 := 1 / 2, muY1 := 1 / 2, muY2 := 1 / 2 }
    1 ≤ muXMax p Fz ∧ 1 ≤ muYMax p Fz := by
  intro p
  exact ⟨muX_pos p hsp Fz, muY_pos p hsp Fz⟩

end Verif.Tyre
