import Verif.Spec.Kart
import Verif.Lemmas.Chassis
import Verif.Lemmas.F1
import Verif.Props.Powertrain
import Mathlib.Tactic.LinearCombination

/-! Lemmas about the kart. -/

set_option autoImplicit false

namespace Verif.Kart

open Verif.Road Verif.Chassis Real
open Verif.F1 (RoadKind WheelOut)

variable {solve : Vec3 × Vec3 × Vec3 → Vec3 → Vec3} {c : Vehicle}

/-- The derivatives of the components of the state of a kart that follows its equations. -/
structure Derivs (solve : Vec3 × Vec3 × Vec3 → Vec3 → Vec3) (c : Vehicle) (m : ℝ → Members) (t : ℝ) : Prop where
  omegaAxle : HasDerivAt (fun s => (m s).omegaAxle) (axleAcceleration c (m t)) t
  u : HasDerivAt (fun s => (m s).u) (dvdt c (m t) (m t).road3).1 t
  v : HasDerivAt (fun s => (m s).v) (dvdt c (m t) (m t).road3).2.1 t
  omega : HasDerivAt (fun s => (m s).omega) (angularAcceleration solve c (m t) (m t).road3).2.2 t
  z : HasDerivAt (fun s => (m s).z) (m t).dz t
  phi : HasDerivAt (fun s => (m s).phi) (m t).dphi t
  mu : HasDerivAt (fun s => (m s).mu) (m t).dmu t
  dz : HasDerivAt (fun s => (m s).dz) (dvdt c (m t) (m t).road3).2.2 t
  dphi : HasDerivAt (fun s => (m s).dphi) (angularAcceleration solve c (m t) (m t).road3).1 t
  dmu : HasDerivAt (fun s => (m s).dmu) (angularAcceleration solve c (m t) (m t).road3).2.1 t
  road1 : HasDerivAt (fun s => (m s).road1) (cartesian (m t).road3 (m t).u (m t).v (m t).omega).1 t
  road2 : HasDerivAt (fun s => (m s).road2) (cartesian (m t).road3 (m t).u (m t).v (m t).omega).2.1 t
  road3 : HasDerivAt (fun s => (m s).road3) (cartesian (m t).road3 (m t).u (m t).v (m t).omega).2.2 t

theorem Follows.derivs {m : ℝ → Members} {t : ℝ} (h : Follows solve c m t) : Derivs solve c m t where
  omegaAxle := (h 0).congr_deriv (mul_one _)
  u := (h 1).congr_deriv (mul_one _)
  v := (h 2).congr_deriv (mul_one _)
  omega := (h 3).congr_deriv (mul_one _)
  z := (h 4).congr_deriv (mul_one _)
  phi := (h 5).congr_deriv (mul_one _)
  mu := (h 6).congr_deriv (mul_one _)
  dz := (h 7).congr_deriv (mul_one _)
  dphi := (h 8).congr_deriv (mul_one _)
  dmu := (h 9).congr_deriv (mul_one _)
  road1 := (h 10).congr_deriv (mul_one _)
  road2 := (h 11).congr_deriv (mul_one _)
  road3 := (h 12).congr_deriv (mul_one _)

theorem hasDerivAt_line (x d : ℝ) : HasDerivAt (fun s : ℝ => x + s * d) d 0 := by
  simpa using ((hasDerivAt_id (0 : ℝ)).mul_const d).const_add x

/-- Every state of the kart is the present of a motion that follows its equations, whatever the steering. -/
theorem exists_follows (solve : Vec3 × Vec3 × Vec3 → Vec3 → Vec3) (c : Vehicle) (m0 : Members) (d : ℝ → ℝ)
    (hd : d 0 = m0.steering) : ∃ m, m 0 = m0 ∧ Follows solve c m 0 ∧ ∀ s, (m s).steering = d s := by
  let a := dvdt c m0 m0.road3
  let b := angularAcceleration solve c m0 m0.road3
  let r := cartesian m0.road3 m0.u m0.v m0.omega
  refine ⟨fun s =>
    { omegaAxle := m0.omegaAxle + s * axleAcceleration c m0
      u := m0.u + s * a.1
      v := m0.v + s * a.2.1
      omega := m0.omega + s * b.2.2
      z := m0.z + s * m0.dz
      phi := m0.phi + s * m0.dphi
      mu := m0.mu + s * m0.dmu
      dz := m0.dz + s * a.2.2
      dphi := m0.dphi + s * b.1
      dmu := m0.dmu + s * b.2.1
      steering := d s
      throttle := m0.throttle
      road1 := m0.road1 + s * r.1
      road2 := m0.road2 + s * r.2.1
      road3 := m0.road3 + s * r.2.2 }, ?_, ?_, fun s => rfl⟩
  · simp only [zero_mul, add_zero, hd]
  · intro k
    simp only [zero_mul, add_zero, hd]
    match k with
    | 0 | 1 | 2 | 3 | 4 | 5 | 6 | 7 | 8 | 9 | 10 | 11 | 12 =>
      exact (hasDerivAt_line _ _).congr_deriv (mul_one _).symm
    | n + 13 => exact hasDerivAt_const _ _

/-! ### Vectors -/

theorem rotZ_inj {t : ℝ} {v w : Vec3} (h : rotZ t v = rotZ t w) : v = w := by
  have h1 : rotZ (-t) (rotZ (- -t) v) = rotZ (-t) (rotZ (- -t) w) := by rw [neg_neg, h]
  rwa [rotZ_neg, rotZ_neg] at h1

theorem moment_sub (o : Vec3) (l : List (Vec3 × Vec3)) :
    moment o l = moment 0 l - cross o (l.map Prod.snd).sum := by
  induction l with
  | nil => apply vec_ext <;> simp [moment, cross]
  | cons x l ih =>
    obtain ⟨x, F⟩ := x
    simp only [moment, List.map_cons, List.sum_cons, ih]
    apply vec_ext <;> simp [cross] <;> ring

theorem hasDerivAt_mulVec {M : Vec3 × Vec3 × Vec3} {f : ℝ → Vec3} {d : Vec3} {t : ℝ} (h : HasDerivAt f d t) :
    HasDerivAt (fun s => mulVec M (f s)) (mulVec M d) t := by
  obtain ⟨h1, h2, h3⟩ := hasDerivAt_comp h
  refine hasDerivAt_vec ?_ ?_ ?_ <;> simp only [mulVec, dot]
  · exact ((h1.const_mul _).add (h2.const_mul _)).add (h3.const_mul _)
  · exact ((h1.const_mul _).add (h2.const_mul _)).add (h3.const_mul _)
  · exact ((h1.const_mul _).add (h2.const_mul _)).add (h3.const_mul _)

theorem hasDerivAt_cross {f g : ℝ → Vec3} {d e : Vec3} {t : ℝ} (h : HasDerivAt f d t) (h' : HasDerivAt g e t) :
    HasDerivAt (fun s => cross (f s) (g s)) (cross d (g t) + cross (f t) e) t := by
  obtain ⟨h1, h2, h3⟩ := hasDerivAt_comp h
  obtain ⟨k1, k2, k3⟩ := hasDerivAt_comp h'
  refine hasDerivAt_vec ?_ ?_ ?_ <;> simp only [cross, Prod.fst_add, Prod.snd_add]
  · exact ((h2.mul k3).sub (h3.mul k2)).congr_deriv (by ring)
  · exact ((h3.mul k1).sub (h1.mul k3)).congr_deriv (by ring)
  · exact ((h1.mul k2).sub (h2.mul k1)).congr_deriv (by ring)

theorem mulVec_inj {M : Vec3 × Vec3 × Vec3} {x y : Vec3} (hM : det M ≠ 0) (hxy : mulVec M x = mulVec M y) : x = y := by
  have h1 : dot M.1 (x - y) = 0 := by
    have := congrArg (fun v : Vec3 => v.1) hxy
    simp only [mulVec, dot] at this
    simp only [dot, Prod.fst_sub, Prod.snd_sub]; linarith
  have h2 : dot M.2.1 (x - y) = 0 := by
    have := congrArg (fun v : Vec3 => v.2.1) hxy
    simp only [mulVec, dot] at this
    simp only [dot, Prod.fst_sub, Prod.snd_sub]; linarith
  have h3 : dot M.2.2 (x - y) = 0 := by
    have := congrArg (fun v : Vec3 => v.2.2) hxy
    simp only [mulVec, dot] at this
    simp only [dot, Prod.fst_sub, Prod.snd_sub]; linarith
  rw [← sub_eq_zero]
  generalize x - y = w at h1 h2 h3
  simp only [dot] at h1 h2 h3
  simp only [det, dot, cross] at hM
  refine vec_ext ?_ ?_ ?_
  · refine (mul_eq_zero.1 ?_).resolve_left hM
    linear_combination (M.2.1.2.1 * M.2.2.2.2 - M.2.1.2.2 * M.2.2.2.1) * h1
      + (M.2.2.2.1 * M.1.2.2 - M.2.2.2.2 * M.1.2.1) * h2 + (M.1.2.1 * M.2.1.2.2 - M.1.2.2 * M.2.1.2.1) * h3
  · refine (mul_eq_zero.1 ?_).resolve_left hM
    linear_combination (M.2.1.2.2 * M.2.2.1 - M.2.1.1 * M.2.2.2.2) * h1
      + (M.2.2.2.2 * M.1.1 - M.2.2.1 * M.1.2.2) * h2 + (M.1.2.2 * M.2.1.1 - M.1.1 * M.2.1.2.2) * h3
  · refine (mul_eq_zero.1 ?_).resolve_left hM
    linear_combination (M.2.1.1 * M.2.2.2.1 - M.2.1.2.1 * M.2.2.1) * h1
      + (M.2.2.1 * M.1.2.1 - M.2.2.2.1 * M.1.1) * h2 + (M.1.1 * M.2.1.2.1 - M.1.2.1 * M.2.1.1) * h3

/-! ### Forces -/

theorem totalForce_applied (c : Vehicle) (m : Members) (hd : ℝ) :
    totalForce c m hd = ((applied c m hd).map Prod.snd).sum := by
  simp only [totalForce, applied, frontAxle, rearAxle, axleUpdate, wheelUpdate, axleForces, Tyre.forceTorque,
    List.map_cons, List.map_nil, List.sum_cons, List.sum_nil]
  apply vec_ext <;> simp [rotZ] <;> ring

theorem totalTorque_applied (c : Vehicle) (m : Members) (hd : ℝ) :
    totalTorque c m hd + cross (comPosition c m) (0, 0, c.mass * c.g0) = moment 0 (applied c m hd) := by
  simp only [totalTorque, applied, contact, frontAxle, rearAxle, axleUpdate, wheelUpdate, axleForces,
    Tyre.forceTorque, Tyre.updateOmega, moment]
  generalize aeroForce c m hd = A
  generalize comPosition c m = C
  generalize axlePosition c.xFront m = xf
  generalize axlePosition c.xRear m = xr
  apply vec_ext <;> simp [rotZ, cross] <;> ring

/-! ### Angular momentum -/

/-- The matrix of the angular momentum. -/
abbrev inertia (Ixx Iyy Izz Ixz : ℝ) : Vec3 × Vec3 × Vec3 := ((Ixx, 0, -Ixz), (0, Iyy, 0), (-Ixz, 0, Izz))

/-- The angular acceleration of a body whose roll and pitch are those of the kart times `e`. -/
noncomputable def omegaDot (e : ℝ) (m : Members) (al : Vec3) : Vec3 :=
  (e * al.1 - (cos (e * m.mu) * (e * m.dmu) * m.omega + sin (e * m.mu) * al.2.2),
   -sin (e * m.phi) * (e * m.dphi) * (e * m.dmu) + cos (e * m.phi) * (e * al.2.1)
     + ((-sin (e * m.mu) * (e * m.dmu)) * sin (e * m.phi) + cos (e * m.mu) * (cos (e * m.phi) * (e * m.dphi)))
       * m.omega + cos (e * m.mu) * sin (e * m.phi) * al.2.2,
   -(cos (e * m.phi) * (e * m.dphi)) * (e * m.dmu) - sin (e * m.phi) * (e * al.2.1)
     + ((-sin (e * m.mu) * (e * m.dmu)) * cos (e * m.phi) - cos (e * m.mu) * (sin (e * m.phi) * (e * m.dphi)))
       * m.omega + cos (e * m.mu) * cos (e * m.phi) * al.2.2)

/-- The angular velocity of a body whose roll and pitch are those of the kart times `e`. -/
noncomputable def omegaOf (e : ℝ) (m : Members) : Vec3 :=
  omegaBody (body m.road3 (e * m.mu) (e * m.phi)) m.omega (e * m.dmu) (e * m.dphi) 0

theorem omegaOf_eq (e : ℝ) (m : Members) : omegaOf e m =
    (e * m.dphi - sin (e * m.mu) * m.omega,
     cos (e * m.phi) * (e * m.dmu) + cos (e * m.mu) * sin (e * m.phi) * m.omega,
     -sin (e * m.phi) * (e * m.dmu) + cos (e * m.mu) * cos (e * m.phi) * m.omega) := by
  apply vec_ext <;> simp [omegaOf, omegaBody, body, rotZ]

theorem omegaOf_deriv {m : ℝ → Members} {t : ℝ} (h : Derivs solve c m t) (e : ℝ) :
    HasDerivAt (fun s => omegaOf e (m s))
      (omegaDot e (m t) (angularAcceleration solve c (m t) (m t).road3)) t := by
  simp only [omegaOf_eq]
  have hmu := h.mu.const_mul e
  have hphi := h.phi.const_mul e
  have hdmu := h.dmu.const_mul e
  have hdphi := h.dphi.const_mul e
  refine hasDerivAt_vec ?_ ?_ ?_ <;> simp only [omegaDot]
  · exact (hdphi.sub (hmu.sin.mul h.omega)).congr_deriv (by ring)
  · exact ((hphi.cos.mul hdmu).add ((hmu.cos.mul hphi.sin).mul h.omega)).congr_deriv
      (by simp only [Pi.mul_apply]; ring)
  · exact ((hphi.sin.neg.mul hdmu).add ((hmu.cos.mul hphi.cos).mul h.omega)).congr_deriv
      (by simp only [Pi.neg_apply, Pi.mul_apply]; ring)

/-- The rate of change of the angular momentum, in the axes of the kart. -/
noncomputable def rateOf (J : Vec3 × Vec3 × Vec3) (m : Members) (al : Vec3) (e : ℝ) : Vec3 :=
  rotY (e * m.mu) (rotX (e * m.phi) (mulVec J (omegaDot e m al) + cross (omegaOf e m) (mulVec J (omegaOf e m))))

theorem rotZ_zero (v : Vec3) : rotZ 0 v = v := by apply vec_ext <;> simp [rotZ]

theorem angularMomentum_deriv {m : ℝ → Members} {t : ℝ} (h : Derivs solve c m t) (Ixx Iyy Izz Ixz e : ℝ) :
    HasDerivAt (fun s => angularMomentum Ixx Iyy Izz Ixz e (m s))
      (world (m t).road3 (rateOf (inertia Ixx Iyy Izz Ixz) (m t) (angularAcceleration solve c (m t) (m t).road3) e))
      t := by
  have ht : Turns (fun s => body (m s).road3 (e * (m s).mu) (e * (m s).phi)) (m t).omega (e * (m t).dmu)
      (e * (m t).dphi) 0 t :=
    ⟨h.road3, h.mu.const_mul e, h.phi.const_mul e, hasDerivAt_const _ _⟩
  have key := toWorld_deriv ht (hasDerivAt_mulVec (M := inertia Ixx Iyy Izz Ixz) (omegaOf_deriv h e))
  refine key.congr_deriv ?_
  simp only [toWorld, body, world, rateOf, rotZ_zero]
  rfl

/-- Value and derivative at 0 of the rate. -/
noncomputable def rateSlope (J : Vec3 × Vec3 × Vec3) (m : Members) (al : Vec3) : Vec3 :=
  let w0 : Vec3 := (0, 0, m.omega)
  let d0 : Vec3 := (0, 0, al.2.2)
  let w1 : Vec3 := (m.dphi - m.mu * m.omega, m.dmu + m.phi * m.omega, 0)
  let d1 : Vec3 := (al.1 - m.dmu * m.omega - m.mu * al.2.2, al.2.1 + m.dphi * m.omega + m.phi * al.2.2, 0)
  mulVec J d1 + (cross w1 (mulVec J w0) + cross w0 (mulVec J w1))
    + cross (m.phi, m.mu, 0) (mulVec J d0 + cross w0 (mulVec J w0))

theorem omegaOf_slope (m : Members) : omegaOf 0 m = (0, 0, m.omega) ∧
    HasDerivAt (fun e => omegaOf e m) (m.dphi - m.mu * m.omega, m.dmu + m.phi * m.omega, 0) 0 := by
  simp only [omegaOf_eq]
  have hmu : HasDerivAt (fun e : ℝ => e * m.mu) m.mu 0 := by simpa using (hasDerivAt_id (0 : ℝ)).mul_const m.mu
  have hphi : HasDerivAt (fun e : ℝ => e * m.phi) m.phi 0 := by simpa using (hasDerivAt_id (0 : ℝ)).mul_const m.phi
  have hdmu : HasDerivAt (fun e : ℝ => e * m.dmu) m.dmu 0 := by simpa using (hasDerivAt_id (0 : ℝ)).mul_const m.dmu
  have hdphi : HasDerivAt (fun e : ℝ => e * m.dphi) m.dphi 0 := by
    simpa using (hasDerivAt_id (0 : ℝ)).mul_const m.dphi
  refine ⟨by simp, hasDerivAt_vec ?_ ?_ ?_⟩ <;> simp only
  · exact (hdphi.sub (hmu.sin.mul_const _)).congr_deriv (by simp)
  · exact ((hphi.cos.mul hdmu).add ((hmu.cos.mul hphi.sin).mul_const m.omega)).congr_deriv (by simp)
  · exact ((hphi.sin.neg.mul hdmu).add ((hmu.cos.mul hphi.cos).mul_const m.omega)).congr_deriv (by simp)

theorem omegaDot_slope (m : Members) (al : Vec3) : omegaDot 0 m al = (0, 0, al.2.2) ∧
    HasDerivAt (fun e => omegaDot e m al)
      (al.1 - m.dmu * m.omega - m.mu * al.2.2, al.2.1 + m.dphi * m.omega + m.phi * al.2.2, 0) 0 := by
  have lin : ∀ x : ℝ, HasDerivAt (fun e : ℝ => e * x) x 0 := fun x => by
    simpa using (hasDerivAt_id (0 : ℝ)).mul_const x
  have hmu := lin m.mu
  have hphi := lin m.phi
  refine ⟨by simp [omegaDot], hasDerivAt_vec ?_ ?_ ?_⟩ <;> simp only [omegaDot]
  · exact ((lin al.1).sub (((hmu.cos.mul (lin m.dmu)).mul_const m.omega).add (hmu.sin.mul_const al.2.2))).congr_deriv
      (by simp; ring)
  · exact (((((hphi.sin.neg.mul (lin m.dphi)).mul (lin m.dmu)).add (hphi.cos.mul (lin al.2.1))).add
      ((((hmu.sin.neg.mul (lin m.dmu)).mul hphi.sin).add (hmu.cos.mul (hphi.cos.mul (lin m.dphi)))).mul_const
        m.omega)).add ((hmu.cos.mul hphi.sin).mul_const al.2.2)).congr_deriv (by simp)
  · exact ((((((hphi.cos.mul (lin m.dphi)).neg).mul (lin m.dmu)).sub (hphi.sin.mul (lin al.2.1))).add
      ((((hmu.sin.neg.mul (lin m.dmu)).mul hphi.cos).sub (hmu.cos.mul (hphi.sin.mul (lin m.dphi)))).mul_const
        m.omega)).add ((hmu.cos.mul hphi.cos).mul_const al.2.2)).congr_deriv (by simp)

theorem rateOf_slope (J : Vec3 × Vec3 × Vec3) (m : Members) (al : Vec3) :
    rateOf J m al 0 = mulVec J (0, 0, al.2.2) + cross (0, 0, m.omega) (mulVec J (0, 0, m.omega)) ∧
    HasDerivAt (rateOf J m al) (rateSlope J m al) 0 := by
  obtain ⟨hw0, hw⟩ := omegaOf_slope m
  obtain ⟨hd0, hd⟩ := omegaDot_slope m al
  have lin : ∀ x : ℝ, HasDerivAt (fun e : ℝ => e * x) x 0 := fun x => by
    simpa using (hasDerivAt_id (0 : ℝ)).mul_const x
  have hX := (hasDerivAt_mulVec (M := J) hd).add (hasDerivAt_cross hw (hasDerivAt_mulVec (M := J) hw))
  have key := rotY_deriv (lin m.mu) (rotX_deriv (lin m.phi) hX)
  have y0 : ∀ v, rotY 0 v = v := fun v => by apply vec_ext <;> simp [rotY]
  have x0 : ∀ v, rotX 0 v = v := fun v => by apply vec_ext <;> simp [rotX]
  constructor
  · simp only [rateOf, zero_mul, x0, y0, hw0, hd0]
  · refine HasDerivAt.congr_deriv key ?_
    simp only [zero_mul, x0, y0, Pi.add_apply, hw0, hd0, rateSlope]
    generalize mulVec J (0, 0, al.2.2) = a
    generalize mulVec J (0, 0, m.omega) = b
    apply vec_ext <;> simp [cross]
    ring

theorem firstOrderRate_iff {m : ℝ → Members} {t : ℝ} (h : Derivs solve c m t) {Ixx Iyy Izz Ixz : ℝ} {r : Vec3} :
    FirstOrderRate Ixx Iyy Izz Ixz m t r ↔
      r = rateOf (inertia Ixx Iyy Izz Ixz) (m t) (angularAcceleration solve c (m t) (m t).road3) 0
        + rateSlope (inertia Ixx Iyy Izz Ixz) (m t) (angularAcceleration solve c (m t) (m t).road3) := by
  constructor
  · rintro ⟨rate, d, h1, h2, h3⟩
    have e1 : rate = rateOf (inertia Ixx Iyy Izz Ixz) (m t) (angularAcceleration solve c (m t) (m t).road3) := by
      funext e
      exact rotZ_inj ((h1 e).unique (angularMomentum_deriv h Ixx Iyy Izz Ixz e))
    subst e1
    rw [h3, h2.unique (rateOf_slope _ _ _).2]
  · intro hr
    exact ⟨_, _, angularMomentum_deriv h Ixx Iyy Izz Ixz, (rateOf_slope _ _ _).2, hr⟩

/-- What the equations of the angular accelerations say. -/
theorem euler_balance (hs : Solver solve) (m : Members) (hd : ℝ) (hdet : det (eulerM c m) ≠ 0) :
    mulVec (eulerM c m) (angularAcceleration solve c m hd) + eulerLhs c m (dvdt c m hd).1 (dvdt c m hd).2.1
      = totalTorque c m hd := by
  simp only [angularAcceleration]
  rw [hs _ _ hdet]
  abel

theorem newton_balance (hm : c.mass ≠ 0) (m : Members) (hd : ℝ) :
    totalForce c m hd = c.mass • (dvdt c m hd + newtonLhs m) := by
  simp only [dvdt, neg_add_cancel_comm]
  rw [smul_smul, mul_one_div_cancel hm, one_smul]

/-- Moment about the centre of mass, rate of change of the angular momentum, and what separates them. -/
theorem moment_defect (hs : Solver solve) {h Ixx Iyy Izz Ixz : ℝ} (hc : c.Regular h Ixx Iyy Izz Ixz) (hm : c.mass ≠ 0)
    (m : Members) (hd : ℝ) (hdet : det (eulerM c m) ≠ 0) :
    moment (comPosition c m) (applied c m hd)
      = rateOf (inertia Ixx Iyy Izz Ixz) m (angularAcceleration solve c m hd) 0
        + rateSlope (inertia Ixx Iyy Izz Ixz) m (angularAcceleration solve c m hd)
        + (c.mass * m.z) • ((dvdt c m hd).2.1, m.omega * m.v, 0) := by
  rw [moment_sub, ← totalTorque_applied, ← totalForce_applied, ← euler_balance hs m hd hdet, newton_balance hm,
    (rateOf_slope _ _ _).1]
  generalize angularAcceleration solve c m hd = al
  generalize dvdt c m hd = a
  simp only [comPosition, hc.com, eulerM, eulerLhs, hc.inertia, newtonLhs, rateSlope, inertia]
  apply vec_ext <;> simp [mulVec, dot, cross] <;> ring

/-! ### Wheels -/

/-- Position, velocity and deformation of a tyre. -/
theorem wheelUpdate_kin (a : AxleK) (axle daxle : Vec3) (y h dh delta u v om omega : ℝ) :
    let o := wheelUpdate a axle daxle y h dh delta (u, v, 0) (0, 0, om) omega
    rotZ delta (o.kin.vx, o.kin.vy, daxle.2.2 + dh) = (u, v, 0) + (daxle + (0, 0, dh)) + cross (0, 0, om) (axle + (0, y, h))
      ∧ o.kin.w = axle.2.2 + h + a.susp.R0 ∧ o.Fz = a.sp (a.susp.kTire * o.kin.w + a.ct * (daxle.2.2 + dh))
      ∧ o.wheel.position = (0, y, h) := by
  refine ⟨?_, rfl, ?_, rfl⟩
  · have hv : ∀ x : Vec3, x.2.2 = daxle.2.2 + dh → rotZ delta ((rotZ (-delta) x).1, (rotZ (-delta) x).2.1,
        daxle.2.2 + dh) = x := fun x hx => by
      have := rotZ_neg delta x
      rw [← hx]
      exact this
    simp only [wheelUpdate, Tyre.updateOmega]
    rw [hv _ (by simp [cross])]
    apply vec_ext <;> simp [cross]
  · simp [wheelUpdate, Tyre.updateOmega, cross]

theorem place_deriv {m : ℝ → Members} {t : ℝ} (h : Derivs solve c m t) {x : ℝ → Vec3} {dx : Vec3}
    (hx : HasDerivAt x dx t) :
    HasDerivAt (fun s => place (m s) (x s))
      (world (m t).road3 (((m t).u, (m t).v, 0) + dx + cross (0, 0, (m t).omega) (x t))) t := by
  have hg : HasDerivAt (fun s => ground (m s)) (world (m t).road3 ((m t).u, (m t).v, 0)) t := by
    refine hasDerivAt_vec ?_ ?_ ?_ <;> simp only [ground, world, rotZ]
    · exact h.road1.congr_deriv (by simp only [cartesian]; ring)
    · exact h.road2.congr_deriv (by simp only [cartesian]; ring)
    · exact hasDerivAt_const _ _
  have key := hg.add (rotZ_deriv h.road3 hx)
  refine key.congr_deriv ?_
  simp only [world, ← rotZ_add, cartesian]
  congr 1
  abel

theorem axlePosition_deriv {m : ℝ → Members} {t : ℝ} (h : Derivs solve c m t) (x : Vec3) :
    HasDerivAt (fun s => comPosition c (m s) + axlePosition x (m s)) ((0, 0, (m t).dz) + axleVelocity x (m t)) t := by
  refine hasDerivAt_vec ?_ ?_ ?_ <;> simp only [comPosition, axlePosition, axleVelocity, Prod.fst_add, Prod.snd_add]
  · exact (hasDerivAt_const _ _).congr_deriv (by simp)
  · exact (hasDerivAt_const _ _).congr_deriv (by simp)
  · exact ((h.z.const_add _).add ((h.mu.neg.mul_const _).const_add _)).congr_deriv (by simp)

/-- The motion of a wheel whose height in the axle frame has the derivative `dhs t`. -/
theorem wheelUpdate_motion {m : ℝ → Members} {t : ℝ} (d : Derivs solve c m t) (a : AxleK) (x : Vec3) (delta y : ℝ)
    (om dhs hh : ℝ → ℝ) (hhd : HasDerivAt hh (dhs t) t) :
    let w := fun s => wheelUpdate a (comPosition c (m s) + axlePosition x (m s))
      ((0, 0, (m s).dz) + axleVelocity x (m s)) y (hh s) (dhs s) delta ((m s).u, (m s).v, 0) (0, 0, (m s).omega) (om s)
    ∃ dw, HasDerivAt (fun s => place (m s) (comPosition c (m s) + axlePosition x (m s) + (w s).wheel.position))
        (world (m t).road3 (rotZ delta ((w t).kin.vx, (w t).kin.vy, dw))) t ∧
      HasDerivAt (fun s => (w s).kin.w) dw t ∧
      (w t).Fz = a.sp (a.susp.kTire * (w t).kin.w + a.ct * dw) ∧
      (comPosition c (m t) + axlePosition x (m t) + (w t).wheel.position
        + (0, 0, a.susp.R0 - (w t).kin.w)).2.2 = 0 := by
  intro w
  have hk := fun s => wheelUpdate_kin a (comPosition c (m s) + axlePosition x (m s))
    ((0, 0, (m s).dz) + axleVelocity x (m s)) y (hh s) (dhs s) delta (m s).u (m s).v (m s).omega (om s)
  have hp := axlePosition_deriv d x
  refine ⟨((0, 0, (m t).dz) + axleVelocity x (m t)).2.2 + dhs t, ?_, ?_, (hk t).2.2.1, ?_⟩
  · have hx : HasDerivAt (fun s => comPosition c (m s) + axlePosition x (m s) + ((0, y, hh s) : Vec3))
        ((0, 0, (m t).dz) + axleVelocity x (m t) + (0, 0, dhs t)) t :=
      hp.add (hasDerivAt_vec (hasDerivAt_const _ _) (hasDerivAt_const _ _) hhd)
    have e : (fun s => place (m s) (comPosition c (m s) + axlePosition x (m s) + (w s).wheel.position))
        = fun s => place (m s) (comPosition c (m s) + axlePosition x (m s) + ((0, y, hh s) : Vec3)) := by
      funext s
      rw [(hk s).2.2.2]
    rw [e, (hk t).1]
    exact place_deriv d hx
  · have e : (fun s => (w s).kin.w) = fun s => (comPosition c (m s) + axlePosition x (m s)).2.2 + hh s + a.susp.R0 := by
      funext s
      rw [(hk s).2.1]
    rw [e]
    exact ((hasDerivAt_comp hp).2.2.add hhd).add_const _
  · rw [(hk t).2.2.2, (hk t).2.1]
    simp

theorem wheel_motion {m : ℝ → Members} {t : ℝ} (d : Derivs solve c m t) {a : AxleK} {x : Vec3} {delta : ℝ}
    {om : ℝ → ℝ} {o : ℝ → AxleOut} (ho : ∀ s, o s = axleUpdate c (m s) a x delta (om s)) :
    (∃ dw, HasDerivAt (fun s => place (m s) ((o s).position + (o s).left.wheel.position))
        (world (m t).road3 (rotZ delta ((o t).left.kin.vx, (o t).left.kin.vy, dw))) t ∧
      HasDerivAt (fun s => (o s).left.kin.w) dw t ∧
      (o t).left.Fz = a.sp (a.susp.kTire * (o t).left.kin.w + a.ct * dw) ∧
      ((o t).position + (o t).left.wheel.position + (0, 0, a.susp.R0 - (o t).left.kin.w)).2.2 = 0) ∧
    (∃ dw, HasDerivAt (fun s => place (m s) ((o s).position + (o s).right.wheel.position))
        (world (m t).road3 (rotZ delta ((o t).right.kin.vx, (o t).right.kin.vy, dw))) t ∧
      HasDerivAt (fun s => (o s).right.kin.w) dw t ∧
      (o t).right.Fz = a.sp (a.susp.kTire * (o t).right.kin.w + a.ct * dw) ∧
      ((o t).position + (o t).right.wheel.position + (0, 0, a.susp.R0 - (o t).right.kin.w)).2.2 = 0) := by
  obtain rfl : o = fun s => axleUpdate c (m s) a x delta (om s) := funext ho
  have hv := Power.C78_tyre_velocity_partial a.susp (fun s => (comPosition c (m s) + axlePosition x (m s)).2.2)
    (fun s => (m s).phi) delta (((0, 0, (m t).dz) : Vec3) + axleVelocity x (m t)).2.2 (m t).dphi t
    (hasDerivAt_comp (axlePosition_deriv d x)).2.2 d.phi
  have kl := wheelUpdate_motion d a x delta (-(1 / 2) * a.susp.track) om
    (fun s => (Power.tyreVelocity a.susp (((0, 0, (m s).dz) : Vec3) + axleVelocity x (m s)).2.2 (m s).dphi).1)
    (fun s => (Power.tyreHeight a.susp (comPosition c (m s) + axlePosition x (m s)).2.2 (m s).phi delta).1) hv.1
  have kr := wheelUpdate_motion d a x delta (1 / 2 * a.susp.track) om
    (fun s => (Power.tyreVelocity a.susp (((0, 0, (m s).dz) : Vec3) + axleVelocity x (m s)).2.2 (m s).dphi).2)
    (fun s => (Power.tyreHeight a.susp (comPosition c (m s) + axlePosition x (m s)).2.2 (m s).phi delta).2) hv.2
  simp only [axleUpdate]
  exact ⟨kl, kr⟩

/-- The height of a steered tyre while everything changes. -/
theorem tyreHeight_deriv (a : Power.Axle6) (ha : a.steering = true) {z phi delta : ℝ → ℝ} {dz dphi ddelta t : ℝ}
    (hz : HasDerivAt z dz t) (hp : HasDerivAt phi dphi t) (hd : HasDerivAt delta ddelta t) :
    HasDerivAt (fun s => (Power.tyreHeight a (z s) (phi s) (delta s)).2)
      ((Power.tyreVelocity a dz dphi).2
        + (a.kChassis * Power.symK a + Power.asymK a) * (a.betaR * ddelta)) t := by
  have hs : HasDerivAt (fun t => Power.displSym a (z t)) dz t := hz.add_const _
  have ha' : HasDerivAt (fun t => Power.displAsym a (phi t) (delta t))
      (1 / 2 * a.track * dphi + a.betaR * ddelta) t := by
    simp only [Power.displAsym, ha, if_true]
    exact (hp.const_mul _).add (hd.const_mul _)
  refine ((((((hs.add ha').const_mul (a.kChassis * Power.symK a)).add (ha'.mul_const (Power.asymK a))).sub hs).sub
      ha').add (hp.mul_const (1 / 2 * a.track))).add (hd.const_mul a.betaR) |>.congr_deriv ?_
  simp only [Power.tyreVelocity, Power.chassisDeformation, Power.tyreDeformation, Power.displRates]
  ring

/-! ### Steady state -/

/-- The kart in a steady state. -/
noncomputable def steadyMembers (x : Nat → ℝ) (ay V : ℝ) : Members :=
  { omegaAxle := (x 0 + 1) * V / (139 / 1000), u := V * cos (x 4), v := -V * sin (x 4), omega := ay / V
    z := x 1, phi := x 2, mu := x 3, dz := 0, dphi := 0, dmu := 0, steering := x 5, throttle := 0
    road1 := 0, road2 := 0, road3 := x 4 }

theorem setState_steady (junkQ junkU x : Nat → ℝ) (ay V : ℝ) :
    setState (F1.written junkQ (steadyInputs x ay V)) (F1.written junkU (steadyControls x)) = steadyMembers x ay V := by
  simp [setState, steadyInputs, steadyControls, F1.written, steadyMembers, iAxle, iChassis, iBody, iRoad, cSteering,
    cTorque]

end Verif.Kart
