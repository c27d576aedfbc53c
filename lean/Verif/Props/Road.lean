import Verif.Lemmas.Road

/-! Property theorems C41, C42, C43, C73: roads. -/

set_option autoImplicit false

namespace Verif.Road

open Real

/-! ### C42 -/

/-- Tangent, normal and binormal are orthonormal and right-handed, for all Euler angles. -/
theorem C42_orthonormal (f : TrackPoint) :
    dot (tangent f) (tangent f) = 1 ∧ dot (normal f) (normal f) = 1 ∧
    dot (binormal f) (binormal f) = 1 ∧ dot (tangent f) (normal f) = 0 ∧
    dot (tangent f) (binormal f) = 0 ∧ dot (normal f) (binormal f) = 0 ∧
    cross (tangent f) (normal f) = binormal f := by
  have ht := sin_sq_add_cos_sq f.yaw
  have hm := sin_sq_add_cos_sq f.pitch
  have hr := sin_sq_add_cos_sq f.roll
  refine ⟨?_, ?_, ?_, ?_, ?_, ?_, ?_⟩
  · simp only [dot, tangent]
    linear_combination cos f.pitch ^ 2 * ht + hm
  · simp only [dot, normal]
    linear_combination (sin f.pitch ^ 2 * sin f.roll ^ 2 + cos f.roll ^ 2) * ht
      + sin f.roll ^ 2 * hm + hr
  · simp only [dot, binormal]
    linear_combination (sin f.pitch ^ 2 * cos f.roll ^ 2 + sin f.roll ^ 2) * ht
      + cos f.roll ^ 2 * hm + hr
  · simp only [dot, tangent, normal]
    linear_combination cos f.pitch * sin f.pitch * sin f.roll * ht
  · simp only [dot, tangent, binormal]
    linear_combination cos f.pitch * sin f.pitch * cos f.roll * ht
  · simp only [dot, normal, binormal]
    linear_combination (sin f.pitch ^ 2 - 1) * sin f.roll * cos f.roll * ht
      + sin f.roll * cos f.roll * hm
  · simp only [cross, tangent, normal, binormal]
    refine Prod.ext ?_ (Prod.ext ?_ ?_) <;> dsimp only
    · linear_combination sin f.yaw * sin f.roll * hm
    · linear_combination -cos f.yaw * sin f.roll * hm
    · linear_combination cos f.pitch * cos f.roll * ht

example : cross (tangent ⟨0, 1, 2, 3, 0, 0, 0⟩) (normal ⟨0, 1, 2, 3, 0, 0, 0⟩)
    = binormal ⟨0, 1, 2, 3, 0, 0, 0⟩ := (C42_orthonormal _).2.2.2.2.2.2

/-- The normal of a road without roll is horizontal, and on a flat road the frame is the heading of the
road in the plane with a vertical binormal. -/
theorem C42_flat (f : TrackPoint) (hp : f.pitch = 0) (hr : f.roll = 0) :
    tangent f = (cos f.yaw, sin f.yaw, 0) ∧ normal f = (-sin f.yaw, cos f.yaw, 0) ∧
    binormal f = (0, 0, 1) := by
  refine ⟨?_, ?_, ?_⟩ <;> simp [tangent, normal, binormal, hp, hr]

/-! ### C73: the curvature vector is the rotation of the road frame -/

/-- If the Euler angles of the road vary with the reported derivatives, then each vector of the road
frame varies as the cross product of the curvature vector (in the road frame) with it: the curvature
vector is the rotation of the frame per unit of arclength. -/
theorem C73_curvature_rotates_frame (F : ℝ → TrackPoint) (s : ℝ)
    (hyaw : HasDerivAt (fun s => (F s).yaw) (F s).dyaw s)
    (hpitch : HasDerivAt (fun s => (F s).pitch) (F s).dpitch s)
    (hroll : HasDerivAt (fun s => (F s).roll) (F s).droll s) :
    let w := (curvature (F s)).1 • tangent (F s) + (curvature (F s)).2.1 • normal (F s)
      + (curvature (F s)).2.2 • binormal (F s)
    HasDerivAt (fun s => tangent (F s)) (cross w (tangent (F s))) s ∧
    HasDerivAt (fun s => normal (F s)) (cross w (normal (F s))) s ∧
    HasDerivAt (fun s => binormal (F s)) (cross w (binormal (F s))) s := by
  intro w
  have h : AnglesDeriv F s := ⟨hyaw, hpitch, hroll⟩
  obtain ⟨htt, hnn, hbb, htn, htb, hnb, hx⟩ := C42_orthonormal (F s)
  have e1 : cross (tangent (F s)) (normal (F s)) = binormal (F s) := hx
  have dbl : ∀ a b c : Vec3, cross a (cross b c) = dot a c • b - dot a b • c := by
    intro a b c
    refine Prod.ext ?_ (Prod.ext ?_ ?_) <;>
      simp only [cross, dot, Prod.fst_sub, Prod.snd_sub, Prod.smul_fst, Prod.smul_snd, smul_eq_mul] <;> ring
  have anti : ∀ a b : Vec3, cross a b = -cross b a := by
    intro a b
    refine Prod.ext ?_ (Prod.ext ?_ ?_) <;> simp only [cross, Prod.fst_neg, Prod.snd_neg] <;> ring
  have self : ∀ a : Vec3, cross a a = 0 := by
    intro a
    refine Prod.ext ?_ (Prod.ext ?_ ?_) <;> simp only [cross, Prod.fst_zero, Prod.snd_zero] <;> ring
  have e2 : cross (normal (F s)) (binormal (F s)) = tangent (F s) := by
    rw [← e1, dbl, hnn, dot_comm, htn]; simp
  have e3 : cross (binormal (F s)) (tangent (F s)) = normal (F s) := by
    rw [anti, ← e1, dbl, htt, htn]; simp
  have lin : ∀ (x y z : ℝ) (a b c d : Vec3),
      cross (x • a + y • b + z • c) d = x • cross a d + y • cross b d + z • cross c d := by
    intro x y z a b c d
    refine Prod.ext ?_ (Prod.ext ?_ ?_) <;>
      simp only [cross, Prod.fst_add, Prod.snd_add, Prod.smul_fst, Prod.smul_snd, smul_eq_mul] <;> ring
  refine ⟨(tangent_deriv h).congr_deriv ?_, (normal_deriv h).congr_deriv ?_,
    (binormal_deriv h).congr_deriv ?_⟩
  · rw [lin, self, anti (normal (F s)) (tangent (F s)), e1, e3]
    simp [sub_eq_add_neg, add_comm]
  · rw [lin, e1, self, anti (binormal (F s)) (normal (F s)), e2]
    simp [sub_eq_add_neg]
  · rw [lin, anti (tangent (F s)) (binormal (F s)), e3, e2, self]
    simp [sub_eq_add_neg, add_comm]

/-- A helix-like road whose three angles vary. -/
noncomputable def exRoad : ℝ → TrackPoint := fun s => ⟨(s, 0, 0), s / 100, s / 200, s / 50, 1 / 100, 1 / 200, 1 / 50⟩

example : HasDerivAt (fun s => tangent (exRoad s)) (cross
    ((curvature (exRoad 3)).1 • tangent (exRoad 3) + (curvature (exRoad 3)).2.1 • normal (exRoad 3)
      + (curvature (exRoad 3)).2.2 • binormal (exRoad 3)) (tangent (exRoad 3))) 3 :=
  (C73_curvature_rotates_frame exRoad 3 ((hasDerivAt_id (3 : ℝ)).div_const 100)
    ((hasDerivAt_id (3 : ℝ)).div_const 200) ((hasDerivAt_id (3 : ℝ)).div_const 50)).1

/-! ### C41 -/

/-- A car whose arclength, lateral displacement and relative heading vary at the rates computed by
the road model (`S' = 1/dtimeds`, `N' = nDot`, `A' = alphaDot`), on a road whose position and angles
vary with its tangent and angle derivatives, moves with exactly its body velocity: `u` forwards, `v`
sideways, and the computed vertical velocity of the ground along the binormal; and it turns in the plane
of the road at exactly its yaw rate. The car must not be at the centre of curvature of the road (`h2`,
where the division by time per metre is by zero); when the car moves across the road time per metre is
infinite in C++ and zero in the model, and its inverse is zero in both. -/
theorem C41_moves_with_the_car (F : ℝ → TrackPoint) (S N A U V W : ℝ → ℝ) (tau : ℝ)
    (hpos : HasDerivAt (fun s => (F s).position) (tangent (F (S tau))) (S tau))
    (hyaw : HasDerivAt (fun s => (F s).yaw) (F (S tau)).dyaw (S tau))
    (hpitch : HasDerivAt (fun s => (F s).pitch) (F (S tau)).dpitch (S tau))
    (hroll : HasDerivAt (fun s => (F s).roll) (F (S tau)).droll (S tau))
    (h2 : 1 - N tau * (curvature (F (S tau))).2.2 ≠ 0)
    (hS : HasDerivAt S (1 / (update (F (S tau)) (N tau) (A tau) (U tau) (V tau) (W tau)).dtimeds) tau)
    (hN : HasDerivAt N (update (F (S tau)) (N tau) (A tau) (U tau) (V tau) (W tau)).nDot tau)
    (hA : HasDerivAt A (update (F (S tau)) (N tau) (A tau) (U tau) (V tau) (W tau)).alphaDot tau) :
    HasDerivAt (fun t => (update (F (S t)) (N t) (A t) (U t) (V t) (W t)).position)
      (U tau • forward (F (S tau)) (A tau) + V tau • sideways (F (S tau)) (A tau)
        + (update (F (S tau)) (N tau) (A tau) (U tau) (V tau) (W tau)).groundVz • binormal (F (S tau)))
      tau ∧
    ∃ X, HasDerivAt (fun t => forward (F (S t)) (A t)) X tau ∧
      dot X (sideways (F (S tau)) (A tau)) = W tau ∧ dot X (forward (F (S tau)) (A tau)) = 0 := by
  have h : AnglesDeriv F (S tau) := ⟨hyaw, hpitch, hroll⟩
  set f := F (S tau) with hf
  set kap := curvature f with hkap
  set c := U tau * cos (A tau) - V tau * sin (A tau) with hc
  have hdt : (update f (N tau) (A tau) (U tau) (V tau) (W tau)).dtimeds
      = (1 - N tau * kap.2.2) / c := rfl
  have hnd : (update f (N tau) (A tau) (U tau) (V tau) (W tau)).nDot
      = U tau * sin (A tau) + V tau * cos (A tau) := rfl
  have had : (update f (N tau) (A tau) (U tau) (V tau) (W tau)).alphaDot
      = W tau - kap.2.2 / ((1 - N tau * kap.2.2) / c) := rfl
  have hgz : (update f (N tau) (A tau) (U tau) (V tau) (W tau)).groundVz
      = N tau * kap.1 / ((1 - N tau * kap.2.2) / c) := rfl
  rw [hdt] at hS; rw [hnd] at hN; rw [had] at hA; rw [hgz]
  have hp := hpos.scomp tau hS
  have ht := (tangent_deriv h).scomp tau hS
  have hn := (normal_deriv h).scomp tau hS
  constructor
  · have key := hp.add (hN.smul hn)
    refine (key.congr_deriv ?_)
    rw [← hkap, ← hf]
    simp only [forward, sideways, Function.comp]
    rw [← hf]
    refine Prod.ext ?_ (Prod.ext ?_ ?_) <;>
      simp only [Prod.fst_add, Prod.snd_add, Prod.fst_sub, Prod.snd_sub, Prod.smul_fst, Prod.smul_snd,
        smul_eq_mul, one_div_div] <;>
      (rw [div_div_eq_mul_div]; field_simp; rw [hc]; ring)
  · have key := (hA.cos.smul ht).add (hA.sin.smul hn)
    refine ⟨_, key, ?_, ?_⟩
    all_goals
      obtain ⟨htt, hnn, hbb, htn, htb, hnb, -⟩ := C42_orthonormal f
      have hnt : dot (normal f) (tangent f) = 0 := by rw [dot_comm]; exact htn
      have hbt : dot (binormal f) (tangent f) = 0 := by rw [dot_comm]; exact htb
      have hbn : dot (binormal f) (normal f) = 0 := by rw [dot_comm]; exact hnb
      have hcs := sin_sq_add_cos_sq (A tau)
      rw [← hkap, ← hf]
      simp only [forward, sideways, Function.comp]
      rw [← hf]
      simp only [dot_add, dot_sub, dot_smul, dot_add', dot_smul', htt, hnn, htn, hnt, hbt, hbn]
    · rw [one_div_div, div_div_eq_mul_div]
      linear_combination W tau * hcs
    · rw [one_div_div, div_div_eq_mul_div]
      ring

/-- A flat circle of radius 100. -/
noncomputable def exCircle : ℝ → TrackPoint := fun s =>
  ⟨(100 * sin (s / 100), 100 * (1 - cos (s / 100)), 0), s / 100, 0, 0, 1 / 100, 0, 0⟩

/-- Driving at 10 m/s along the circle, displaced by 5 m. -/
example : HasDerivAt (fun t => (update (exCircle (10 / (95 / 100) * t)) 5 0 10 0 (10 / 95)).position)
    ((10 : ℝ) • forward (exCircle (10 / (95 / 100) * 2)) 0
      + (0 : ℝ) • sideways (exCircle (10 / (95 / 100) * 2)) 0
      + (update (exCircle (10 / (95 / 100) * 2)) 5 0 10 0 (10 / 95)).groundVz •
        binormal (exCircle (10 / (95 / 100) * 2))) 2 := by
  have hd : ∀ s : ℝ, HasDerivAt (fun s : ℝ => s / 100) (1 / 100) s := fun s =>
    (hasDerivAt_id s).div_const 100
  refine (C41_moves_with_the_car exCircle (fun t => 10 / (95 / 100) * t) (fun _ => 5) (fun _ => 0)
    (fun _ => 10) (fun _ => 0) (fun _ => 10 / 95) 2 ?_ (hd _) (hasDerivAt_const _ _)
    (hasDerivAt_const _ _) ?_ ?_ ?_ ?_).1
  · refine (((hd _).sin.const_mul 100).prodMk ((((hd _).cos.const_sub 1).const_mul 100).prodMk
      (hasDerivAt_const _ 0))).congr_deriv ?_
    simp [tangent, exCircle]; constructor <;> ring
  · simp [curvature, exCircle]; norm_num
  · refine ((hasDerivAt_id (2 : ℝ)).const_mul (10 / (95 / 100))).congr_deriv ?_
    simp [update, curvature, exCircle]; norm_num
  · refine (hasDerivAt_const _ _).congr_deriv ?_
    simp [update]
  · refine (hasDerivAt_const _ _).congr_deriv ?_
    simp [update, curvature, exCircle]; norm_num

/-- The arclength advances (time per metre is positive) exactly when, the car being on the inner side
of the centre of curvature, its velocity has a positive component along the road. -/
theorem C41_advances_iff (f : TrackPoint) (n alpha u v omega : ℝ)
    (h : 0 < 1 - n * (curvature f).2.2) :
    0 < (update f n alpha u v omega).dtimeds ↔
      0 < dot (u • forward f alpha + v • sideways f alpha) (tangent f) := by
  obtain ⟨htt, hnn, hbb, htn, htb, hnb, -⟩ := C42_orthonormal f
  have hnt : dot (normal f) (tangent f) = 0 := by rw [dot_comm]; exact htn
  have e : dot (u • forward f alpha + v • sideways f alpha) (tangent f)
      = u * cos alpha - v * sin alpha := by
    simp only [forward, sideways, dot_add, dot_smul, htt, hnt]; ring
  rw [e]
  simp only [update]
  exact div_pos_iff_of_pos_left h

/-- On a flat road the heading reported is that of the car. -/
theorem C41_flat_heading (f : TrackPoint) (hp : f.pitch = 0) (hr : f.roll = 0)
    (n alpha u v omega : ℝ) :
    forward f alpha = (cos (update f n alpha u v omega).psi, sin (update f n alpha u v omega).psi, 0) := by
  obtain ⟨h1, h2, -⟩ := C42_flat f hp hr
  rw [forward, h1, h2]
  simp only [update]
  refine Prod.ext ?_ (Prod.ext ?_ ?_)
  · simp [cos_add]; ring
  · simp [sin_add]; ring
  · simp

/-- The rates of the Euler angles seen by the car are their rates along the road times the speed. -/
theorem C41_euler_rates (F : ℝ → TrackPoint) (S : ℝ → ℝ) (tau n alpha u v omega : ℝ)
    (hyaw : HasDerivAt (fun s => (F s).yaw) (F (S tau)).dyaw (S tau))
    (hpitch : HasDerivAt (fun s => (F s).pitch) (F (S tau)).dpitch (S tau))
    (hroll : HasDerivAt (fun s => (F s).roll) (F (S tau)).droll (S tau))
    (hS : HasDerivAt S (1 / (update (F (S tau)) n alpha u v omega).dtimeds) tau) :
    HasDerivAt (fun t => (((F (S t)).yaw, (F (S t)).pitch, (F (S t)).roll) : Vec3))
      (eulerAnglesDot (F (S tau)) (update (F (S tau)) n alpha u v omega)) tau := by
  have h1 := hyaw.comp tau hS
  have h2 := hpitch.comp tau hS
  have h3 := hroll.comp tau hS
  refine (h1.prodMk (h2.prodMk h3)).congr_deriv ?_
  simp only [eulerAnglesDot, mul_one_div]

/-! ### C43 -/

/-- The ground speed on the cartesian road is that of the car, the heading turns at the yaw rate, and
turning the car by `a` turns its ground velocity by `a`. -/
theorem C43_cartesian (psi u v omega a : ℝ) :
    (cartesian psi u v omega).1 ^ 2 + (cartesian psi u v omega).2.1 ^ 2 = u ^ 2 + v ^ 2 ∧
    (cartesian psi u v omega).2.2 = omega ∧
    (cartesian (psi + a) u v omega).1 =
      cos a * (cartesian psi u v omega).1 - sin a * (cartesian psi u v omega).2.1 ∧
    (cartesian (psi + a) u v omega).2.1 =
      sin a * (cartesian psi u v omega).1 + cos a * (cartesian psi u v omega).2.1 ∧
    (cartesian 0 u v omega).1 = u ∧ (cartesian 0 u v omega).2.1 = v := by
  have h := sin_sq_add_cos_sq psi
  refine ⟨?_, rfl, ?_, ?_, ?_, ?_⟩
  · simp only [cartesian]; linear_combination (u ^ 2 + v ^ 2) * h
  · simp only [cartesian, cos_add, sin_add]; ring
  · simp only [cartesian, cos_add, sin_add]; ring
  · simp [cartesian]
  · simp [cartesian]

example : (cartesian 1 3 4 0).1 ^ 2 + (cartesian 1 3 4 0).2.1 ^ 2 = 25 := by
  rw [(C43_cartesian 1 3 4 0 0).1]; norm_num

end Verif.Road
