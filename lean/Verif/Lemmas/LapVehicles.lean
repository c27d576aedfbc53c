import Verif.Spec.LapVehicles
import Verif.Props.F1Dynamics
import Verif.Props.KartMirror
import Verif.Props.LapSolve

/-! Lemmas for the two vehicles in the applications. -/

set_option autoImplicit false

namespace Verif.LapVehicles

open Verif.Road Verif.Chassis

theorem update_flat {f : TrackPoint} (hf : F1.Flat f) (n a u v om : ℝ) :
    (Road.update f n a u v om).dtimeds = pace f n a u v ∧
    (Road.update f n a u v om).nDot = u * Real.sin a + v * Real.cos a ∧
    (Road.update f n a u v om).alphaDot = om - f.dyaw / pace f n a u v := by
  simp [Road.update, pace, curvature, hf.pitch, hf.roll, hf.dpitch]

theorem roadPace_flat {f : TrackPoint} (hf : F1.Flat f) (q : Nat → ℝ) : roadPace f q = f1Pace f q := by
  simp [roadPace, f1Pace, pace, curvature, hf.pitch, hf.roll, hf.dpitch]

theorem road_flat {f : TrackPoint} (hf : F1.Flat f) (c : F1.Car) (q u : Nat → ℝ) :
    (F1.roadCurvilinear f (F1.setState c q u)).omega = (0, 0, q 6) ∧
    (F1.roadCurvilinear f (F1.setState c q u)).groundVz = 0 ∧
    (F1.roadCurvilinear f (F1.setState c q u)).dtimeds = f1Pace f q ∧
    (F1.roadCurvilinear f (F1.setState c q u)).rates =
      (1, q 4 * Real.sin (q 13) + q 5 * Real.cos (q 13), q 6 - f.dyaw / f1Pace f q) := by
  obtain ⟨h1, h2, h3⟩ := update_flat hf (q 12) (q 13) (q 4) (q 5) (q 6)
  refine ⟨?_, ?_, h1, ?_⟩
  · apply vec_ext <;>
      simp [F1.roadCurvilinear, omegaBody, rotZ, Road.update, eulerAnglesDot, curvature, hf.pitch, hf.roll, hf.dpitch,
        hf.droll, F1.setState, F1.chassisStart, F1.rearStart, F1.frontStart]
  · simp [F1.roadCurvilinear, Road.update, curvature, hf.pitch, hf.droll]
  · show ((1 : ℝ), (Road.update f (q 12) (q 13) (q 4) (q 5) (q 6)).nDot,
      (Road.update f (q 12) (q 13) (q 4) (q 5) (q 6)).alphaDot) = _
    rw [h2, h3]
    rfl

/-- The outputs of the F1 car on a flat road. -/
theorem f1_chassis {f : TrackPoint} (hf : F1.Flat f) (c : F1.Car) (q u : Nat → ℝ) :
    let o := (f1Out c f q u).chassis
    o.comVelocity = (q 4, q 5, 0) ∧
    o.comVelocityDot = (o.force.1 / c.chassis.mass + q 5 * q 6, o.force.2.1 / c.chassis.mass - q 4 * q 6,
      o.force.2.2 / c.chassis.mass) ∧
    o.yawRateDot = o.torque.2.2 / c.chassis.I.2.2.2.2 ∧ o.rollMomentumDot = o.torque.1 ∧
    o.pitchMomentumDot = o.torque.2.1 := by
  obtain ⟨h1, h2, -, -⟩ := road_flat hf c q u
  intro o
  have e4 : (F1.setState c q u).u = q 4 := rfl
  have e5 : (F1.setState c q u).v = q 5 := rfl
  have e6 : (F1.setState c q u).omega = q 6 := rfl
  refine ⟨?_, ?_, ?_, ?_, ?_⟩
  · apply vec_ext <;> simp [o, f1Out, F1.carUpdate, Chassis.update, h1, h2, e4, e5]
  · apply vec_ext <;> simp [o, f1Out, F1.carUpdate, Chassis.update, h1, h2, e4, e5, e6]
  · simp [o, f1Out, F1.carUpdate, Chassis.update, h1]
  · simp [o, f1Out, F1.carUpdate, Chassis.update, h1]
  · simp [o, f1Out, F1.carUpdate, Chassis.update, h1]

section
variable (car : ℝ → F1.Car) (power : ℝ) (t : Circuit) (q : Nat → ℝ) (u : List ℝ) (s : ℝ)

theorem f1_time : (f1Eval car power t q u s).dstates 11 = (F1.roadCurvilinear (t.at_ s) (F1.setState (car s) q (arrayOf u))).dtimeds := by
  show (1 : ℝ) * _ = _
  rw [one_mul]

theorem f1_rows (hf : F1.Flat (t.at_ s)) (hp : f1Pace (t.at_ s) q ≠ 0) :
    let c := car s
    let o := f1Out c (t.at_ s) q (arrayOf u)
    let P := f1Pace (t.at_ s) q
    let e := f1Eval car power t q u s
    (e.states 4 = q 4 ∧ e.dstates 4 = (o.chassis.force.1 / c.chassis.mass + q 5 * q 6) * P) ∧
    (e.states 5 = q 5 ∧ e.dstates 5 = (o.chassis.force.2.1 / c.chassis.mass - q 4 * q 6) * P) ∧
    (e.states 6 = q 6 ∧ e.dstates 6 = o.chassis.torque.2.2 / c.chassis.I.2.2.2.2 * P) ∧
    (e.states 12 = q 12 ∧ e.dstates 12 = (q 4 * Real.sin (q 13) + q 5 * Real.cos (q 13)) * P) ∧
    (e.states 13 = q 13 ∧ e.dstates 13 = q 6 * P - (t.at_ s).dyaw) ∧
    e.dstates 7 = o.chassis.force.2.2 / c.chassis.mass / c.chassis.g0 * P ∧
    e.dstates 8 = o.chassis.torque.1 / (c.chassis.g0 * c.chassis.mass) * P ∧
    e.dstates 9 = o.chassis.torque.2.1 / (c.chassis.g0 * c.chassis.mass) * P ∧
    e.dstates 10 = o.chassis.rollBalance / (c.chassis.g0 * c.chassis.mass) * P ∧
    e.dstates 11 = P := by
  intro c o P e
  obtain ⟨-, -, h3, h4⟩ := road_flat hf c q (arrayOf u)
  obtain ⟨g1, g2, g3, g4, g5⟩ := f1_chassis hf c q (arrayOf u)
  have hr1 : (F1.roadCurvilinear (t.at_ s) (F1.setState c q (arrayOf u))).rates.2.1 =
    q 4 * Real.sin (q 13) + q 5 * Real.cos (q 13) := by rw [h4]
  have hr2 : (F1.roadCurvilinear (t.at_ s) (F1.setState c q (arrayOf u))).rates.2.2 =
    q 6 - (t.at_ s).dyaw / P := by rw [h4]
  refine ⟨⟨?_, ?_⟩, ⟨?_, ?_⟩, ⟨rfl, ?_⟩, ⟨rfl, ?_⟩, ⟨rfl, ?_⟩, ?_, ?_, ?_, ?_, ?_⟩
  · exact congrArg Prod.fst g1
  · show o.chassis.comVelocityDot.1 * (F1.roadCurvilinear _ _).dtimeds = _
    rw [h3, g2]
  · exact congrArg (fun x => x.2.1) g1
  · show o.chassis.comVelocityDot.2.1 * (F1.roadCurvilinear _ _).dtimeds = _
    rw [h3, g2]
  · show o.chassis.yawRateDot * (F1.roadCurvilinear _ _).dtimeds = _
    rw [h3, g3]
  · show (F1.roadCurvilinear (t.at_ s) (F1.setState c q (arrayOf u))).rates.2.1 * (F1.roadCurvilinear (t.at_ s) (F1.setState c q (arrayOf u))).dtimeds = _
    rw [h3, hr1]
  · show (F1.roadCurvilinear (t.at_ s) (F1.setState c q (arrayOf u))).rates.2.2 * (F1.roadCurvilinear (t.at_ s) (F1.setState c q (arrayOf u))).dtimeds = _
    rw [h3, hr2, sub_mul, div_mul_cancel₀ _ hp]
  · show o.chassis.comVelocityDot.2.2 / _ * (F1.roadCurvilinear _ _).dtimeds = _
    rw [h3, g2]
  · show o.chassis.rollMomentumDot / _ * (F1.roadCurvilinear _ _).dtimeds = _
    rw [h3, g4]
  · show o.chassis.pitchMomentumDot / _ * (F1.roadCurvilinear _ _).dtimeds = _
    rw [h3, g5]
  · show o.chassis.rollBalance / _ * (F1.roadCurvilinear _ _).dtimeds = _
    rw [h3]
  · rw [f1_time, h3]

/-- The index of a wheel. -/
def cornerIndex : Kart.Corner → Nat
  | .frontLeft => 0
  | .frontRight => 1
  | .rearLeft => 2
  | .rearRight => 3

theorem f1_wheel_rows (k : Kart.Corner) (w : F1.WheelOut × ℝ × ℝ)
    (hw : f1Wheel (car s) (f1Out (car s) (t.at_ s) q (arrayOf u)) k = w) (hI : 1 / 10 ^ 10 ≤ w.2.2) :
    (f1Eval car power t q u s).states (cornerIndex k) = (spin w).1 ∧
    (f1Eval car power t q u s).dstates (cornerIndex k) = (spin w).2 * roadPace (t.at_ s) q := by
  have h3 : (F1.roadCurvilinear (t.at_ s) (F1.setState (car s) q (arrayOf u))).dtimeds = roadPace (t.at_ s) q := rfl
  subst hw
  have hs (p : F1.AxleP) (m : ℝ) (h : 1 / 10 ^ 10 ≤ p.I) : F1.scaling p m = 1 := if_neg (not_lt.2 h)
  cases k
  all_goals
    refine ⟨?_, ?_⟩
    · first
      | (show _ * _ * F1.scaling (car s).front _ = _; rw [hs _ _ hI, mul_one, mul_comm]; rfl)
      | (show _ * _ * F1.scaling (car s).rear _ = _; rw [hs _ _ hI, mul_one, mul_comm]; rfl)
    · rw [← h3]
      first
      | (show _ * F1.scaling (car s).front _ * _ = _; rw [hs _ _ hI, mul_one])
      | (show _ * F1.scaling (car s).rear _ * _ = _; rw [hs _ _ hI, mul_one])
      congr 1
      simp only [spin, f1Wheel, f1Out, F1.carUpdate, F1.axleUpdate, Tyre.wheelTorque]
      ring

end

theorem f1_vertical {f : TrackPoint} (hf : F1.Flat f) (c : F1.Car) (q u : Nat → ℝ) :
    (f1Out c f q u).chassis.force.2.2 = c.chassis.mass * c.chassis.g0 + (aeroForce c.chassis (f1Out c f q u).input).2.2
      - ((f1Out c f q u).front.left.Fz + (f1Out c f q u).front.right.Fz + (f1Out c f q u).rear.left.Fz
        + (f1Out c f q u).rear.right.Fz) := by
  have hp : (F1.roadCurvilinear f (F1.setState c q u)).att = ⟨f.yaw, f.pitch, f.roll, q 13⟩ := rfl
  show ((F1.axleUpdate _ _ _ _ _ _ _ _ _ _).forces.1 + (F1.axleUpdate _ _ _ _ _ _ _ _ _ _).forces.1 + aeroForce _ _
    + gravity _ _ (F1.roadCurvilinear f (F1.setState c q u)).att).2.2 = _
  simp only [Prod.snd_add, F1.axleUpdate, axleForces, rotZ, F1.wheelUpdate, Tyre.forceTorque, gravity, hp, hf.pitch,
    hf.roll, Real.cos_zero, mul_one, f1Out, F1.carUpdate]
  ring

theorem f1_share (c : F1.Car) (f : TrackPoint) (q u : Nat → ℝ) :
    (f1Out c f q u).chassis.rollBalance =
      (q 8 - q 7 - c.chassis.rollBalance * (q 8 + q 10 - q 7 - q 9)) * (c.chassis.g0 * c.chassis.mass) := by
  show ((F1.setState c q u).fr - (F1.setState c q u).fl) * (1 - c.chassis.rollBalance)
    + ((F1.setState c q u).rl - (F1.setState c q u).rr) * c.chassis.rollBalance = _
  simp only [F1.setState, F1.loadStart, F1.chassisStart, F1.rearStart, F1.frontStart, Nat.reduceAdd]
  ring

/-- The conditions at a node from the extra constraints. -/
theorem f1_limits (car : ℝ → F1.Car) (power : ℝ) (t : Circuit) (q : Nat → ℝ) (u : List ℝ) (s tol : ℝ)
    (he : ∀ k, k < 6 → (F1.extraBounds (car s) (t.left s) (t.right s)).1.getD k 0 - tol ≤ (f1Eval car power t q u s).extra k ∧
      (f1Eval car power t q u s).extra k ≤ (F1.extraBounds (car s) (t.left s) (t.right s)).2.getD k 0 + tol) :
    F1Limits tol (car s) (t.at_ s) (t.left s) (t.right s) q (arrayOf u) := by
  refine ⟨?_, ?_⟩
  · intro w hw
    simp only [List.mem_cons, List.not_mem_nil, or_false] at hw
    rcases hw with rfl | rfl | rfl | rfl
    · have h := he 0 (by norm_num)
      exact abs_le.2 ⟨by have := h.1; simp only [F1.extraBounds, List.getD_cons_zero] at this; rw [neg_add]; exact this, h.2⟩
    · have h := he 1 (by norm_num)
      exact abs_le.2 ⟨by have := h.1; simp only [F1.extraBounds, List.getD_cons_zero, List.getD_cons_succ] at this; rw [neg_add]; exact this, h.2⟩
    · have h := he 2 (by norm_num)
      exact abs_le.2 ⟨by have := h.1; simp only [F1.extraBounds, List.getD_cons_zero, List.getD_cons_succ] at this; rw [neg_add]; exact this, h.2⟩
    · have h := he 3 (by norm_num)
      exact abs_le.2 ⟨by have := h.1; simp only [F1.extraBounds, List.getD_cons_zero, List.getD_cons_succ] at this; rw [neg_add]; exact this, h.2⟩
  · intro y hy
    have h4 : -t.left s - tol ≤ q 12 + 1 / 2 * (car s).front.track * Real.cos (q 13) ∧
      q 12 + 1 / 2 * (car s).front.track * Real.cos (q 13) ≤ t.right s + tol := he 4 (by norm_num)
    have h5 : -t.left s - tol ≤ q 12 - 1 / 2 * (car s).front.track * Real.cos (q 13) ∧
      q 12 - 1 / 2 * (car s).front.track * Real.cos (q 13) ≤ t.right s + tol := he 5 (by norm_num)
    simp only [List.mem_cons, List.not_mem_nil, or_false] at hy
    simp only [F1.lateral]
    rcases hy with rfl | rfl
    · constructor <;> linarith [h4.1, h4.2]
    · constructor <;> linarith [h5.1, h5.2]

/-- The conditions at a node from the algebraic equations and the extra constraints. -/
theorem f1_node (car : ℝ → F1.Car) (power : ℝ) (t : Circuit) (q : Nat → ℝ) (u : List ℝ) (s tol : ℝ)
    (hf : F1.Flat (t.at_ s)) (hp : f1Pace (t.at_ s) q ≠ 0) (hg : 0 < (car s).chassis.g0)
    (hm : 0 < (car s).chassis.mass)
    (ha : ∀ k ∈ [7, 8, 9, 10], |(f1Eval car power t q u s).dstates k / (f1Eval car power t q u s).dstates 11| ≤ tol)
    (he : ∀ k, k < 6 → (F1.extraBounds (car s) (t.left s) (t.right s)).1.getD k 0 - tol ≤ (f1Eval car power t q u s).extra k ∧
      (f1Eval car power t q u s).extra k ≤ (F1.extraBounds (car s) (t.left s) (t.right s)).2.getD k 0 + tol) :
    F1Node tol (car s) (t.at_ s) (t.left s) (t.right s) q (arrayOf u) := by
  obtain ⟨-, -, -, -, -, r7, r8, r9, r10, r11⟩ := f1_rows car power t q u s hf hp
  have hgm : 0 < (car s).chassis.g0 * (car s).chassis.mass := mul_pos hg hm
  have key (k : Nat) (hk : k ∈ [7, 8, 9, 10]) (x : ℝ)
      (hx : (f1Eval car power t q u s).dstates k = x / ((car s).chassis.g0 * (car s).chassis.mass) * f1Pace (t.at_ s) q) :
      |x| ≤ tol * ((car s).chassis.g0 * (car s).chassis.mass) := by
    have h := ha k hk
    rw [hx, r11, mul_div_cancel_right₀ _ hp, abs_div, abs_of_pos hgm, div_le_iff₀ hgm] at h
    exact h
  obtain ⟨l1, l2⟩ := f1_limits car power t q u s tol he
  refine ⟨?_, key 8 (by simp) _ r8, key 9 (by simp) _ r9, ?_, l1, l2⟩
  · have := key 7 (by simp) (f1Out (car s) (t.at_ s) q (arrayOf u)).chassis.force.2.2 (by
      rw [r7, div_div, mul_comm (car s).chassis.mass])
    rw [f1_vertical hf, abs_sub_comm] at this
    exact this
  · have := key 10 (by simp) _ r10
    rw [f1_share, abs_mul, abs_of_pos hgm] at this
    exact le_of_mul_le_mul_right this hgm

/-! ### F1 car on any road -/

theorem road_any (f : TrackPoint) (c : F1.Car) (q u : Nat → ℝ) :
    (F1.roadCurvilinear f (F1.setState c q u)).omega = turning f q ∧
    (F1.roadCurvilinear f (F1.setState c q u)).groundVz = q 12 * (curvature f).1 / roadPace f q ∧
    (F1.roadCurvilinear f (F1.setState c q u)).dtimeds = roadPace f q ∧
    (F1.roadCurvilinear f (F1.setState c q u)).rates =
      (1, q 4 * Real.sin (q 13) + q 5 * Real.cos (q 13), q 6 - (curvature f).2.2 / roadPace f q) := by
  refine ⟨?_, rfl, rfl, rfl⟩
  have hP : (Road.update f (F1.setState c q u).road2 (q 13) (F1.setState c q u).u
    (F1.setState c q u).v (F1.setState c q u).omega).dtimeds = roadPace f q := rfl
  have hA : (Road.update f (F1.setState c q u).road2 (q 13) (F1.setState c q u).u
    (F1.setState c q u).v (F1.setState c q u).omega).alphaDot = q 6 - (curvature f).2.2 / roadPace f q := rfl
  have h3 : (F1.setState c q u).road3 = q 13 := rfl
  simp only [F1.roadCurvilinear, omegaBody, eulerAnglesDot, hP, hA, h3, rotZ, turning, curvature, Real.cos_neg, Real.sin_neg]
  generalize roadPace f q = P
  apply vec_ext
  · simp only [Prod.fst_add]; ring
  · simp only [Prod.fst_add, Prod.snd_add]; ring
  · simp only [Prod.snd_add]; ring

/-- The outputs of the F1 car on any road. -/
theorem f1_any (f : TrackPoint) (c : F1.Car) (q u : Nat → ℝ) :
    let o := (f1Out c f q u).chassis
    o.comVelocity = comMotion c f q ∧ o.comVelocityDot = newton c f q u ∧
    o.rollMomentum = (rotation c f q).1 ∧ o.pitchMomentum = (rotation c f q).2.1 ∧
    o.rollMomentumDot = (euler c f q u).1 ∧ o.pitchMomentumDot = (euler c f q u).2.1 ∧
    o.yawRateDot = (euler c f q u).2.2 / c.chassis.I.2.2.2.2 := by
  obtain ⟨h1, h2, -, -⟩ := road_any f c q u
  intro o
  have e4 : (F1.setState c q u).u = q 4 := rfl
  have e5 : (F1.setState c q u).v = q 5 := rfl
  have e6 : (F1.setState c q u).omega = q 6 := rfl
  have e7 : (turning f q).2.2 = q 6 := rfl
  have hc : o = Chassis.update c.chassis (f1Out c f q u).input (f1Out c f q u).front.forces (f1Out c f q u).rear.forces := rfl
  have hi : (f1Out c f q u).input.u = q 4 ∧ (f1Out c f q u).input.v = q 5 ∧ (f1Out c f q u).input.omegaZ = q 6 ∧
      (f1Out c f q u).input.groundVz = q 12 * (curvature f).1 / roadPace f q ∧
      (f1Out c f q u).input.omegaX = (turning f q).1 ∧ (f1Out c f q u).input.omegaY = (turning f q).2.1 := by
    refine ⟨rfl, rfl, rfl, h2, ?_, ?_⟩
    · rw [← h1]; rfl
    · rw [← h1]; rfl
  obtain ⟨i1, i2, i3, i4, i5, i6⟩ := hi
  have hV : o.comVelocity = comMotion c f q := by
    rw [hc]
    apply vec_ext <;> simp only [Chassis.update, comMotion, i1, i2, i4, i5, i6, cross, Params.h, Prod.fst_add, Prod.snd_add] <;> ring
  refine ⟨hV, ?_, ?_, ?_, ?_, ?_, ?_⟩
  · have hF : (f1Out c f q u).chassis.force = o.force := rfl
    unfold newton
    rw [← hV, hF]
    rw [hc]
    apply vec_ext <;>
      simp only [Chassis.update, i1, i2, i3, i4, i5, i6, cross, Params.h, Prod.fst_sub, Prod.snd_sub, Prod.smul_fst,
        Prod.smul_snd, smul_eq_mul, e7] <;> ring
  · rw [hc]; simp only [Chassis.update, i5, rotation]
  · rw [hc]; simp only [Chassis.update, i6, rotation]
  · have hF : (f1Out c f q u).chassis.torque = o.torque := rfl
    unfold euler
    rw [hF, hc]
    simp only [Chassis.update, i3, i6, cross, rotation, Prod.fst_sub, e7]; ring
  · have hF : (f1Out c f q u).chassis.torque = o.torque := rfl
    unfold euler
    rw [hF, hc]
    simp only [Chassis.update, i3, i5, cross, rotation, Prod.fst_sub, Prod.snd_sub, e7]; ring
  · have hF : (f1Out c f q u).chassis.torque = o.torque := rfl
    unfold euler
    rw [hF, hc]
    simp only [Chassis.update, i5, i6, cross, rotation, Prod.snd_sub, e7]; ring

theorem f1_any_rows (car : ℝ → F1.Car) (power : ℝ) (t : Circuit) (q : Nat → ℝ) (u : List ℝ) (s : ℝ)
    (hg : (car s).chassis.g0 ≠ 0) (hm : (car s).chassis.mass ≠ 0) (hp : roadPace (t.at_ s) q ≠ 0) :
    let c := car s
    let f := t.at_ s
    let P := roadPace f q
    let e := f1Eval car power t q u s
    (e.states 4 = (comMotion c f q).1 ∧ e.dstates 4 = (newton c f q (arrayOf u)).1 * P) ∧
    (e.states 5 = (comMotion c f q).2.1 ∧ e.dstates 5 = (newton c f q (arrayOf u)).2.1 * P) ∧
    (e.states 7 = (comMotion c f q).2.2 / c.chassis.g0 ∧
      e.dstates 7 = (newton c f q (arrayOf u)).2.2 / c.chassis.g0 * P) ∧
    (e.states 8 = (rotation c f q).1 / (c.chassis.g0 * c.chassis.mass) ∧
      e.dstates 8 = (euler c f q (arrayOf u)).1 / (c.chassis.g0 * c.chassis.mass) * P) ∧
    (e.states 9 = (rotation c f q).2.1 / (c.chassis.g0 * c.chassis.mass) ∧
      e.dstates 9 = (euler c f q (arrayOf u)).2.1 / (c.chassis.g0 * c.chassis.mass) * P) ∧
    (e.states 6 = q 6 ∧ e.dstates 6 = (euler c f q (arrayOf u)).2.2 / c.chassis.I.2.2.2.2 * P) ∧
    (e.states 10 = 0 ∧ e.dstates 10 = excess c q * P) ∧
    (e.states 12 = q 12 ∧ e.dstates 12 = (q 4 * Real.sin (q 13) + q 5 * Real.cos (q 13)) * P) ∧
    (e.states 13 = q 13 ∧ e.dstates 13 = q 6 * P - (curvature f).2.2) := by
  intro c f P e
  obtain ⟨g1, g2, g3, g4, g5, g6, g7⟩ := f1_any f c q (arrayOf u)
  refine ⟨⟨?_, ?_⟩, ⟨?_, ?_⟩, ⟨?_, ?_⟩, ⟨?_, ?_⟩, ⟨?_, ?_⟩, ⟨rfl, ?_⟩, ⟨rfl, ?_⟩, ⟨rfl, rfl⟩, ⟨rfl, ?_⟩⟩
  · exact congrArg Prod.fst g1
  · exact congrArg (fun x => x.1 * P) g2
  · exact congrArg (fun x => x.2.1) g1
  · exact congrArg (fun x => x.2.1 * P) g2
  · exact congrArg (fun x => x.2.2 / c.chassis.g0) g1
  · exact congrArg (fun x => x.2.2 / c.chassis.g0 * P) g2
  · exact congrArg (fun x => x / (c.chassis.g0 * c.chassis.mass)) g3
  · exact congrArg (fun x => x / (c.chassis.g0 * c.chassis.mass) * P) g5
  · exact congrArg (fun x => x / (c.chassis.g0 * c.chassis.mass)) g4
  · exact congrArg (fun x => x / (c.chassis.g0 * c.chassis.mass) * P) g6
  · exact congrArg (fun x => x * P) g7
  · have h : (f1Out c f q (arrayOf u)).chassis.rollBalance = excess c q * (c.chassis.g0 * c.chassis.mass) := f1_share c f q (arrayOf u)
    show (f1Out c f q (arrayOf u)).chassis.rollBalance / (c.chassis.g0 * c.chassis.mass) * P = _
    rw [h, mul_div_cancel_right₀ _ (mul_ne_zero hg hm)]
  · show (q 6 - (curvature f).2.2 / P) * P = _
    rw [sub_mul, div_mul_cancel₀ _ hp]

/-! ### Kart -/

theorem kart_rows (solve : Vec3 × Vec3 × Vec3 → Vec3 → Vec3) (kart : ℝ → Kart.Vehicle) (t : Circuit) (q : Nat → ℝ)
    (u : List ℝ) (s : ℝ) (hf : F1.Flat (t.at_ s)) (hp : kartPace (t.at_ s) q ≠ 0) :
    let c := kart s
    let m := Kart.setState q (arrayOf u)
    let F := kartForce c (t.at_ s) q (arrayOf u)
    let A := Kart.angularAcceleration solve c m ((t.at_ s).yaw + q 12)
    let P := kartPace (t.at_ s) q
    let e := kartEval solve kart t q u s
    (∀ k, k < 13 → e.states k = q k) ∧
    e.dstates 0 = axleTorque c m / c.IAxle * P ∧
    e.dstates 1 = (F.1 / c.mass + q 2 * q 3) * P ∧ e.dstates 2 = (F.2.1 / c.mass - q 1 * q 3) * P ∧
    e.dstates 3 = A.2.2 * P ∧ (∀ k, k < 3 → e.dstates (4 + k) = q (7 + k) * P) ∧
    e.dstates 7 = F.2.2 / c.mass * P ∧ e.dstates 8 = A.1 * P ∧ e.dstates 9 = A.2.1 * P ∧ e.dstates 10 = P ∧
    e.dstates 11 = (q 1 * Real.sin (q 12) + q 2 * Real.cos (q 12)) * P ∧
    e.dstates 12 = q 3 * P - (t.at_ s).dyaw := by
  intro c m F A P e
  obtain ⟨h1, h2, h3⟩ := update_flat hf (q 11) (q 12) (q 1) (q 2) (q 3)
  have hd : (Kart.roadCurvilinear (t.at_ s) m).dtimeds = P := h1
  have hF : Kart.totalForce c m ((t.at_ s).yaw + q 12) = F := Kart.totalForce_applied _ _ _
  have hv : Kart.dvdt c m ((t.at_ s).yaw + q 12) =
      (F.1 / c.mass + q 2 * q 3, F.2.1 / c.mass - q 1 * q 3, F.2.2 / c.mass) := by
    have e1 : m.u = q 1 := rfl
    have e2 : m.v = q 2 := rfl
    have e3 : m.omega = q 3 := rfl
    unfold Kart.dvdt
    rw [hF]
    apply vec_ext <;> simp [Kart.newtonLhs, cross, e1, e2, e3] <;> ring
  refine ⟨fun k hk => ?_, ?_, ?_, ?_, ?_, fun k hk => ?_, ?_, ?_, ?_, ?_, ?_, ?_⟩
  · interval_cases k <;> rfl
  · show Kart.axleAcceleration c m * (Kart.roadCurvilinear (t.at_ s) m).dtimeds = _
    rw [hd]
    congr 2
    simp only [Kart.axleAcceleration, axleTorque, Tyre.wheelTorque]
    ring
  · show (Kart.dvdt c m ((t.at_ s).yaw + q 12)).1 * (Kart.roadCurvilinear (t.at_ s) m).dtimeds = _
    rw [hd, hv]
  · show (Kart.dvdt c m ((t.at_ s).yaw + q 12)).2.1 * (Kart.roadCurvilinear (t.at_ s) m).dtimeds = _
    rw [hd, hv]
  · show A.2.2 * (Kart.roadCurvilinear (t.at_ s) m).dtimeds = _
    rw [hd]
  · rw [← hd]
    interval_cases k <;> rfl
  · show (Kart.dvdt c m ((t.at_ s).yaw + q 12)).2.2 * (Kart.roadCurvilinear (t.at_ s) m).dtimeds = _
    rw [hd, hv]
  · show A.1 * (Kart.roadCurvilinear (t.at_ s) m).dtimeds = _
    rw [hd]
  · show A.2.1 * (Kart.roadCurvilinear (t.at_ s) m).dtimeds = _
    rw [hd]
  · show 1 * (Kart.roadCurvilinear (t.at_ s) m).dtimeds = _
    rw [hd, one_mul]
  · show (Road.update (t.at_ s) (q 11) (q 12) (q 1) (q 2) (q 3)).nDot * (Kart.roadCurvilinear (t.at_ s) m).dtimeds = _
    rw [hd, h2]
  · show (Road.update (t.at_ s) (q 11) (q 12) (q 1) (q 2) (q 3)).alphaDot * (Kart.roadCurvilinear (t.at_ s) m).dtimeds = _
    rw [hd, h3, sub_mul, show pace (t.at_ s) (q 11) (q 12) (q 1) (q 2) = P from rfl, div_mul_cancel₀ _ hp]

end Verif.LapVehicles
