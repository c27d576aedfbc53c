import Verif.Lemmas.KartMirror
import Verif.Props.Kart
import Verif.Props.Road

/-! # Properties of the kart: mirror symmetry, and the two kinds of road -/

set_option autoImplicit false

namespace Verif.Kart

open Verif.Road Verif.Chassis Real

variable {solve : Vec3 × Vec3 × Vec3 → Vec3 → Vec3} {c : Vehicle}

/-! ## C168: mirror symmetry -/

/-- C168: the mirror image of the kart, with mirrored inputs and controls on the mirror image of the road, has the
mirror image of the states and of their derivatives. Partial: if the steering lifts one front wheel as much as it
lowers the other; see `C168_mirror_false`. -/
theorem C168_mirror_partial (hs : Solver solve) (hb : c.front.susp.betaL = -c.front.susp.betaR) (f : TrackPoint)
    (q u : Nat → ℝ) (hdet : det (eulerM c (setState q u)) ≠ 0) :
    let m := setState q u
    let m' := setState (mirrorInputs q) (mirrorControls u)
    ((evaluate solve (mirrorKart c) m' (roadCurvilinear (F1.mirrorTrack f) m')).states
        = mirrorStates (evaluate solve c m (roadCurvilinear f m)).states ∧
      (evaluate solve (mirrorKart c) m' (roadCurvilinear (F1.mirrorTrack f) m')).dstates
        = mirrorStates (evaluate solve c m (roadCurvilinear f m)).dstates) ∧
    (evaluate solve (mirrorKart c) m' (roadCartesian m')).states
        = mirrorStates (evaluate solve c m (roadCartesian m)).states ∧
      (evaluate solve (mirrorKart c) m' (roadCartesian m')).dstates
        = mirrorStates (evaluate solve c m (roadCartesian m)).dstates := by
  simp only [setState_mirror, roadCurvilinear_mirror, roadCartesian_mirror]
  rw [evaluate_mirror hs c _ _ hdet (Or.inl hb), evaluate_mirror hs c _ _ hdet (Or.inl hb)]
  exact ⟨⟨rfl, rfl⟩, rfl, rfl⟩

/-- C168: a symmetric kart in a symmetric state on a symmetric road keeps going straight: no lateral, yaw or roll
acceleration. -/
theorem C168_goes_straight (hs : Solver solve) (hc : mirrorKart c = c) (hb : c.front.susp.betaL = -c.front.susp.betaR)
    (q u : Nat → ℝ) (hq : mirrorInputs q = q) (hu : mirrorControls u = u) (hdet : det (eulerM c (setState q u)) ≠ 0) :
    let e := evaluate solve c (setState q u) (roadCartesian (setState q u))
    e.dstates.getD 2 0 = 0 ∧ e.dstates.getD 3 0 = 0 ∧ e.dstates.getD 8 0 = 0 ∧ e.dstates.getD 11 0 = 0 := by
  have h := (C168_mirror_partial hs hb ⟨0, 0, 0, 0, 0, 0, 0⟩ q u hdet).2.2
  rw [hc, hq, hu] at h
  simp only [evaluate, allStates, List.map_cons, List.map_nil, mirrorStates, List.cons.injEq] at h
  obtain ⟨-, -, h2, h3, -, -, -, -, h8, -, -, h11, -⟩ := h
  simp only [evaluate, allStates, List.map_cons, List.map_nil, List.getD_cons_zero, List.getD_cons_succ]
  refine ⟨?_, ?_, ?_, ?_⟩ <;> linarith

example : mirrorKart exKart = exKart ∧ exKart.front.susp.betaL = -exKart.front.susp.betaR := by
  refine ⟨?_, ?_⟩ <;> norm_num [mirrorKart, mirrorAxle, exKart, F1.mirrorVec]

example : let q : Nat → ℝ := fun k => ([80, 10, 0, 0, 2 / 100, 0, 0, 1] : List ℝ).getD k 0
    let u : Nat → ℝ := fun _ => 0
    (evaluate cramer exKart (setState q u) (roadCartesian (setState q u))).dstates.getD 3 0 = 0 := by
  intro q u
  refine (C168_goes_straight cramer_solver ?_ ?_ q u ?_ ?_ (det_exKart _ rfl)).2.1
  · norm_num [mirrorKart, mirrorAxle, exKart, F1.mirrorVec]
  · norm_num [exKart]
  · funext k
    unfold mirrorInputs
    split <;> simp [q]
  · funext k
    unfold mirrorControls
    split <;> simp [u]

/-- C168 is false in general: if the steering lifts the left front wheel by more or less than it lowers the right one,
the load of the right front tyre of the mirror image is not that of the left front tyre of the kart. The deformation
is computed as if both were the same. -/
theorem C168_mirror_false : ∃ (c : Vehicle) (q u : Nat → ℝ),
    (Corner.frontRight.wheel (mirrorKart c) (setState (mirrorInputs q) (mirrorControls u))).Fz
      ≠ (Corner.frontLeft.wheel c (setState q u)).Fz := by
  refine ⟨{ exKart with front := { exKart.front with susp := ⟨true, 1, 100000, 0, 100000, 139 / 1000, 1 / 10, 0⟩ } },
    fun k => if k = 4 then 2 / 10 else 0, fun k => if k = 0 then 1 / 10 else 0, ?_⟩
  norm_num [Corner.wheel, frontAxle, axleUpdate, wheelUpdate, setState, mirrorInputs, mirrorControls, mirrorKart,
    mirrorAxle, F1.mirrorVec, exKart, comPosition, axlePosition, axleVelocity, Power.tyreHeight, Power.tyreVelocity,
    Power.chassisDeformation, Power.tyreDeformation, Power.displSym, Power.displAsym, Power.displRates, Power.symK,
    Power.asymK, iAxle, iChassis, iBody, iRoad, cSteering, cTorque, cross]

/-! ## C169: curvilinear and cartesian roads -/

theorem states_inPlane (f : TrackPoint) (m : Members) (r r' : RoadOut) (k : Nat) (hk : k < 10) :
    (evaluate solve c (inPlane f m) r).states.getD k 0 = (evaluate solve c m r').states.getD k 0 := by
  have e : ∀ (m : Members) r, (evaluate solve c m r).states = [m.omegaAxle, m.u, m.v, m.omega, m.z, m.phi, m.mu, m.dz,
    m.dphi, m.dmu, m.road1, m.road2, m.road3] := fun _ _ => rfl
  rw [e, e]
  match k, hk with
  | 0, _ | 1, _ | 2, _ | 3, _ | 4, _ | 5, _ | 6, _ | 7, _ | 8, _ | 9, _ => rfl

theorem dstates_inPlane (f : TrackPoint) (m : Members) (k : Nat) (hk : k < 10) :
    (evaluate solve c m (roadCurvilinear f m)).dstates.getD k 0 = (roadCurvilinear f m).dtimeds *
      (evaluate solve c (inPlane f m) (roadCartesian (inPlane f m))).dstates.getD k 0 := by
  have hhead : (roadCartesian (inPlane f m)).heading = (roadCurvilinear f m).heading := rfl
  generalize (roadCurvilinear f m) = r at hhead
  have e1 : dvdt c (inPlane f m) r.heading = dvdt c m r.heading := rfl
  have e2 : angularAcceleration solve c (inPlane f m) r.heading = angularAcceleration solve c m r.heading := by
    have h1 : eulerM c (inPlane f m) = eulerM c m := rfl
    have h2 : ∀ x y, eulerLhs c (inPlane f m) x y = eulerLhs c m x y := fun _ _ => rfl
    have h3 : frontAxle c (inPlane f m) = frontAxle c m := rfl
    have h4 : rearAxle c (inPlane f m) = rearAxle c m := rfl
    have h5 : aeroForce c (inPlane f m) r.heading = aeroForce c m r.heading := rfl
    have h6 : comPosition c (inPlane f m) = comPosition c m := rfl
    simp only [angularAcceleration, totalTorque, e1, h1, h2, h3, h4, h5, h6]
  have e3 : axleAcceleration c (inPlane f m) = axleAcceleration c m := rfl
  have e4 : (roadCartesian (inPlane f m)).dtimeds = 1 := rfl
  simp only [evaluate, allStates, hhead, e1, e2, e3, e4, List.map_cons, List.map_nil, mul_one]
  generalize dvdt c m r.heading = a
  generalize angularAcceleration solve c m r.heading = b
  generalize axleAcceleration c m = d
  match k, hk with
  | 0, _ | 1, _ | 2, _ | 3, _ | 4, _ | 5, _ | 6, _ | 7, _ | 8, _ | 9, _ =>
    simp only [List.getD_cons_zero, List.getD_cons_succ, inPlane]
    exact mul_comm _ _

/-- C169: a kart that follows the equations along a flat track, in the arclength, does in the plane what the equations
of the cartesian road say, in time: every state of the kart in the plane changes with the arclength by its time
derivative on the cartesian road times `dtimeds`, which is the derivative of the time. -/
theorem C169_same_motion (F : ℝ → TrackPoint) (m : ℝ → Members) (s : ℝ)
    (hflat : ∀ s, (F s).pitch = 0 ∧ (F s).roll = 0) (hpos : HasDerivAt (fun s => (F s).position) (tangent (F s)) s)
    (hyaw : HasDerivAt (fun s => (F s).yaw) (F s).dyaw s)
    (hden : (m s).u * cos (m s).road3 - (m s).v * sin (m s).road3 ≠ 0)
    (hn : 1 - (m s).road2 * (F s).dyaw ≠ 0)
    (h : ∀ k, k < nInputs → HasDerivAt
      (fun s => (evaluate solve c (m s) (roadCurvilinear (F s) (m s))).states.getD k 0)
      ((evaluate solve c (m s) (roadCurvilinear (F s) (m s))).dstates.getD k 0) s) :
    ∃ dtimeds, HasDerivAt (fun s => (m s).road1) dtimeds s ∧
    ∀ k, k < nInputs → HasDerivAt
      (fun s => (evaluate solve c (inPlane (F s) (m s)) (roadCartesian (inPlane (F s) (m s)))).states.getD k 0)
      (dtimeds * (evaluate solve c (inPlane (F s) (m s)) (roadCartesian (inPlane (F s) (m s)))).dstates.getD k 0) s := by
  set r := roadCurvilinear (F s) (m s) with hr
  have hpi : (F s).pitch = 0 := (hflat s).1
  have hro : (F s).roll = 0 := (hflat s).2
  have hcurv : (curvature (F s)).2.2 = (F s).dyaw := by simp [curvature, hpi, hro]
  have hrate : r.rates = (1, (m s).u * sin (m s).road3 + (m s).v * cos (m s).road3,
      (m s).omega - (F s).dyaw / r.dtimeds) := by
    simp only [hr, roadCurvilinear, Road.update, hcurv]
  have hdt : r.dtimeds * ((m s).u * cos (m s).road3 - (m s).v * sin (m s).road3) = 1 - (m s).road2 * (F s).dyaw := by
    simp only [hr, roadCurvilinear, Road.update, hcurv]
    exact div_mul_cancel₀ _ hden
  have hne : r.dtimeds ≠ 0 := by
    intro h0
    rw [h0, zero_mul] at hdt
    exact hn hdt.symm
  have h10 : HasDerivAt (fun s => (m s).road1) (1 * r.dtimeds) s := by
    have := h 10 (by decide)
    simp only [evaluate, allStates, List.map_cons, List.map_nil, List.getD_cons_zero, List.getD_cons_succ] at this
    rw [hrate] at this
    exact this
  have h11 : HasDerivAt (fun s => (m s).road2) (((m s).u * sin (m s).road3 + (m s).v * cos (m s).road3) * r.dtimeds) s := by
    have := h 11 (by decide)
    simp only [evaluate, allStates, List.map_cons, List.map_nil, List.getD_cons_zero, List.getD_cons_succ] at this
    rw [hrate] at this
    exact this
  have h12 : HasDerivAt (fun s => (m s).road3) (((m s).omega - (F s).dyaw / r.dtimeds) * r.dtimeds) s := by
    have := h 12 (by decide)
    simp only [evaluate, allStates, List.map_cons, List.map_nil, List.getD_cons_zero, List.getD_cons_succ] at this
    rw [hrate] at this
    exact this
  have hnormal : ∀ s, normal (F s) = (-sin (F s).yaw, cos (F s).yaw, 0) := fun s =>
    (C42_flat (F s) (hflat s).1 (hflat s).2).2.1
  have htangent : tangent (F s) = (cos (F s).yaw, sin (F s).yaw, 0) := (C42_flat (F s) hpi hro).1
  rw [htangent] at hpos
  have hx : HasDerivAt (fun s => (F s).position.1) (cos (F s).yaw) s := hpos.fst
  have hy : HasDerivAt (fun s => (F s).position.2.1) (sin (F s).yaw) s := hpos.snd.fst
  rw [one_mul] at h10
  refine ⟨r.dtimeds, h10, fun k hk => ?_⟩
  simp only [nInputs, iRoad, iBody, iChassis, iAxle] at hk
  have hal : (F s).dyaw + ((m s).omega - (F s).dyaw / r.dtimeds) * r.dtimeds = r.dtimeds * (m s).omega := by
    field_simp
    ring
  by_cases hk10 : k < 10
  · refine HasDerivAt.congr_deriv ?_ (dstates_inPlane (F s) (m s) k hk10)
    exact (h k (lt_trans hk10 (by decide))).congr_of_eventuallyEq
      (Filter.Eventually.of_forall fun s => states_inPlane _ _ _ _ k hk10)
  · have hk' : k = 10 ∨ k = 11 ∨ k = 12 := by omega
    rcases hk' with rfl | rfl | rfl
    · simp only [evaluate, allStates, List.map_cons, List.map_nil, List.getD_cons_zero, List.getD_cons_succ]
      simp only [inPlane, roadCartesian, cartesian, Prod.fst_add, Prod.smul_fst, smul_eq_mul, hnormal]
      refine (hx.add (h11.mul hyaw.sin.neg)).congr_deriv ?_
      simp only [Pi.neg_apply]
      rw [cos_add, sin_add]
      linear_combination -cos (F s).yaw * hdt
    · simp only [evaluate, allStates, List.map_cons, List.map_nil, List.getD_cons_zero, List.getD_cons_succ]
      simp only [inPlane, roadCartesian, cartesian, Prod.fst_add, Prod.snd_add, Prod.smul_fst, Prod.smul_snd, smul_eq_mul,
        hnormal]
      refine (hy.add (h11.mul hyaw.cos)).congr_deriv ?_
      rw [cos_add, sin_add]
      linear_combination -sin (F s).yaw * hdt
    · simp only [evaluate, allStates, List.map_cons, List.map_nil, List.getD_cons_zero, List.getD_cons_succ]
      simp only [inPlane, roadCartesian, cartesian]
      refine (hyaw.add h12).congr_deriv ?_
      rw [hal, mul_one]

example : ∃ (F : ℝ → TrackPoint) (m : ℝ → Members), (m 0).u = 10 ∧ (m 0).omega = 2 ∧ ∃ dtimeds,
    HasDerivAt (fun s => (m s).road1) dtimeds 0 ∧ ∀ k, k < nInputs → HasDerivAt
      (fun s => (evaluate cramer exKart (inPlane (F s) (m s)) (roadCartesian (inPlane (F s) (m s)))).states.getD k 0)
      (dtimeds * (evaluate cramer exKart (inPlane (F 0) (m 0))
        (roadCartesian (inPlane (F 0) (m 0)))).dstates.getD k 0) 0 := by
  let F : ℝ → TrackPoint := fun s => ⟨(s, 0, 0), 0, 0, 0, 0, 0, 0⟩
  let m0 : Members := { exMembers with road3 := 0 }
  let d := (evaluate cramer exKart m0 (roadCurvilinear (F 0) m0)).dstates
  let m : ℝ → Members := fun s =>
    ⟨m0.omegaAxle + s * d.getD 0 0, m0.u + s * d.getD 1 0, m0.v + s * d.getD 2 0, m0.omega + s * d.getD 3 0,
      m0.z + s * d.getD 4 0, m0.phi + s * d.getD 5 0, m0.mu + s * d.getD 6 0, m0.dz + s * d.getD 7 0,
      m0.dphi + s * d.getD 8 0, m0.dmu + s * d.getD 9 0, m0.steering, m0.throttle, m0.road1 + s * d.getD 10 0,
      m0.road2 + s * d.getD 11 0, m0.road3 + s * d.getD 12 0⟩
  have hm0 : m 0 = m0 := by simp [m]
  have hlin : ∀ a b : ℝ, HasDerivAt (fun s => a + s * b) b 0 := fun a b => by
    simpa using ((hasDerivAt_id (0 : ℝ)).mul_const b).const_add a
  refine ⟨F, m, by rw [hm0]; rfl, by rw [hm0]; rfl, C169_same_motion F m 0 (fun s => ⟨rfl, rfl⟩) ?_ ?_ ?_ ?_ ?_⟩
  · simp only [F, tangent, cos_zero, sin_zero, mul_one, neg_zero]
    exact hasDerivAt_vec (hasDerivAt_id 0) (hasDerivAt_const _ _) (hasDerivAt_const _ _)
  · exact hasDerivAt_const _ _
  · rw [hm0]; norm_num [m0, exMembers]
  · norm_num [F]
  · intro k hk
    rw [hm0]
    have e : ∀ s, (evaluate cramer exKart (m s) (roadCurvilinear (F s) (m s))).states = [(m s).omegaAxle, (m s).u, (m s).v,
      (m s).omega, (m s).z, (m s).phi, (m s).mu, (m s).dz, (m s).dphi, (m s).dmu, (m s).road1, (m s).road2,
      (m s).road3] := fun _ => rfl
    simp only [e]
    simp only [nInputs, iRoad, iBody, iChassis, iAxle] at hk
    match k, hk with
    | 0, _ | 1, _ | 2, _ | 3, _ | 4, _ | 5, _ | 6, _ | 7, _ | 8, _ | 9, _ | 10, _ | 11, _ | 12, _ => exact hlin _ _

/-- The attitude of a flat track: to turn by the yaw of the track and then by the track heading angle is to turn by
their sum, which is what the model of the kart uses for the wind. -/
theorem C169_heading (p : Aero) (yaw alpha : ℝ) (v : Vec3) :
    aeroForces p ⟨yaw, 0, 0, alpha⟩ v = aeroForces p ⟨0, 0, 0, yaw + alpha⟩ v := by
  have e : ∀ w : Vec3, toBody ⟨yaw, 0, 0, alpha⟩ w = toBody ⟨0, 0, 0, yaw + alpha⟩ w := by
    intro w
    apply vec_ext <;> simp [toBody, rotX, rotY, rotZ, sin_add, cos_add] <;> ring
  simp only [aeroForces, e]

end Verif.Kart
