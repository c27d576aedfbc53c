import Verif.Props.PathSolve
import Mathlib.Analysis.Real.Pi.Bounds

/-! # A closed circuit on which the computed path is not the one of minimum curvature -/

set_option autoImplicit false

namespace Verif.Path

open Verif.Road (Vec3)

/-- A circle of radius one, as wide as its radius to the inside, banked with the roll `2 sin s`. -/
noncomputable def bowl : Circuit :=
  ⟨2 * Real.pi, 1, fun a => (Real.sin a, 1 - Real.cos a, 0),
    fun a => ⟨a, 0, 2 * Real.sin a, 1, 0, 2 * Real.cos a, 1, 1⟩⟩

/-- A path through the middle of the circle: it turns at the spot, with elements of length `d`. -/
noncomputable def spot (d yawDot : ℝ) : Course :=
  ⟨2, fun i => ⟨(0, 1, 0), ⟨1, if i = 0 then 0 else Real.pi, 0, 0, yawDot, 0, if i = 0 then 1 else -1⟩⟩,
    fun _ => d⟩

theorem bowl_steps : steps true bowl.length [0, Real.pi] = [Real.pi, Real.pi] := by
  simp [steps, bowl]; ring

theorem bowl_stations : checkStations true bowl.length [0, Real.pi] = .ok [0, Real.pi] := by
  have hl : bowl.length = 2 * Real.pi := rfl
  have hpi := Real.pi_gt_three
  rw [hl]
  have h : ¬ (Real.pi > 2 * Real.pi - 1 / 10 ^ 10) := by
    norm_num
    linarith
  unfold checkStations
  exact (if_pos rfl).trans ((if_neg (by norm_num)).trans (if_neg h))

theorem spot_ok (d y : ℝ) (h : d * y = Real.pi) (h0 : 0 ≤ y) (h2 : y ≤ 2)
    (hd : d ≤ 5 * Real.pi) : (spot d y).OnSections bowl [0, Real.pi] ∧
      (spot d y).InRange 0 true (Real.pi / 180) bowl [0, Real.pi] ∧
      (spot d y).Continuous 0 true bowl := by
  have hpi := Real.pi_pos
  have hdl : 1 / 20 * Real.pi ≤ d := by nlinarith
  refine ⟨⟨rfl, fun i a ha => ?_⟩, ⟨fun i a ha => ?_, fun i e he => ?_⟩, fun i hi => ?_, fun _ => ?_⟩
  · match i with
    | 0 => obtain rfl : (0 : ℝ) = a := by simpa using ha
           simp [spot, bowl, place, normalVector]
    | 1 => obtain rfl : Real.pi = a := by simpa using ha
           simp [spot, bowl, place, normalVector]
    | i + 2 => simp at ha
  · match i with
    | 0 => obtain rfl : (0 : ℝ) = a := by simpa using ha
           constructor <;> constructor <;> simp [spot, bowl, least, most] <;> linarith
    | 1 => obtain rfl : Real.pi = a := by simpa using ha
           constructor <;> constructor <;> simp [spot, bowl, least, most] <;> linarith
    | i + 2 => simp at ha
  · have : e = Real.pi := by
      rw [bowl_steps] at he
      have := List.mem_of_getElem? he
      simpa using this
    subst this
    simp only [spot]
    constructor <;> linarith
  · have hi : i + 1 < 2 := hi
    obtain rfl : i = 0 := by omega
    have : Real.pi - d / 2 * (y + y) = 0 := by linarith
    simp [FollowsWithin, spot, heading, this]
  · have : (0 : ℝ) + 2 * Real.pi - (Real.pi + d / 2 * (y + y)) = 0 := by linarith
    have : (2 : ℝ) * Real.pi - (Real.pi + d / 2 * (y + y)) = 0 := by linarith
    simp [FollowsWithin, spot, heading, bowl, this]

/-- What the constraints leave of the angles and lengths. -/
theorem opposite {ya yb pa pb d0 d1 sy sp : ℝ} (h0 : 0 < d0) (h1 : 0 < d1)
    (hpa : |pa| ≤ 1) (hya : |ya| ≤ Real.pi / 3) (hyb : |yb - Real.pi| ≤ Real.pi / 3)
    (e1 : (d0 + d1) * (Real.cos ya * Real.cos pa + Real.cos yb * Real.cos pb) = 0)
    (e2 : (d0 + d1) * (Real.sin ya * Real.cos pa + Real.sin yb * Real.cos pb) = 0)
    (e3 : (d0 + d1) * (Real.sin pa + Real.sin pb) = 0)
    (e4 : yb = ya + d0 / 2 * sy) (e5 : ya + 2 * Real.pi = yb + d1 / 2 * sy)
    (e6 : pb = pa + d0 / 2 * sp) (e7 : pa = pb + d1 / 2 * sp) :
    pa = 0 ∧ pb = 0 ∧ d0 = d1 ∧ d0 * sy = 2 * Real.pi := by
  have hne : d0 + d1 ≠ 0 := by positivity
  have hpi := Real.pi_gt_three
  replace e1 := (mul_eq_zero.1 e1).resolve_left hne
  replace e2 := (mul_eq_zero.1 e2).resolve_left hne
  replace e3 := (mul_eq_zero.1 e3).resolve_left hne
  have hsp : sp = 0 := by
    have : (d0 + d1) * sp = 0 := by linarith
    exact (mul_eq_zero.1 this).resolve_left hne
  have hpp : pb = pa := by rw [e6, hsp]; ring
  subst hpp
  have hp : pb = 0 := by
    rw [abs_le] at hpa
    exact (Real.sin_eq_zero_iff_of_lt_of_lt (by linarith) (by linarith)).1 (by linarith)
  subst hp
  simp only [Real.cos_zero, mul_one] at e1 e2
  have hc : Real.cos (yb - Real.pi - ya) = 1 := by
    have h1 : Real.cos yb = -Real.cos ya := by linarith
    have h2 : Real.sin yb = -Real.sin ya := by linarith
    rw [show yb - Real.pi - ya = (yb - ya) - Real.pi by ring, Real.cos_sub_pi, Real.cos_sub, h1, h2]
    have := Real.sin_sq_add_cos_sq ya
    linarith
  rw [abs_le] at hya hyb
  have hy := (Real.cos_eq_one_iff_of_lt_of_lt (by linarith) (by linarith)).1 hc
  have hd0 : d0 * sy = 2 * Real.pi := by linarith
  have hd1 : d1 * sy = 2 * Real.pi := by linarith
  have hs : sy ≠ 0 := by
    rintro rfl
    linarith
  refine ⟨rfl, rfl, mul_right_cancel₀ hs (by rw [hd0, hd1]), hd0⟩

/-- Every path on the circle has equal elements of a length `d` and turns by `2 π / d`. -/
theorem bowl_path (c : Course) (hn : c.n = 2) (h2 : c.InRange 0 true (Real.pi / 180) bowl [0, Real.pi])
    (h3 : c.Continuous 0 true bowl) :
    (c.node 0).v.pitch = 0 ∧ (c.node 1).v.pitch = 0 ∧ c.ds 0 = c.ds 1 ∧ 0 < c.ds 0 ∧
      c.ds 0 * ((c.node 0).v.yawDot + (c.node 1).v.yawDot) = 2 * Real.pi ∧
      1 ≤ (c.node 0).v.rollDot ∧ (c.node 1).v.rollDot ≤ -1 := by
  obtain ⟨hv, hd⟩ := h2
  have v0 := hv 0 0 rfl
  have v1 := hv 1 Real.pi rfl
  have d0 := (hd 0 Real.pi (by rw [bowl_steps]; rfl)).1
  have d1 := (hd 1 Real.pi (by rw [bowl_steps]; rfl)).1
  obtain ⟨hin, hcl⟩ := h3
  have f0 := hin 0 (by omega)
  have f1 := hcl rfl
  rw [hn] at f1
  have hpi := Real.pi_gt_three
  have hpi' := Real.pi_lt_d2
  simp only [FollowsWithin, heading, bowl, Nat.reduceSub, abs_nonpos_iff, zero_add] at f0 f1
  obtain ⟨a1, a2, a3, a4, a5, -⟩ := f0
  obtain ⟨b1, b2, b3, b4, b5, -⟩ := f1
  simp only [Real.cos_neg, Real.sin_neg, neg_neg, Int.cast_one, mul_one] at a1 a2 a3 a4 b1 b2 b3 b4
  have pitch0 := v0.pitch
  have yaw0 := v0.yaw
  have yaw1 := v1.yaw
  have r0 := v0.rollDot
  have r1 := v1.rollDot
  simp only [least, most, bowl] at pitch0 yaw0 yaw1 r0 r1
  norm_num at pitch0 yaw0 yaw1 r0 r1
  obtain ⟨p1, p2, p3, p4⟩ := opposite (ya := (c.node 0).v.yaw) (yb := (c.node 1).v.yaw)
    (pa := (c.node 0).v.pitch) (pb := (c.node 1).v.pitch) (d0 := c.ds 0) (d1 := c.ds 1)
    (sy := (c.node 0).v.yawDot + (c.node 1).v.yawDot)
    (sp := (c.node 0).v.pitchDot + (c.node 1).v.pitchDot)
    (by linarith) (by linarith) (by rw [abs_le]; constructor <;> linarith)
    (by rw [abs_le]; constructor <;> linarith) (by rw [abs_le]; constructor <;> linarith)
    (by linarith) (by linarith) (by linarith) (by linarith) (by linarith) (by linarith) (by linarith)
  exact ⟨p1, p2, p3, by linarith, p4, by linarith, by linarith⟩

/-- The cost given to the solver. -/
theorem bowl_cost (c : Course) (hn : c.n = 2) (h2 : c.InRange 0 true (Real.pi / 180) bowl [0, Real.pi])
    (h3 : c.Continuous 0 true bowl) (cost : ℝ) (rs : List ℝ)
    (he : evaluate true bowl.direction (c.lengths true) c.nodes = .ok (cost, rs)) :
    2 * Real.sqrt 2 * Real.pi ≤ cost ∧
      (cost = 2 * Real.sqrt 2 * Real.pi → 3 * Real.sqrt 2 * Real.pi ≤ c.lapCost) := by
  obtain ⟨p1, p2, p3, p4, p5, p6, p7⟩ := bowl_path c hn h2 h3
  obtain ⟨_, e⟩ := C137_closed c (by omega) bowl.direction
  rw [he] at e
  obtain ⟨e, -⟩ := Prod.mk.inj (Res.ok.inj e)
  have hl : c.lapCost = c.ds 0 / 2 * (turn2 (c.node 0).v + turn2 (c.node 1).v)
      + c.ds 1 / 2 * (turn2 (c.node 1).v + turn2 (c.node 0).v) := by
    unfold Course.lapCost
    rw [hn]
    simp [Finset.sum_range_succ]
  rw [hn] at e
  simp only [Nat.reduceSub] at e
  have t0 : turn2 (c.node 0).v = (c.node 0).v.yawDot ^ 2 + (c.node 0).v.pitchDot ^ 2
      + (c.node 0).v.rollDot ^ 2 := by simp [turn2, p1]
  have t1 : turn2 (c.node 1).v = (c.node 1).v.yawDot ^ 2 + (c.node 1).v.pitchDot ^ 2
      + (c.node 1).v.rollDot ^ 2 := by simp [turn2, p2]
  rw [hl, t0, t1, ← p3] at e
  rw [hl, t0, t1, ← p3]
  clear hl t0 t1 he hn h2 h3 p1 p2 p3
  generalize c.ds 0 = d at *
  generalize (c.node 0).v.yawDot = y0 at *
  generalize (c.node 1).v.yawDot = y1 at *
  generalize (c.node 0).v.rollDot = r0 at *
  generalize (c.node 1).v.rollDot = r1 at *
  generalize (c.node 0).v.pitchDot = q0 at *
  generalize (c.node 1).v.pitchDot = q1 at *
  have hpi := Real.pi_pos
  have hs : Real.sqrt 2 ^ 2 = 2 := Real.sq_sqrt (by norm_num)
  have hs0 : 0 < Real.sqrt 2 := Real.sqrt_pos.2 (by norm_num)
  generalize Real.sqrt 2 = w at *
  generalize Real.pi = t at *
  have k0 : 1 ≤ r0 ^ 2 := by nlinarith
  have k1 : 1 ≤ r1 ^ 2 := by nlinarith
  have q0' := sq_nonneg q0
  have q1' := sq_nonneg q1
  have hy : 0 < y0 + y1 := by
    by_contra hneg
    have : d * (y0 + y1) ≤ 0 := mul_nonpos_of_nonneg_of_nonpos p4.le (not_lt.1 hneg)
    linarith
  have c1 : t * (y0 + y1) ≤ d * (y0 ^ 2 + y1 ^ 2) := by
    have : 0 ≤ d * (y0 - y1) ^ 2 := mul_nonneg p4.le (sq_nonneg _)
    have e2 : d * (y0 + y1) * (y0 + y1) = 2 * t * (y0 + y1) := by rw [p5]
    linarith
  have extra : d ≤ d / 2 * (q0 ^ 2 + r0 ^ 2 + (q1 ^ 2 + r1 ^ 2)) := by
    have : 0 ≤ d / 2 * (q0 ^ 2 + r0 ^ 2 + (q1 ^ 2 + r1 ^ 2) - 2) :=
      mul_nonneg (by linarith) (by linarith)
    linarith
  have c2 : t * (y0 + y1) + d ≤ cost := by rw [e]; linarith
  have sq8 : (2 * w * t) ^ 2 = 8 * t ^ 2 := by
    rw [show (2 * w * t) ^ 2 = 4 * w ^ 2 * t ^ 2 by ring, hs]; ring
  have sqs : (t * (y0 + y1) + d) ^ 2 = 8 * t ^ 2 + (t * (y0 + y1) - d) ^ 2 := by
    have e3 : t * (d * (y0 + y1)) = t * (2 * t) := by rw [p5]
    linarith
  have c3 : 2 * w * t ≤ t * (y0 + y1) + d := by
    refine le_of_sq_le_sq ?_ (by positivity)
    rw [sq8, sqs]
    nlinarith [sq_nonneg (t * (y0 + y1) - d)]
  refine ⟨by linarith, fun hcost => ?_⟩
  have hd : t * (y0 + y1) + d = 2 * w * t := le_antisymm (by linarith) c3
  have hz : (t * (y0 + y1) - d) ^ 2 = 0 := by
    rw [hd, sq8] at sqs
    linarith
  have hz' : t * (y0 + y1) - d = 0 := by simpa using hz
  have hd' : d = w * t := by linarith
  linarith

/-- A path on the circle is computed when the solver finds the least cost. -/
theorem bowl_computed : ∃ r, compute bestSolver true true (Real.pi / 180) bowl [0, Real.pi] = .ok r ∧
    r.success = true := by
  have hpi := Real.pi_gt_three
  have hc := bowl_stations
  obtain ⟨p, r, hp, h2, h3, -⟩ :=
    C239_outcome bestSolver bestSolver_sized true (Real.pi / 180) bowl [0, Real.pi] [0, Real.pi] hc
  have hs2 : Real.sqrt 2 ^ 2 = 2 := Real.sq_sqrt (by norm_num)
  have hs0 : 0 < Real.sqrt 2 := Real.sqrt_pos.2 (by norm_num)
  have hs3 : Real.sqrt 2 ≤ 2 := by nlinarith
  obtain ⟨m1, m2, m3⟩ := spot_ok (Real.sqrt 2 * Real.pi) (Real.sqrt 2 / 2)
    (by rw [show Real.sqrt 2 * Real.pi * (Real.sqrt 2 / 2) = Real.sqrt 2 ^ 2 * Real.pi / 2 by ring, hs2]; ring)
    (by linarith) (by linarith) (by nlinarith)
  have hs : (bestSolver p).success = true := by
    have hex : ∃ x : List ℝ, x.length ≤ p.start.length ∧
        ∃ f, Feasible 0 p x f ∧ ∀ y f', Feasible 0 p y f' → f ≤ f' := by
      obtain ⟨_, e⟩ := C137_closed (spot (Real.sqrt 2 * Real.pi) (Real.sqrt 2 / 2)) (by simp [spot])
        bowl.direction
      have hf := feasible_of_course hc hp _ m1 m2 m3 _ _ e
      obtain ⟨xs, xl, xu, q, hl, hp'⟩ := nlp_eq true (Real.pi / 180) bowl [0, Real.pi] [0, Real.pi] hc
      rw [hp] at hp'
      simp only [Res.ok.injEq, Prod.mk.injEq, true_and] at hp'
      refine ⟨_, ?_, _, hf, ?_⟩
      · rw [hp', pack_length]
        simp only
        rw [hl]
        exact le_refl _
      · intro y f' hy
        obtain ⟨hw, g, hg, hcon⟩ := hy
        have hw' : Within 0 xl y xu := by rw [hp'] at hw; exact hw
        have hyl : y.length = nVariables 2 (nElements true 2) := by
          obtain ⟨_, _, xu', q', -, ⟨hxl, -⟩, -⟩ :=
            problem_eq true (Real.pi / 180) bowl.length bowl.table [0, Real.pi] [0, Real.pi] hc
          rw [q] at q'
          simp only [Res.ok.injEq, Prod.mk.injEq, true_and] at q'
          have := hw'.1.length_eq
          rw [← this, q'.2.1, hxl]
          rfl
        have hin := (inRange_iff 0 true (Real.pi / 180) bowl _ _ y xs xl xu hc q hyl).1 hw'
        obtain ⟨cost, rs, he, hfit⟩ := fitness_course true bowl [0, Real.pi] y (by simp) hyl
        rw [hp'] at hg
        simp only [hfit] at hg
        obtain ⟨rfl, rfl⟩ := List.cons.inj (Res.ok.inj hg)
        have hcont : (vecCourse bowl [0, Real.pi] y).Continuous 0 true bowl := by
          refine (continuous_iff 0 _ (by simp [vecCourse]) true bowl cost rs he).2 fun a ha => ?_
          obtain ⟨i, hi⟩ := List.mem_iff_getElem?.1 ha
          have h1 := forall₂_getElem?.1 hcon.1
          have h2 := forall₂_getElem?.1 hcon.2
          have hcl : p.cl = List.replicate (nConstraints (nElements true 2)) 0 := by rw [hp']; rfl
          have hcu : p.cu = List.replicate (nConstraints (nElements true 2)) 0 := by rw [hp']; rfl
          have hi' : i < nConstraints (nElements true 2) := by
            have e := h1.1
            rw [hcl, List.length_replicate] at e
            rw [e]
            exact (List.getElem?_eq_some_iff.1 hi).1
          have l1 := h1.2 i 0 a (by rw [hcl]; simp [hi']) hi
          have l2 := h2.2 i a 0 hi (by rw [hcu]; simp [hi'])
          rw [abs_le]
          constructor <;> linarith
        refine le_trans (le_of_eq ?_) (bowl_cost _ rfl hin hcont cost rs he).1
        simp [Course.lapCost, spot, turn2]
        rw [show (Real.sqrt 2 / 2) ^ 2 = Real.sqrt 2 ^ 2 / 4 by ring, hs2]
        ring
    unfold bestSolver
    rw [dif_pos hex]
  have hr := h2 true
  rw [hs] at hr
  simp only [Bool.true_eq_false, false_and, if_false] at hr
  exact ⟨r, hr, by rw [h3, hs]⟩

/-- On the circle with banking every solver that finds minima leads to a path with a larger integral of the
squared curvature than that of another path at the same stations, within all the ranges, that is a curve. -/
theorem C240_false_always (S : Solver) (hS : Exact S) (throwIfFail : Bool) (r : Result)
    (h : compute S throwIfFail true (Real.pi / 180) bowl [0, Real.pi] = .ok r) (hr : r.success = true) :
    ∃ c : Course, c.OnSections bowl r.s ∧ c.InRange 0 true (Real.pi / 180) bowl r.s ∧
      c.Continuous 0 true bowl ∧ c.lapCost < r.course.lapCost := by
  have hpi := Real.pi_gt_three
  have hs : r.s = [0, Real.pi] := by
    have := compute_inv h
    rw [bowl_stations] at this
    exact (Res.ok.inj this).symm
  have hs2 : Real.sqrt 2 ^ 2 = 2 := Real.sq_sqrt (by norm_num)
  have hs0 : 0 < Real.sqrt 2 := Real.sqrt_pos.2 (by norm_num)
  have hs3 : Real.sqrt 2 ≤ 2 := by nlinarith
  obtain ⟨m1, m2, m3⟩ := spot_ok (Real.sqrt 2 * Real.pi) (Real.sqrt 2 / 2)
    (by rw [show Real.sqrt 2 * Real.pi * (Real.sqrt 2 / 2) = Real.sqrt 2 ^ 2 * Real.pi / 2 by ring, hs2]; ring)
    (by linarith) (by linarith) (by nlinarith)
  obtain ⟨b1, b2, b3⟩ := spot_ok Real.pi 1 (by ring) (by norm_num) (by norm_num) (by linarith)
  have hacc : Accurate 0 S := fun p hp => (hS p hp).imp fun _ h => h.1
  obtain ⟨hin, hcont⟩ := C239_on_track 0 S hacc throwIfFail true (Real.pi / 180) bowl _ r h hr
  have hn : r.course.n = 2 := by
    show r.s.length = 2
    rw [hs]; rfl
  obtain ⟨rs, e⟩ := C137_closed r.course (by omega) bowl.direction
  obtain ⟨rs', e'⟩ := C137_closed (spot (Real.sqrt 2 * Real.pi) (Real.sqrt 2 / 2)) (by simp [spot])
    bowl.direction
  have hle := best_cost hS h hr _ (by rw [hs]; exact m1) (by rw [hs]; exact m2) m3 _ _ _ _ e e'
  have hval : (spot (Real.sqrt 2 * Real.pi) (Real.sqrt 2 / 2)).lapCost
      - (spot (Real.sqrt 2 * Real.pi) (Real.sqrt 2 / 2)).ds 1 / 2
        * ((turn2 ((spot (Real.sqrt 2 * Real.pi) (Real.sqrt 2 / 2)).node 1).v
            - ((spot (Real.sqrt 2 * Real.pi) (Real.sqrt 2 / 2)).node 1).v.yawDot ^ 2)
          + (turn2 ((spot (Real.sqrt 2 * Real.pi) (Real.sqrt 2 / 2)).node 0).v
            - ((spot (Real.sqrt 2 * Real.pi) (Real.sqrt 2 / 2)).node 0).v.yawDot ^ 2))
      = 2 * Real.sqrt 2 * Real.pi := by
    simp [Course.lapCost, spot, turn2]
    rw [show (Real.sqrt 2 / 2) ^ 2 = Real.sqrt 2 ^ 2 / 4 by ring, hs2]
    ring
  rw [hs] at hin
  obtain ⟨c1, c2⟩ := bowl_cost r.course hn hin hcont _ rs e
  have h3 := c2 (le_antisymm (hle.trans (le_of_eq hval)) c1)
  refine ⟨spot Real.pi 1, by rw [hs]; exact b1, by rw [hs]; exact b2, b3, lt_of_lt_of_le ?_ h3⟩
  have hl : (spot Real.pi 1).lapCost = 4 * Real.pi := by
    simp [Course.lapCost, spot, turn2]
    ring
  rw [hl]
  have : 4 < 3 * Real.sqrt 2 := by nlinarith
  exact mul_lt_mul_of_pos_right this Real.pi_pos

/-- C240 is false of closed circuits with slopes or banking: a solver that finds minima, a circuit, stations and
the path computed there, and another path at the same stations, within all the ranges, that is a curve, with a
smaller integral of the squared curvature. -/
theorem C240_false : ∃ (S : Solver) (k : Circuit) (s : List ℝ) (r : Result) (c : Course), Exact S ∧ Sized S ∧
    compute S true true (Real.pi / 180) k s = .ok r ∧ r.success = true ∧ c.OnSections k r.s ∧
    c.InRange 0 true (Real.pi / 180) k r.s ∧ c.Continuous 0 true k ∧ c.lapCost < r.course.lapCost := by
  obtain ⟨r, h, hr⟩ := bowl_computed
  obtain ⟨c, h1, h2, h3, h4⟩ := C240_false_always bestSolver bestSolver_exact true r h hr
  exact ⟨bestSolver, bowl, _, r, c, bestSolver_exact, bestSolver_sized, h, hr, h1, h2, h3, h4⟩

end Verif.Path
