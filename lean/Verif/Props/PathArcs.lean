import Verif.Props.PathSolve
import Verif.Props.PathGeometry

/-! Property theorems C249: the minimum curvature path of a track made of arcs. -/

set_option autoImplicit false

namespace Verif.Path

/-- The problem of a track made of arcs: its bounds. -/
theorem arcs_within {tol : ℝ} {t : Arcs.Track} {n : Nat} {x : List ℝ} :
    Within tol (arcsNlp t n).lower x (arcsNlp t n).upper ↔
      x.length = n ∧ ∀ a ∈ x, -10 - tol ≤ a ∧ a ≤ 10 + tol := by
  simp only [Within, arcsNlp, arcsBounds, forall₂_getElem?, List.length_replicate]
  constructor
  · rintro ⟨⟨h1, h2⟩, -, h3⟩
    refine ⟨h1.symm, fun a ha => ?_⟩
    obtain ⟨i, hi⟩ := List.mem_iff_getElem?.1 ha
    have hlt : i < n := h1 ▸ (List.getElem?_eq_some_iff.1 hi).1
    exact ⟨h2 i _ a (by rw [List.getElem?_replicate, if_pos hlt]) hi, h3 i a _ hi (by rw [List.getElem?_replicate, if_pos hlt])⟩
  · rintro ⟨h1, h2⟩
    refine ⟨⟨h1.symm, fun i a b ha hb => ?_⟩, h1, fun i a b ha hb => ?_⟩
    · rw [(List.mem_replicate.1 (List.mem_of_getElem? ha)).2]
      exact (h2 b (List.mem_of_getElem? hb)).1
    · rw [(List.mem_replicate.1 (List.mem_of_getElem? hb)).2]
      exact (h2 a (List.mem_of_getElem? ha)).2

theorem arcs_feasible {tol : ℝ} {t : Arcs.Track} {n : Nat} {x : List ℝ} {f : ℝ} :
    Feasible tol (arcsNlp t n) x f ↔
      (x.length = n ∧ ∀ a ∈ x, -10 - tol ≤ a ∧ a ≤ 10 + tol) ∧ arcsFitness t x = .ok f := by
  rw [Feasible, arcs_within]
  refine and_congr_right fun _ => ?_
  constructor
  · rintro ⟨g, h1, -⟩
    simp only [arcsNlp] at h1
    cases h : arcsFitness t x with
    | ok v =>
      rw [h] at h1
      have := Res.ok.inj h1
      rw [(List.cons.inj this).1]
    | throw => rw [h] at h1; cases h1
    | ub => rw [h] at h1; cases h1
  · intro h
    exact ⟨[], by simp only [arcsNlp, h]; rfl, by simp [Within, arcsNlp]⟩

theorem arcs_answer {S : Solver} {t : Arcs.Track} {n : Nat} {r : Result} (h : computeArcs S t n = .ok r) :
    r.success = (S (arcsNlp t n)).success ∧ r.arcs = (S (arcsNlp t n)).x := by
  unfold computeArcs at h
  obtain ⟨_, -, h2⟩ := Res.bind_eq_ok.1 h
  rw [← Res.ok.inj h2]
  exact ⟨rfl, rfl⟩

/-- C249, the part about the edges that holds: if the computation reports success, there is one displacement per point, and
on a track that is at least 20 m wide all of them are within the edges, as accurately as the solver satisfies the bounds. -/
theorem C249_edges_partial (tol : ℝ) (S : Solver) (hS : Accurate tol S) (t : Arcs.Track) (hw : 10 ≤ t.w) (n : Nat) (r : Result)
    (h : computeArcs S t n = .ok r) (hr : r.success = true) :
    r.arcs.length = n ∧ ∀ w ∈ r.arcs, -t.w - tol ≤ w ∧ w ≤ t.w + tol := by
  obtain ⟨h1, h2⟩ := arcs_answer h
  obtain ⟨f, hf⟩ := hS (arcsNlp t n) (h1 ▸ hr)
  obtain ⟨⟨h3, h4⟩, -⟩ := arcs_feasible.1 hf
  rw [h2]
  exact ⟨h3, fun w hw' => ⟨by linarith [(h4 w hw').1], by linarith [(h4 w hw').2]⟩⟩

/-- C249, the part about the curvature that holds: with a solver that finds minima no other displacements of up to 10 m have
a smaller sum of the criterion (C138, C139) than those returned. -/
theorem C249_best_partial (S : Solver) (hS : Exact S) (t : Arcs.Track) (n : Nat) (r : Result)
    (h : computeArcs S t n = .ok r) (hr : r.success = true) :
    (∀ w ∈ r.arcs, |w| ≤ 10) ∧ ∃ f, arcsFitness t r.arcs = .ok f ∧ ∀ (y : List ℝ) (f' : ℝ), y.length = n →
      (∀ w ∈ y, |w| ≤ 10) → arcsFitness t y = .ok f' → f ≤ f' := by
  obtain ⟨h1, h2⟩ := arcs_answer h
  obtain ⟨f, hf, hbest⟩ := hS (arcsNlp t n) (h1 ▸ hr)
  obtain ⟨⟨-, h4⟩, h5⟩ := arcs_feasible.1 hf
  rw [h2]
  refine ⟨fun w hw => abs_le.2 ⟨by linarith [(h4 w hw).1], by linarith [(h4 w hw).2]⟩, f, h5, fun y f' hy hb hf' => ?_⟩
  refine hbest y f' (arcs_feasible.2 ⟨⟨hy, fun a ha => ?_⟩, hf'⟩)
  have := abs_le.1 (hb a ha)
  exact ⟨by linarith, by linarith⟩

/-! ### A circle -/

/-- A circle of radius `R` to the right, `2 * half` wide. -/
noncomputable def circle (R half : ℝ) : Arcs.Track := ⟨[⟨(0, 0), (1, 0), 0, 1 / R⟩], R * (2 * Real.pi), half⟩

theorem circle_built (R half : ℝ) : Arcs.build 1 (2 * half) true [.corner false R (2 * Real.pi)] = .ok (circle R half) := by
  simp [Arcs.build, Arcs.buildFrom, Arcs.lastSeg, Arcs.curvatureOf, circle]

/-- The point of the circle at an arclength. -/
noncomputable def circlePoint (R s : ℝ) : Arcs.Point := Arcs.onSeg ⟨(0, 0), (1, 0), 0, 1 / R⟩ s

theorem circle_at (R half s : ℝ) : Arcs.at' (circle R half) s = .ok (circlePoint R s) := rfl

theorem circle_frame {R : ℝ} (hR : 10 < R) (hR' : R < 10 ^ 10) (s : ℝ) :
    (circlePoint R s).dr.1 ^ 2 + (circlePoint R s).dr.2 ^ 2 = 1 ∧
    (circlePoint R s).d2r = (1 / R) • Arcs.perp (circlePoint R s).dr ∧
    (circlePoint R s).d3r = -(1 / R * (1 / R)) • (circlePoint R s).dr := by
  have hu : Arcs.IsUnitVec ((1, 0) : Arcs.Vec) := by simp [Arcs.IsUnitVec]
  have hk : ¬ |(1 / R : ℝ)| < 1 / 10 ^ 10 := by
    rw [abs_of_pos (by positivity), not_lt]
    exact one_div_le_one_div_of_le (by linarith) hR'.le
  have h1 := Arcs.onSeg_unit (g := ⟨(0, 0), (1, 0), 0, 1 / R⟩) hu s
  obtain ⟨-, -, h3, h4⟩ := Arcs.onSeg_curved (g := ⟨(0, 0), (1, 0), 0, 1 / R⟩) hu hk s
  refine ⟨?_, h3, h4⟩
  have : (circlePoint R s).dr.1 * (circlePoint R s).dr.1 + (circlePoint R s).dr.2 * (circlePoint R s).dr.2 = 1 := h1
  rw [sq, sq, this]

theorem circle_criterion {R : ℝ} (hR : 10 < R) (hR' : R < 10 ^ 10) (s w dw d2w : ℝ) :
    pseudoCurvature2 (circlePoint R s) w dw d2w = (1 / R - (1 / R) ^ 2 * w + d2w) ^ 2 := by
  obtain ⟨h1, h2, h3⟩ := circle_frame hR hR' s
  generalize circlePoint R s = p at *
  generalize 1 / R = k at *
  obtain ⟨r, ⟨a, b⟩, d2, d3⟩ := p
  simp only [Arcs.perp, Prod.smul_mk, smul_eq_mul] at h1 h2 h3
  subst h2 h3
  simp only [pseudoCurvature2, Arcs.positionAt, Prod.smul_mk, smul_eq_mul, Prod.mk_add_mk, zero_mul, add_zero]
  have hd : a * a + b * b = 1 := by linarith [h1, sq a, sq b]
  rw [hd]
  have : a * (k * a + w * (-(k * k) * a) + 2 * dw * (k * -b) + d2w * a)
      - b * (k * -b + w * -(-(k * k) * b) + 2 * dw * -(k * a) + d2w * -b) = k - k ^ 2 * w + d2w := by
    linear_combination (k - k ^ 2 * w + d2w) * hd
  rw [this]
  ring

/-- The squared curvature of the path at a constant displacement from the circle: that of a circle of radius `R - w`. -/
theorem circle_bend {R : ℝ} (hR : 10 < R) (hR' : R < 10 ^ 10) (s w : ℝ) (hw : w < R) :
    planeCurvature2 (Arcs.positionAt (circlePoint R s) w 0 0).2.1 (Arcs.positionAt (circlePoint R s) w 0 0).2.2
      = (1 / (R - w)) ^ 2 := by
  obtain ⟨h1, h2, h3⟩ := circle_frame hR hR' s
  generalize circlePoint R s = p at *
  obtain ⟨k, hk⟩ : ∃ k, k = 1 / R := ⟨_, rfl⟩
  rw [← hk] at h2 h3
  obtain ⟨r, ⟨a, b⟩, d2, d3⟩ := p
  simp only [Arcs.perp, Prod.smul_mk, smul_eq_mul] at h1 h2 h3
  subst h2 h3
  simp only [planeCurvature2, Arcs.positionAt, Prod.smul_mk, smul_eq_mul, Prod.mk_add_mk, zero_mul, add_zero, mul_zero]
  have e1 : (a + w * -(k * a)) ^ 2 + (b + w * (k * -b)) ^ 2 = (1 - k * w) ^ 2 := by
    linear_combination (1 - k * w) ^ 2 * h1
  have e2 : (a + w * -(k * a)) * (k * a + w * (-(k * k) * a)) - (b + w * (k * -b)) * (k * -b + w * -(-(k * k) * b))
      = k * (1 - k * w) ^ 2 := by
    linear_combination k * (1 - k * w) ^ 2 * h1
  rw [e1, e2]
  have hRp : 0 < R := by linarith
  have hne : R - w ≠ 0 := by linarith
  have e3 : 1 - k * w = (R - w) / R := by rw [hk]; field_simp
  rw [e3, hk]
  field_simp

/-! ### Sums over all the points -/

theorem sum_next (n : Nat) (hn : 0 < n) (f : Nat → ℝ) :
    ∑ i ∈ Finset.range n, f ((i + 1) % n) = ∑ i ∈ Finset.range n, f i := by
  obtain ⟨m, rfl⟩ : ∃ m, n = m + 1 := ⟨n - 1, by omega⟩
  rw [Finset.sum_range_succ, Finset.sum_range_succ' f m, Nat.mod_self]
  congr 1
  refine Finset.sum_congr rfl fun i hi => ?_
  rw [Nat.mod_eq_of_lt (by have := Finset.mem_range.1 hi; omega)]

theorem sum_before (n : Nat) (hn : 0 < n) (f : Nat → ℝ) :
    ∑ i ∈ Finset.range n, f ((i + (n - 1)) % n) = ∑ i ∈ Finset.range n, f i := by
  rw [← sum_next n hn fun i => f ((i + (n - 1)) % n)]
  refine Finset.sum_congr rfl fun i hi => ?_
  have hi := Finset.mem_range.1 hi
  congr 1
  by_cases h : i + 1 = n
  · rw [h, Nat.mod_self, Nat.zero_add, Nat.mod_eq_of_lt (by omega)]
    omega
  · rw [Nat.mod_eq_of_lt (by omega : i + 1 < n), show i + 1 + (n - 1) = i + n by omega, Nat.add_mod_right,
      Nat.mod_eq_of_lt hi]

/-- The cost on the circle. -/
noncomputable def circleCost (R : ℝ) (n : Nat) (w : Nat → ℝ) : ℝ :=
  ∑ i ∈ Finset.range n, (1 / R - (1 / R) ^ 2 * w i
    + (w ((i + 1) % n) + w ((i + (n - 1)) % n) - 2 * w i) / (R * (2 * Real.pi) / n) ^ 2) ^ 2 * (R * (2 * Real.pi) / n)

theorem circle_cost {R half : ℝ} (hR : 10 < R) (hR' : R < 10 ^ 10) (n : Nat) (hn : 2 ≤ n) (w : Nat → ℝ) :
    arcsFitness (circle R half) ((List.range n).map w) = .ok (circleCost R n w) := by
  obtain ⟨P, h1, h2⟩ := C138_periodic (circle R half) (List.cons_ne_nil _ _) n hn w
  rw [h2]
  congr 1
  refine Finset.sum_congr rfl fun i _ => ?_
  have := h1 (i * ((circle R half).total / n))
  rw [circle_at] at this
  rw [← Res.ok.inj this, circle_criterion hR hR']
  rfl

/-- The cost exceeds that of the displacement by 10 m to the inside by a multiple of the missing displacement. -/
theorem circle_excess {R : ℝ} (hR : 10 < R) (n : Nat) (hn : 2 ≤ n) (w : Nat → ℝ) :
    circleCost R n (fun _ => 10) + 2 * (1 / R - (1 / R) ^ 2 * 10) * (1 / R) ^ 2 * (R * (2 * Real.pi) / n)
      * ∑ i ∈ Finset.range n, (10 - w i) ≤ circleCost R n w := by
  obtain ⟨k, hk⟩ : ∃ k, k = 1 / R := ⟨_, rfl⟩
  obtain ⟨ds, hds⟩ : ∃ ds : ℝ, ds = R * (2 * Real.pi) / n := ⟨_, rfl⟩
  have hdp : 0 < ds := by
    rw [hds]
    have : (0 : ℝ) < n := by exact_mod_cast (by omega : 0 < n)
    have := Real.pi_pos
    have : 0 < R := by linarith
    positivity
  simp only [circleCost, ← hk, ← hds]
  have hz : ∑ i ∈ Finset.range n, (w ((i + 1) % n) + w ((i + (n - 1)) % n) - 2 * w i) / ds ^ 2 = 0 := by
    simp only [div_eq_mul_inv]
    rw [← Finset.sum_mul, Finset.sum_sub_distrib, Finset.sum_add_distrib, sum_next n (by omega), sum_before n (by omega),
      ← Finset.mul_sum]
    ring
  have hlin : ∑ i ∈ Finset.range n, ((k - k ^ 2 * 10 + (10 + 10 - 2 * 10) / ds ^ 2) ^ 2 * ds
      + 2 * (k - k ^ 2 * 10) * ds * (k ^ 2 * (10 - w i)
        + (w ((i + 1) % n) + w ((i + (n - 1)) % n) - 2 * w i) / ds ^ 2))
      = ∑ i ∈ Finset.range n, (k - k ^ 2 * 10 + (10 + 10 - 2 * 10) / ds ^ 2) ^ 2 * ds
        + 2 * (k - k ^ 2 * 10) * k ^ 2 * ds * ∑ i ∈ Finset.range n, (10 - w i) := by
    rw [Finset.sum_add_distrib]
    congr 1
    rw [← Finset.mul_sum, Finset.sum_add_distrib, hz, ← Finset.mul_sum]
    ring
  rw [← hlin]
  refine Finset.sum_le_sum fun i _ => ?_
  generalize (w ((i + 1) % n) + w ((i + (n - 1)) % n) - 2 * w i) / ds ^ 2 = d
  have e : (10 + 10 - 2 * 10 : ℝ) / ds ^ 2 = 0 := by norm_num
  rw [e]
  nlinarith [mul_nonneg hdp.le (sq_nonneg (k ^ 2 * (10 - w i) + d))]

theorem list_eq_map (x : List ℝ) : x = (List.range x.length).map fun i => x.getD i 0 := by
  refine List.ext_getElem (by simp) fun i h1 h2 => ?_
  simp [List.getD_eq_getElem?_getD, List.getElem?_eq_getElem h1]

/-- C249 is false: on a circle of radius more than 10 m, however narrow, a solver that finds minima moves every point by
10 m to the inside: outside of the edges of a track less than 20 m wide, and along a path of smaller radius, which turns more
tightly everywhere than the centreline. -/
theorem C249_false (R half : ℝ) (hR : 10 < R) (hR' : R < 10 ^ 10) : ∃ (t : Arcs.Track) (P : ℝ → Arcs.Point),
    Arcs.build 1 (2 * half) true [.corner false R (2 * Real.pi)] = .ok t ∧ t.w = half ∧ (∀ s, Arcs.at' t s = .ok (P s)) ∧
    (∀ S, Exact S → ∀ n r, computeArcs S t n = .ok r → r.success = true → r.arcs = List.replicate n 10) ∧
    ∀ s, planeCurvature2 (Arcs.positionAt (P s) 0 0 0).2.1 (Arcs.positionAt (P s) 0 0 0).2.2
      < planeCurvature2 (Arcs.positionAt (P s) 10 0 0).2.1 (Arcs.positionAt (P s) 10 0 0).2.2 := by
  refine ⟨circle R half, circlePoint R, circle_built R half, rfl, circle_at R half, fun S hS n r h hr => ?_, fun s => ?_⟩
  · have hn : 2 ≤ n := by
      by_contra hn
      rw [(C239_arcs S (circle R half) (List.cons_ne_nil _ _) n).2 (by omega)] at h
      cases h
    obtain ⟨h1, h2⟩ := arcs_answer h
    obtain ⟨f, hf, hbest⟩ := hS _ (h1 ▸ hr)
    obtain ⟨⟨h3, h4⟩, h5⟩ := arcs_feasible.1 hf
    have hten := hbest (List.replicate n 10) (circleCost R n fun _ => 10) (arcs_feasible.2 ⟨⟨by simp, fun a ha => by
      rw [(List.mem_replicate.1 ha).2]; norm_num⟩, by
      have := circle_cost (half := half) hR hR' n hn fun _ => 10
      rwa [List.map_const', List.length_range] at this⟩)
    rw [list_eq_map (S (arcsNlp (circle R half) n)).x, h3, circle_cost hR hR' n hn] at h5
    have hx := circle_excess hR n hn fun i => (S (arcsNlp (circle R half) n)).x.getD i 0
    rw [Res.ok.inj h5] at hx
    have hpos : 0 < 2 * (1 / R - (1 / R) ^ 2 * 10) * (1 / R) ^ 2 * (R * (2 * Real.pi) / n) := by
      have e : 1 / R - (1 / R) ^ 2 * 10 = (R - 10) / R ^ 2 := by
        field_simp
      rw [e]
      have : (0 : ℝ) < n := by exact_mod_cast (by omega : 0 < n)
      have := Real.pi_pos
      have : 0 < R := by linarith
      have : 0 < R - 10 := by linarith
      positivity
    have hle : ∑ i ∈ Finset.range n, (10 - (S (arcsNlp (circle R half) n)).x.getD i 0) ≤ 0 := by
      by_contra hc
      have := mul_pos hpos (not_le.1 hc)
      linarith
    have hnn : ∀ i ∈ Finset.range n, 0 ≤ 10 - (S (arcsNlp (circle R half) n)).x.getD i 0 := by
      intro i hi
      have hi := Finset.mem_range.1 hi
      have := (h4 _ (List.getElem_mem (by omega : i < (S (arcsNlp (circle R half) n)).x.length))).2
      rw [List.getD_eq_getElem?_getD, List.getElem?_eq_getElem (by omega)]
      simpa using this
    have hzero := (Finset.sum_eq_zero_iff_of_nonneg hnn).1 (le_antisymm hle (Finset.sum_nonneg hnn))
    rw [h2, List.eq_replicate_iff]
    refine ⟨h3, fun b hb => ?_⟩
    obtain ⟨i, hi⟩ := List.mem_iff_getElem?.1 hb
    have hlt : i < n := h3 ▸ (List.getElem?_eq_some_iff.1 hi).1
    have := hzero i (Finset.mem_range.2 hlt)
    rw [List.getD_eq_getElem?_getD, hi] at this
    simp at this
    linarith
  · rw [circle_bend hR hR' s 0 (by linarith), circle_bend hR hR' s 10 hR, sub_zero]
    have h1 : 1 / R < 1 / (R - 10) := one_div_lt_one_div_of_lt (by linarith) (by linarith)
    have : 0 < 1 / R := by
      have : 0 < R := by linarith
      positivity
    nlinarith

/-! ### Cases -/

/-- The solver of the examples succeeds on the circle. -/
theorem circle_success {R half : ℝ} (hR : 10 < R) (hR' : R < 10 ^ 10) (n : Nat) (hn : 2 ≤ n) :
    (bestSolver (arcsNlp (circle R half) n)).success = true := by
  have hten : arcsFitness (circle R half) (List.replicate n 10) = .ok (circleCost R n fun _ => 10) := by
    have := circle_cost (half := half) hR hR' n hn fun _ => 10
    rwa [List.map_const', List.length_range] at this
  have : ∃ x : List ℝ, x.length ≤ (arcsNlp (circle R half) n).start.length ∧
      ∃ f, Feasible 0 (arcsNlp (circle R half) n) x f ∧ ∀ y f', Feasible 0 (arcsNlp (circle R half) n) y f' → f ≤ f' := by
    refine ⟨List.replicate n 10, by simp [arcsNlp], _, arcs_feasible.2 ⟨⟨by simp, fun a ha => by
      rw [(List.mem_replicate.1 ha).2]; norm_num⟩, hten⟩, fun y f' hy => ?_⟩
    obtain ⟨⟨h3, h4⟩, h5⟩ := arcs_feasible.1 hy
    rw [list_eq_map y, h3, circle_cost hR hR' n hn] at h5
    rw [← Res.ok.inj h5]
    have hx := circle_excess hR n hn fun i => y.getD i 0
    have hnn : 0 ≤ ∑ i ∈ Finset.range n, (10 - y.getD i 0) := by
      refine Finset.sum_nonneg fun i hi => ?_
      have hi := Finset.mem_range.1 hi
      have := (h4 _ (List.getElem_mem (by omega : i < y.length))).2
      rw [List.getD_eq_getElem?_getD, List.getElem?_eq_getElem (by omega)]
      simpa using this
    have hpos : 0 ≤ 2 * (1 / R - (1 / R) ^ 2 * 10) * (1 / R) ^ 2 * (R * (2 * Real.pi) / n) := by
      have e : 1 / R - (1 / R) ^ 2 * 10 = (R - 10) / R ^ 2 := by
        field_simp
      rw [e]
      have := Real.pi_pos
      have : 0 < R := by linarith
      have : 0 < R - 10 := by linarith
      positivity
    have := mul_nonneg hpos hnn
    linarith
  unfold bestSolver
  rw [dif_pos this]

/-- C249 on a circle of radius 20 m that is 24 m wide: the path is within the edges; with one of 8 m it is not. -/
example : ∃ r r' : Result, computeArcs bestSolver (circle 20 12) 50 = .ok r ∧ computeArcs bestSolver (circle 20 4) 50 = .ok r' ∧
    r.success = true ∧ r'.success = true ∧ (∀ w ∈ r.arcs, -12 ≤ w ∧ w ≤ 12) ∧ ∃ w ∈ r'.arcs, (circle 20 4).w < w := by
  obtain ⟨r, h1, h2, -⟩ := (C239_arcs bestSolver (circle 20 12) (List.cons_ne_nil _ _) 50).1 (by norm_num)
  obtain ⟨r', h1', h2', -⟩ := (C239_arcs bestSolver (circle 20 4) (List.cons_ne_nil _ _) 50).1 (by norm_num)
  rw [circle_success (by norm_num) (by norm_num) 50 (by norm_num)] at h2 h2'
  refine ⟨r, r', h1, h1', h2, h2', fun w hw => ?_, 10, ?_, by norm_num [circle]⟩
  · have := (C249_edges_partial 0 bestSolver bestSolver_accurate (circle 20 12) (by norm_num [circle]) 50 r h1 h2).2 w hw
    have e : (circle 20 12).w = 12 := rfl
    rw [e] at this
    exact ⟨by linarith [this.1], by linarith [this.2]⟩
  · obtain ⟨t, P, g1, -, -, g2, -⟩ := C249_false 20 4 (by norm_num) (by norm_num)
    obtain rfl := Res.ok.inj ((circle_built 20 4).symm.trans g1)
    rw [g2 bestSolver bestSolver_exact 50 r' h1' h2']
    exact List.mem_replicate.2 ⟨by norm_num, rfl⟩

example : ∃ (r : Result) (f : ℝ), computeArcs bestSolver (circle 20 12) 50 = .ok r ∧
    arcsFitness (circle 20 12) r.arcs = .ok f ∧ f ≤ circleCost 20 50 fun i => if i % 2 = 0 then 1 else -3 := by
  obtain ⟨r, h1, h2, -⟩ := (C239_arcs bestSolver (circle 20 12) (List.cons_ne_nil _ _) 50).1 (by norm_num)
  rw [circle_success (by norm_num) (by norm_num) 50 (by norm_num)] at h2
  obtain ⟨-, f, h3, h4⟩ := C249_best_partial bestSolver bestSolver_exact _ 50 r h1 h2
  refine ⟨r, f, h1, h3, h4 _ _ (by simp) (fun w hw => ?_) (circle_cost (by norm_num) (by norm_num) 50 (by norm_num) _)⟩
  obtain ⟨i, -, rfl⟩ := List.mem_map.1 hw
  split <;> norm_num [abs_le]

end Verif.Path
