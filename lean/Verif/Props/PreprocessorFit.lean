import Verif.Lemmas.PreprocessorFit
import Mathlib.Tactic.NormNum
import Mathlib.Tactic.IntervalCases
import Mathlib.Tactic.FieldSimp

/-! # The fitting problem of the track preprocessor -/

set_option autoImplicit false

namespace Verif.Preprocessor

open Verif.Road (Vec3)

/-! ## C116: the constraints -/

/-- C116. The vector of cost and constraints is filled exactly: no write past its end and none of its
entries left over, for open and closed circuits with any number of points. -/
theorem C116_filled (c : Circuit) (hn : 0 < c.n) (p : Problem) (hds : p.ds = c.lengths p.closed)
    (f : ℝ) :
    ∃ cost rs, evaluate p f c.nodes = .ok (cost, rs) ∧
      rs.length = nConstraints p.kind p.closed (if p.closed then c.n else c.n - 1) ∧
      fgVector p (if p.closed then c.n else c.n - 1) f c.nodes
        = .ok (cost :: rs, 1 + nConstraints p.kind p.closed (if p.closed then c.n else c.n - 1)) := by
  suffices h : ∃ cost rs, evaluate p f c.nodes = .ok (cost, rs) ∧
      rs.length = nConstraints p.kind p.closed (if p.closed then c.n else c.n - 1) by
    obtain ⟨cost, rs, h1, h2⟩ := h
    refine ⟨cost, rs, h1, h2, ?_⟩
    unfold fgVector
    rw [h1, Res.bind_ok, Transcription.storeAll_eq _ _ _ (by simp [h2]; omega)]
    simp [h2]
  cases hc : p.closed with
  | true =>
    rw [hc] at hds
    refine ⟨_, _, evaluate_closed c hn p hc hds f, ?_⟩
    obtain ⟨m, hm⟩ : ∃ m, c.n = m + 1 := ⟨c.n - 1, by omega⟩
    simp only [List.length_append, flatMap_rows_length, closingRows_length, List.length_singleton,
      nConstraints, hm, Nat.add_sub_cancel, if_true]
    ring
  | false =>
    rw [hc] at hds
    refine ⟨_, _, evaluate_open c hn p hc hds f, ?_⟩
    simp only [List.length_append, flatMap_rows_length, List.length_singleton, nConstraints,
      Bool.false_eq_true, if_false]
    ring

/-- C116. The slope the constraints use for a state is the rate named in the specification: the
position moves along the heading, the angles change by their rates, and these and the widths by the
controls. -/
theorem C116_rates (k : Kind) (Q : Quantity) (hQ : Q.used k = true) (hs : Q.isState = true) :
    ∃ j < nStates k, ∀ q u : Nat → ℝ,
      (store k q u).get Q = q j ∧ (equations k q u).getD j 0 = rate (store k q u) Q := by
  cases k <;> cases Q <;> first
    | exact absurd hQ (by decide)
    | exact absurd hs (by decide)
    | exact ⟨0, by decide, fun q u => ⟨rfl, by simp [equations, rate, store]⟩⟩
    | exact ⟨1, by decide, fun q u => ⟨rfl, by simp [equations, rate, store]⟩⟩
    | exact ⟨2, by decide, fun q u => ⟨rfl, by simp [equations, rate, store]⟩⟩
    | exact ⟨3, by decide, fun q u => ⟨rfl, by simp [equations, rate, store]⟩⟩
    | exact ⟨4, by decide, fun q u => ⟨rfl, by simp [equations, rate, store]⟩⟩
    | exact ⟨5, by decide, fun q u => ⟨rfl, by simp [equations, rate, store]⟩⟩
    | exact ⟨6, by decide, fun q u => ⟨rfl, by simp [equations, rate, store]⟩⟩
    | exact ⟨7, by decide, fun q u => ⟨rfl, by simp [equations, rate, store]⟩⟩
    | exact ⟨8, by decide, fun q u => ⟨rfl, by simp [equations, rate, store]⟩⟩
    | exact ⟨9, by decide, fun q u => ⟨rfl, by simp [equations, rate, store]⟩⟩
    | exact ⟨10, by decide, fun q u => ⟨rfl, by simp [equations, rate, store]⟩⟩

/-- C116. On a closed circuit the constraints hold exactly when every state changes over every element
by the trapezoidal rule, the closing element included, where the heading gains a full turn; and the
first point is on the start line. -/
theorem C116_closed (c : Circuit) (hn : 0 < c.n) (p : Problem) (hc : p.closed = true)
    (hds : p.ds = c.lengths true) (f : ℝ) :
    ∃ cost rs, evaluate p f c.nodes = .ok (cost, rs) ∧
      ((∀ r ∈ rs, r = 0) ↔
        (∀ i, i + 1 < c.n → ∀ j < nStates p.kind,
          (c.node (i + 1)).q j - (c.node i).q j = c.change p.kind f i (i + 1) j) ∧
        (∀ j < nStates p.kind,
          (c.node 0).q j + (if j = iYaw p.kind then 2 * Real.pi * p.direction else 0)
            - (c.node (c.n - 1)).q j = c.change p.kind f (c.n - 1) 0 j) ∧
        offLine p.leftFirst p.rightFirst (centre p.kind (c.node 0).q) = 0) := by
  refine ⟨_, _, evaluate_closed c hn p hc hds f, ?_⟩
  simp only [List.mem_append, or_imp, forall_and, List.mem_flatMap, forall_exists_index, and_imp,
    List.mem_range, List.mem_singleton, forall_eq, and_assoc]
  refine and_congr ?_ (and_congr (mem_closingRows_zero c _ _ _ _ _) Iff.rfl)
  constructor
  · intro h i hi
    exact (mem_rows_zero c p.kind f i (i + 1)).1 fun r hr => h r i (by omega) hr
  · intro h r i hi hr
    exact (mem_rows_zero c p.kind f i (i + 1)).2 (h i (by omega)) r hr

/-- C116. On an open track the constraints hold exactly when every state changes over every element by
the trapezoidal rule, the first point is on the start line and the last one on the finish line. -/
theorem C116_open (c : Circuit) (hn : 0 < c.n) (p : Problem) (hc : p.closed = false)
    (hds : p.ds = c.lengths false) (f : ℝ) :
    ∃ cost rs, evaluate p f c.nodes = .ok (cost, rs) ∧
      ((∀ r ∈ rs, r = 0) ↔
        (∀ i, i + 1 < c.n → ∀ j < nStates p.kind,
          (c.node (i + 1)).q j - (c.node i).q j = c.change p.kind f i (i + 1) j) ∧
        offLine p.leftFirst p.rightFirst (centre p.kind (c.node 0).q) = 0 ∧
        offLine p.leftLast p.rightLast (centre p.kind (c.node (c.n - 1)).q) = 0) := by
  refine ⟨_, _, evaluate_open c hn p hc hds f, ?_⟩
  simp only [List.mem_append, or_imp, forall_and, List.mem_flatMap, forall_exists_index, and_imp,
    List.mem_range, List.mem_singleton, forall_eq, and_assoc]
  refine and_congr ?_ Iff.rfl
  constructor
  · intro h i hi
    exact (mem_rows_zero c p.kind f i (i + 1)).1 fun r hr => h r i (by omega) hr
  · intro h r i hi hr
    exact (mem_rows_zero c p.kind f i (i + 1)).2 (h i (by omega)) r hr

/-- C116. The state that gains a full turn is the heading stored for the point. -/
theorem C116_heading (k : Kind) (q u : Nat → ℝ) : q (iYaw k) = (store k q u).yaw ∧ iYaw k < nStates k := by
  cases k <;> exact ⟨rfl, by decide⟩

/-- C116. A closed circuit that satisfies the constraints turns exactly once, in its direction, over
the lap, and comes back to where it started: the trapezoidal integral over the whole lap of the
curvature is a full turn and that of the derivative of every other state is zero. -/
theorem C116_one_turn (c : Circuit) (hn : 0 < c.n) (p : Problem) (hc : p.closed = true)
    (hds : p.ds = c.lengths true) (f cost : ℝ) (rs : List ℝ)
    (he : evaluate p f c.nodes = .ok (cost, rs)) (hrs : ∀ r ∈ rs, r = 0) (j : Nat)
    (hj : j < nStates p.kind) :
    ∑ i ∈ Finset.range c.n, c.change p.kind f i ((i + 1) % c.n) j
      = if j = iYaw p.kind then 2 * Real.pi * p.direction else 0 := by
  obtain ⟨cost', rs', h1, h2⟩ := C116_closed c hn p hc hds f
  rw [h1] at he
  simp only [Res.ok.injEq, Prod.mk.injEq] at he
  rw [he.2] at h2
  obtain ⟨ha, hb, _⟩ := h2.1 hrs
  obtain ⟨m, hm⟩ : ∃ m, c.n = m + 1 := ⟨c.n - 1, by omega⟩
  have hin : ∀ i ∈ Finset.range m, c.change p.kind f i ((i + 1) % c.n) j
      = (c.node (i + 1)).q j - (c.node i).q j := by
    intro i hi
    have hi := Finset.mem_range.1 hi
    rw [Nat.mod_eq_of_lt (by omega), ha i (by omega) j hj]
  have hlast := hb j hj
  rw [hm, Nat.add_sub_cancel] at hlast
  rw [show Finset.range c.n = Finset.range (m + 1) by rw [hm], Finset.sum_range_succ,
    Finset.sum_congr rfl hin, Finset.sum_range_sub (fun i => (c.node i).q j)]
  rw [hm, Nat.mod_self, ← hlast]
  ring

/-- C116. A point is on the start line, in the sense of the constraint, exactly when seen from above it
is on the straight line through the first measured points of both sides (which must not be on top of
each other). -/
theorem C116_start_line (left right point : Vec3)
    (hne : left.1 ≠ right.1 ∨ left.2.1 ≠ right.2.1) :
    offLine left right point = 0 ↔
      ∃ t : ℝ, point.1 = right.1 + t * (left.1 - right.1) ∧
        point.2.1 = right.2.1 + t * (left.2.1 - right.2.1) := by
  have hpos : 0 < (left.1 - right.1) * (left.1 - right.1)
      + (left.2.1 - right.2.1) * (left.2.1 - right.2.1)
      + (left.2.2 - right.2.2) * (left.2.2 - right.2.2) := by
    rcases hne with h | h
    · have := mul_self_pos.2 (sub_ne_zero.2 h)
      nlinarith [mul_self_nonneg (left.2.1 - right.2.1), mul_self_nonneg (left.2.2 - right.2.2)]
    · have := mul_self_pos.2 (sub_ne_zero.2 h)
      nlinarith [mul_self_nonneg (left.1 - right.1), mul_self_nonneg (left.2.2 - right.2.2)]
  unfold offLine
  simp only
  rw [div_eq_zero_iff, or_iff_left (ne_of_gt hpos)]
  constructor
  · intro h
    rcases hne with h1 | h1
    · have h1' := sub_ne_zero.2 h1
      refine ⟨(point.1 - right.1) / (left.1 - right.1), by field_simp; ring, ?_⟩
      field_simp
      linear_combination h
    · have h1' := sub_ne_zero.2 h1
      refine ⟨(point.2.1 - right.2.1) / (left.2.1 - right.2.1), ?_, by field_simp; ring⟩
      field_simp
      linear_combination -h
  · rintro ⟨t, h1, h2⟩
    rw [h1, h2]; ring

/-- A straight open track of two points satisfies the constraints. -/
example : ∃ (c : Circuit) (p : Problem), p.closed = false ∧ p.ds = c.lengths false ∧ c.n = 2 ∧
    ∃ cost rs, evaluate p 1 c.nodes = .ok (cost, rs) ∧ ∀ r ∈ rs, r = 0 := by
  let c : Circuit := ⟨2, fun i => ⟨fun j => if j = 0 then i else 0, fun _ => 0, 0, 0, 0⟩, fun _ => 1⟩
  let p : Problem := ⟨.flat, false, c.lengths false, 0, ⟨1, 1, 1, 1, 1, 1⟩, (0, -1, 0), (0, 1, 0),
    (1, -1, 0), (1, 1, 0)⟩
  refine ⟨c, p, rfl, rfl, rfl, ?_⟩
  obtain ⟨cost, rs, h1, h2⟩ := C116_open c (by decide) p rfl rfl 1
  refine ⟨cost, rs, h1, h2.2 ⟨?_, ?_, ?_⟩⟩
  · intro i hi j hj
    have hi0 : i = 0 := by simp only [c] at hi; omega
    have hj : j < 6 := hj
    subst hi0
    interval_cases j <;> simp [c, p, Circuit.change, Circuit.slope, equations, FlatState.val]
    norm_num
  · simp [c, p, offLine, centre, coordinates, FlatState.val]
  · simp [c, p, offLine, centre, coordinates, FlatState.val]

/-- A closed flat circuit of four nodes, on which the heading gains a quarter of a turn per element. -/
noncomputable def square : Circuit :=
  ⟨4, fun i => ⟨fun j => ([[0, 1, 0, -1], [0, 1, 2, 1],
      [0, Real.pi / 2, Real.pi, Real.pi + Real.pi / 2],
      [Real.pi / 4, Real.pi / 4, Real.pi / 4, Real.pi / 4]].getD j []).getD i 0,
    fun _ => 0, 0, 0, 0⟩, fun _ => 2⟩

/-- Its fitting problem. -/
noncomputable def squareProblem : Problem :=
  ⟨.flat, true, square.lengths true, 1, ⟨1, 1, 1, 1, 1, 1⟩, (0, -1, 0), (0, 1, 0), (0, -1, 0), (0, 1, 0)⟩

/-- The circuit satisfies the constraints. -/
example : ∃ cost rs, evaluate squareProblem 1 square.nodes = .ok (cost, rs) ∧ ∀ r ∈ rs, r = 0 := by
  obtain ⟨cost, rs, h1, h2⟩ := C116_closed square (by decide) squareProblem rfl rfl 1
  have hc : Real.cos (Real.pi + Real.pi / 2) = 0 := by rw [Real.cos_add_pi_div_two]; simp
  have hs : Real.sin (Real.pi + Real.pi / 2) = -1 := by rw [Real.sin_add_pi_div_two]; simp
  refine ⟨cost, rs, h1, h2.2 ⟨?_, ?_, ?_⟩⟩
  · intro i hi j hj
    have hi : i + 1 < 4 := hi
    have hi : i < 3 := by omega
    have hj : j < 6 := hj
    interval_cases i <;> interval_cases j <;>
      simp [square, squareProblem, Circuit.change, Circuit.slope, equations, FlatState.val, hc, hs,
        cDyawDot, cDnl, cDnr] <;> ring
  · intro j hj
    have hj : j < 6 := hj
    interval_cases j <;>
      simp [square, squareProblem, Circuit.change, Circuit.slope, equations, FlatState.val, hc, hs,
        cDyawDot, cDnl, cDnr, iYaw]
    ring
  · simp [square, squareProblem, offLine, centre, coordinates, FlatState.val]

/-! ## C117: the cost -/

/-- C117. On an open track the cost is the trapezoidal integral over all the elements of the weighted
squares of the distances to the measured boundaries, of the distance to the centreline estimate and of
the controls. -/
theorem C117_open (c : Circuit) (hn : 0 < c.n) (p : Problem) (hc : p.closed = false)
    (hds : p.ds = c.lengths false) (f : ℝ) :
    ∃ rs, evaluate p f c.nodes = .ok
      (∑ i ∈ Finset.range (c.n - 1), c.elementCost p.kind p.weights f i (i + 1), rs) :=
  ⟨_, evaluate_open c hn p hc hds f⟩

/-- Cost of a closed circuit as it should be: every element alike. -/
noncomputable def lapCost (c : Circuit) (k : Kind) (w : Weights) (f : ℝ) : ℝ :=
  ∑ i ∈ Finset.range c.n, c.elementCost k w f i ((i + 1) % c.n)

theorem lapCost_eq (c : Circuit) (hn : 0 < c.n) (k : Kind) (w : Weights) (f : ℝ) :
    lapCost c k w f = (∑ j ∈ Finset.range (c.n - 1), c.elementCost k w f j (j + 1))
      + c.elementCost k w f (c.n - 1) 0 := by
  obtain ⟨m, hm⟩ : ∃ m, c.n = m + 1 := ⟨c.n - 1, by omega⟩
  unfold lapCost
  rw [hm, Finset.sum_range_succ, Nat.mod_self, Nat.add_sub_cancel]
  congr 1
  refine Finset.sum_congr rfl fun i hi => ?_
  rw [Nat.mod_eq_of_lt (by have := Finset.mem_range.1 hi; omega)]

/-- C117, the part that holds. On a closed flat circuit the cost is the integral over all the elements,
the closing one like the others; on an elevated one the closing element lacks the terms of pitch and
roll. -/
theorem C117_closed_partial (c : Circuit) (hn : 0 < c.n) (p : Problem) (hc : p.closed = true)
    (hds : p.ds = c.lengths true) (f : ℝ) :
    ∃ cost rs, evaluate p f c.nodes = .ok (cost, rs) ∧
      (p.kind = .flat → cost = lapCost c p.kind p.weights f) ∧
      (p.kind = .elevated → cost = lapCost c p.kind p.weights f
        - f * c.ds (c.n - 1) / 2
          * (p.weights.pitch * (((c.node 0).u 1) ^ 2 + ((c.node (c.n - 1)).u 1) ^ 2)
            + p.weights.roll * (((c.node 0).u 2) ^ 2 + ((c.node (c.n - 1)).u 2) ^ 2))) := by
  refine ⟨_, _, evaluate_closed c hn p hc hds f, ?_, ?_⟩
  · intro hk
    rw [lapCost_eq c hn, ← fullCost_eq, fullCost, hk]
    simp [elevationCost]
  · intro hk
    rw [lapCost_eq c hn, ← fullCost_eq c _ _ _ (c.n - 1) 0, fullCost, hk]
    simp only [elevationCost, cDpitchDot, cDrollDot]
    ring

/-- C117. On a closed flat circuit the cost does not depend on the point where the circuit starts. -/
theorem C117_flat_start_invariant (c : Circuit) (hn : 0 < c.n) (p p' : Problem)
    (hk : p.kind = .flat) (hc : p.closed = true) (hds : p.ds = c.lengths true)
    (hk' : p'.kind = .flat) (hc' : p'.closed = true) (hds' : p'.ds = c.rotate.lengths true)
    (hw : p'.weights = p.weights) (f : ℝ) :
    ∃ cost rs rs', evaluate p f c.nodes = .ok (cost, rs) ∧
      evaluate p' f c.rotate.nodes = .ok (cost, rs') := by
  obtain ⟨cost, rs, h1, h2, _⟩ := C117_closed_partial c hn p hc hds f
  obtain ⟨cost', rs', h3, h4, _⟩ := C117_closed_partial c.rotate hn p' hc' hds' f
  refine ⟨cost, rs, rs', h1, ?_⟩
  rw [h3, h2 hk, h4 hk', hk, hk', hw]
  congr 2
  obtain ⟨m, hm⟩ : ∃ m, c.n = m + 1 := ⟨c.n - 1, by omega⟩
  have e : ∀ i, c.rotate.elementCost .flat p.weights f i ((i + 1) % c.rotate.n)
      = c.elementCost .flat p.weights f ((i + 1) % c.n) ((((i + 1) % c.n) + 1) % c.n) := fun i => rfl
  unfold lapCost
  simp only [e]
  show ∑ i ∈ Finset.range c.n, _ = _
  rw [hm, Finset.sum_range_succ, Nat.mod_self, Finset.sum_range_succ' _ m]
  congr 1
  refine Finset.sum_congr rfl fun i hi => ?_
  rw [Nat.mod_eq_of_lt (by have := Finset.mem_range.1 hi; omega : i + 1 < m + 1)]

/-- A closed elevated circuit of two points with a change of pitch at the first one only. -/
def bump : Circuit :=
  ⟨2, fun i => ⟨fun _ => 0, fun j => if i = 0 ∧ j = 1 then 1 else 0, 0, 0, 0⟩,
    fun i => if i = 0 then 1 else 3⟩

/-- The fitting problem of a circuit with unit weights. -/
def unitProblem (c : Circuit) : Problem :=
  ⟨.elevated, true, c.lengths true, 1, ⟨1, 1, 1, 1, 1, 1⟩, (0, -1, 0), (0, 1, 0), (0, -1, 0), (0, 1, 0)⟩

/-- C117 is false with elevation: the cost of the same closed circuit depends on the point where it
starts. -/
theorem C117_false : ∃ cost cost' rs rs',
    evaluate (unitProblem bump) 1 bump.nodes = .ok (cost, rs) ∧
    evaluate (unitProblem bump.rotate) 1 bump.rotate.nodes = .ok (cost', rs') ∧ cost ≠ cost' := by
  refine ⟨_, _, _, _, evaluate_closed bump (by decide) _ rfl rfl 1,
    evaluate_closed bump.rotate (by decide) _ rfl rfl 1, ?_⟩
  simp [bump, unitProblem, Circuit.rotate, Circuit.elementCost, commonCost, cDyawDot, cDnl, cDnr,
    cDpitchDot, cDrollDot]
  norm_num

/-! ## C118: arclength -/

/-- C118. The arclengths of the result are those of the centreline estimate, from zero and scaled by
the factor found by the optimisation; the length of the track is scaled alike (of a closed circuit it
includes the closing element). -/
theorem C118_scaled (closed : Bool) (f L a : ℝ) (l : List ℝ) :
    ∃ ds, elementDs closed (a :: l) L = .ok ds ∧
      arclengths closed f (l.length + 1) ds
        = .ok ((a :: l).map (fun v => f * (v - a)),
            f * ((if closed then L else (a :: l).getLast (by simp)) - a)) := by
  refine ⟨differences (a :: l) ++ if closed then [L - (a :: l).getLast (by simp)] else [], ?_, ?_⟩
  · unfold elementDs
    rw [List.getLast?_eq_some_getLast (by simp : a :: l ≠ [])]
  · unfold arclengths
    simp only
    rw [arclengthLoop_differences]
    have hlast : ((a :: l).map fun v => 0 + f * (v - a)).getLast?
        = some (f * ((a :: l).getLast (by simp) - a)) := by
      rw [List.getLast?_map, List.getLast?_eq_some_getLast (by simp : a :: l ≠ [])]
      simp
    simp only [Res.bind_ok, hlast]
    cases closed with
    | true =>
      simp only [if_true, List.getLast?_append, List.getLast?_singleton, Option.some_or]
      simp only [zero_add]
      congr 2
      ring
    | false =>
      simp only [Bool.false_eq_true, if_false, List.append_nil]
      cases (differences (a :: l)).getLast? <;> simp

/-- C118. With a positive factor the arclengths increase strictly from zero, and on a closed circuit
stay below the length of the track. -/
theorem C118_increasing (closed : Bool) (f L a : ℝ) (l : List ℝ) (hf : 0 < f)
    (hs : (a :: l).Pairwise (· < ·)) (hL : ∀ v ∈ a :: l, v < L) :
    ∃ ds s len, elementDs closed (a :: l) L = .ok ds ∧
      arclengths closed f (l.length + 1) ds = .ok (s, len) ∧
      s.head? = some 0 ∧ s.Pairwise (· < ·) ∧ s.length = l.length + 1 ∧
      (closed = true → ∀ v ∈ s, v < len) ∧
      (closed = false → s.getLast? = some len) := by
  obtain ⟨ds, h1, h2⟩ := C118_scaled closed f L a l
  refine ⟨ds, _, _, h1, h2, by simp, ?_, by simp, ?_, ?_⟩
  · rw [List.pairwise_map]
    exact hs.imp fun {x y} h => mul_lt_mul_of_pos_left (by linarith) hf
  · rintro rfl v hv
    obtain ⟨w, hw, rfl⟩ := List.mem_map.1 hv
    simp only [if_true]
    exact mul_lt_mul_of_pos_left (by linarith [hL w hw]) hf
  · rintro rfl
    rw [List.getLast?_map, List.getLast?_eq_some_getLast (by simp : a :: l ≠ [])]
    simp

example : ∃ ds, elementDs true [0, 10, 25] (40 : ℝ) = .ok ds ∧
    arclengths true (11 / 10) 3 ds = .ok ([0, 10, 25].map (fun v => 11 / 10 * (v - 0)),
      11 / 10 * (40 - 0)) :=
  C118_scaled true (11 / 10) 40 0 [10, 25]

/-! ## C119: reported errors -/

/-- C119. The maximum error reported for a boundary is the distance of one of its points and no point
is further; the mean square error is not larger. -/
theorem C119_errors (closed : Bool) (length : ℝ) (first : ℝ × ℝ) (rest : List (ℝ × ℝ))
    (h0 : first.1 = 0) (hs : ((first :: rest).map Prod.fst).Pairwise (· ≤ ·))
    (hl : 0 < length) (hle : ((first :: rest).getLast (by simp)).1 ≤ length)
    (he : ∀ p ∈ first :: rest, 0 ≤ p.2) :
    (errors closed length first rest).1 ∈ (first :: rest).map Prod.snd ∧
    (∀ p ∈ first :: rest, p.2 ≤ (errors closed length first rest).1) ∧
    0 ≤ (errors closed length first rest).2 ∧
    (errors closed length first rest).2 ≤ (errors closed length first rest).1 := by
  obtain ⟨s0, e0⟩ := first
  obtain rfl : s0 = 0 := h0
  have hmax := errorLoop_max rest 0 e0 e0 0
  have hup : ∀ p ∈ (0, e0) :: rest, p.2 ≤ (errors closed length (0, e0) rest).1 := by
    intro p hp
    rcases List.mem_cons.1 hp with rfl | hp
    · exact hmax.1
    · exact hmax.2.1 p hp
  have hmem : (errors closed length (0, e0) rest).1 ∈ ((0, e0) :: rest).map Prod.snd := by
    rcases hmax.2.2 with h | ⟨p, hp, h⟩
    · exact List.mem_map.2 ⟨(0, e0), by simp, h.symm⟩
    · exact List.mem_map.2 ⟨p, by simp [hp], h.symm⟩
  have hM : 0 ≤ (errors closed length (0, e0) rest).1 := (he (0, e0) (by simp)).trans (hup (0, e0) (by simp))
  refine ⟨hmem, hup, Real.sqrt_nonneg _, ?_⟩
  obtain ⟨b1, b2⟩ := errorLoop_bound rest (errors closed length (0, e0) rest).1 0 e0 e0 0
    hs (fun p hp => ⟨he p (by simp [hp]), hup p (by simp [hp])⟩) ⟨he (0, e0) (by simp), hup (0, e0) (by simp)⟩
  have hgl : (rest.getLast?.getD (0, e0)).1 = (((0, e0) :: rest).getLast (by simp)).1 := by
    cases rest with
    | nil => rfl
    | cons a r => simp [List.getLast?_eq_some_getLast]
  refine Real.sqrt_le_iff.2 ⟨hM, ?_⟩
  rw [div_le_iff₀ hl]
  set M := (errors closed length (0, e0) rest).1 with hMdef
  have hsq : ∀ e, 0 ≤ e → e ≤ M → e * e ≤ M * M := fun e h1 h2 => mul_le_mul h2 h2 h1 hM
  have hf2 := hsq e0 (he (0, e0) (by simp)) (hup (0, e0) (by simp))
  have hp2 := hsq _ b2.1 b2.2
  rw [← hgl] at hle
  show (if closed then _ else _) ≤ _
  cases closed with
  | true =>
    simp only [if_true]
    nlinarith [mul_nonneg (sub_nonneg.2 hle) (sub_nonneg.2 hf2),
      mul_nonneg (sub_nonneg.2 hle) (sub_nonneg.2 hp2)]
  | false =>
    simp only [Bool.false_eq_true, if_false]
    nlinarith [mul_nonneg (mul_self_nonneg M) (sub_nonneg.2 hle)]

/-- C119. If every point is at the same distance from the measured boundary, both errors are that
distance: the mean is over the whole length, including the closing element of a closed circuit. -/
theorem C119_constant (closed : Bool) (length e : ℝ) (ss : List ℝ) (he : 0 ≤ e) (hl : 0 < length)
    (hopen : closed = false → (0 :: ss).getLast (by simp) = length) :
    errors closed length (0, e) (ss.map fun s => (s, e)) = (e, e) := by
  have h := errorLoop_constant e ss 0 0
  have hg : ((ss.map fun s => (s, e)).getLast?.getD (0, e)).1 = (0 :: ss).getLast (by simp) := by
    cases ss with
    | nil => rfl
    | cons a r => rw [List.getLast?_map]; simp [List.getLast?_eq_some_getLast]
  have hq : ∀ x, x = e * e * length → Real.sqrt (x / length) = e := by
    rintro x rfl
    rw [mul_div_assoc, div_self hl.ne', mul_one, Real.sqrt_mul_self he]
  unfold errors
  simp only [h, hg]
  refine Prod.ext rfl ?_
  show Real.sqrt ((if closed then _ else _) / length) = e
  apply hq
  cases closed with
  | true => simp only [if_true]; ring
  | false => simp only [Bool.false_eq_true, if_false]; rw [hopen rfl]; ring

example : errors true 30 (0, 2) ([10, 20].map fun s => (s, 2)) = (2, 2) :=
  C119_constant true 30 2 [10, 20] (by norm_num) (by norm_num) (by simp)

/-! ## C120: from coordinates on the earth to the plane -/

/-- C120. The first point of the right boundary is the origin of the plane and its height above zero is
measured downwards; longitude and latitude of every point are recovered from its position (away from
the poles); without a right boundary the behaviour is undefined. -/
theorem C120_transform (deg R : ℝ) (left right : List (Coord ℝ)) :
    match right with
    | [] => transformCoordinates deg R left right = .ub
    | o :: _ => ∃ l r, transformCoordinates deg R left right = .ok (l, r) ∧
        l.length = left.length ∧ r.length = right.length ∧ r.head? = some (0, 0, -o.altitude) ∧
        (deg ≠ 0 → R ≠ 0 → Real.cos (o.latitude * deg) ≠ 0 →
          ∀ (i : Nat) (c : Coord ℝ) (v : Vec3),
            ((left[i]? = some c ∧ l[i]? = some v) ∨ (right[i]? = some c ∧ r[i]? = some v)) →
            c.longitude = o.longitude + v.1 / (R * Real.cos (o.latitude * deg)) / deg ∧
            c.latitude = o.latitude - v.2.1 / R / deg ∧ c.altitude = -v.2.2) := by
  cases right with
  | nil => rfl
  | cons o rest =>
    refine ⟨_, _, rfl, by simp, by simp, by simp [toCartesian], ?_⟩
    intro hd hR hc i c v h
    have hv : v = toCartesian deg R (o.longitude * deg) (o.latitude * deg) (o.latitude * deg) c := by
      rcases h with ⟨h1, h2⟩ | ⟨h1, h2⟩ <;>
      · rw [List.getElem?_map, h1] at h2
        exact (Option.some.inj h2).symm
    subst hv
    simp only [toCartesian, neg_neg, and_true]
    generalize Real.cos (o.latitude * deg) = co at hc ⊢
    constructor
    · field_simp; ring
    · field_simp; ring

/-- C120. The plane is oriented with east to `+x` and north to `-y`, so that with `z` downwards it is
seen from above in the usual way. -/
theorem C120_orientation (deg R : ℝ) (hd : 0 < deg) (hR : 0 < R) (o c : Coord ℝ)
    (hc : 0 < Real.cos (o.latitude * deg)) :
    ∃ l r v, transformCoordinates deg R [c] [o] = .ok (l, r) ∧ l = [v] ∧
      (0 < v.1 ↔ o.longitude < c.longitude) ∧ (v.2.1 < 0 ↔ o.latitude < c.latitude) ∧
      (v.2.2 < 0 ↔ 0 < c.altitude) := by
  refine ⟨_, _, _, rfl, rfl, ?_, ?_, ?_⟩
  · simp only [toCartesian]
    rw [mul_assoc, mul_pos_iff_of_pos_right (mul_pos hR hc), sub_pos, mul_lt_mul_iff_left₀ hd]
  · simp only [toCartesian]
    rw [neg_mul, neg_lt_zero, mul_pos_iff_of_pos_right hR, sub_pos, mul_lt_mul_iff_left₀ hd]
  · simp [toCartesian]

example : ∃ r, transformCoordinates 1 2 [⟨1, 0, 5⟩] [⟨0, 0, 3⟩] = .ok ([(2, 0, -5)], r) := by
  simp [transformCoordinates, toCartesian]

/-! ## C121: frame of the starting guess -/

/-- C121. The frame that gives the angles of the starting guess of an elevated track is orthonormal and
right-handed; its first axis points to the next point and its second one towards the right boundary. -/
theorem C121_frame (step toRight : Vec3) (h : Road.cross step toRight ≠ (0, 0, 0)) :
    ∃ t n b, guessFrame step toRight = (t, n, b) ∧
      Road.dot t t = 1 ∧ Road.dot n n = 1 ∧ Road.dot b b = 1 ∧
      Road.dot t n = 0 ∧ Road.dot n b = 0 ∧ Road.dot b t = 0 ∧
      Road.cross t n = b ∧
      (∃ c : ℝ, 0 < c ∧ step = (c * t.1, c * t.2.1, c * t.2.2)) ∧
      0 < Road.dot n toRight ∧ Road.dot b toRight = 0 := by
  change crossV step toRight ≠ _ at h
  have hstep : step ≠ (0, 0, 0) := by
    rintro rfl
    exact h (by simp [crossV])
  obtain ⟨hl, ht, hs⟩ := normalizeV_spec step hstep
  set t := normalizeV step with htdef
  have hc : crossV t toRight ≠ (0, 0, 0) := by
    intro h0
    apply h
    simp only [crossV, Prod.mk.injEq] at h0 ⊢
    obtain ⟨h1, h2, h3⟩ := h0
    have e1 : step.1 = normV step * t.1 := congrArg Prod.fst hs
    have e2 : step.2.1 = normV step * t.2.1 := congrArg (fun v => v.2.1) hs
    have e3 : step.2.2 = normV step * t.2.2 := congrArg (fun v => v.2.2) hs
    rw [e1, e2, e3]
    refine ⟨?_, ?_, ?_⟩
    · linear_combination normV step * h1
    · linear_combination normV step * h2
    · linear_combination normV step * h3
  obtain ⟨hl2, hb, hs2⟩ := normalizeV_spec (crossV t toRight) hc
  set b := normalizeV (crossV t toRight) with hbdef
  set m := normV (crossV t toRight) with hmdef
  have c1 : t.2.1 * toRight.2.2 - t.2.2 * toRight.2.1 = m * b.1 := congrArg Prod.fst hs2
  have c2 : t.2.2 * toRight.1 - t.1 * toRight.2.2 = m * b.2.1 := congrArg (fun v => v.2.1) hs2
  have c3 : t.1 * toRight.2.1 - t.2.1 * toRight.1 = m * b.2.2 := congrArg (fun v => v.2.2) hs2
  simp only [Road.dot] at ht hb
  have hbt : b.1 * t.1 + b.2.1 * t.2.1 + b.2.2 * t.2.2 = 0 := by
    have : m * (b.1 * t.1 + b.2.1 * t.2.1 + b.2.2 * t.2.2) = 0 := by
      linear_combination -t.1 * c1 - t.2.1 * c2 - t.2.2 * c3
    exact (mul_eq_zero.1 this).resolve_left hl2.ne'
  have hbr : b.1 * toRight.1 + b.2.1 * toRight.2.1 + b.2.2 * toRight.2.2 = 0 := by
    have : m * (b.1 * toRight.1 + b.2.1 * toRight.2.1 + b.2.2 * toRight.2.2) = 0 := by
      linear_combination -toRight.1 * c1 - toRight.2.1 * c2 - toRight.2.2 * c3
    exact (mul_eq_zero.1 this).resolve_left hl2.ne'
  have hnn : normV (crossV b t) = 1 := by
    unfold normV
    rw [Real.sqrt_eq_one]
    simp only [crossV]
    linear_combination (b.1 * b.1 + b.2.1 * b.2.1 + b.2.2 * b.2.2) * ht + hb
      - (b.1 * t.1 + b.2.1 * t.2.1 + b.2.2 * t.2.2) * hbt
  have hn : normalizeV (crossV b t) = crossV b t := by
    unfold normalizeV
    rw [hnn]
    simp
  refine ⟨t, crossV b t, b, by simp only [guessFrame, ← htdef, ← hbdef, hn], ht, ?_, hb, ?_, ?_, hbt,
    ?_, ⟨normV step, hl, hs⟩, ?_, hbr⟩
  · simp only [Road.dot, crossV]
    linear_combination (b.1 * b.1 + b.2.1 * b.2.1 + b.2.2 * b.2.2) * ht + hb
      - (b.1 * t.1 + b.2.1 * t.2.1 + b.2.2 * t.2.2) * hbt
  · simp only [Road.dot, crossV]; ring
  · simp only [Road.dot, crossV]; ring
  · show crossV t (crossV b t) = b
    simp only [crossV]
    refine Prod.ext ?_ (Prod.ext ?_ ?_)
    · show _ = b.1
      linear_combination b.1 * ht - t.1 * hbt
    · show _ = b.2.1
      linear_combination b.2.1 * ht - t.2.1 * hbt
    · show _ = b.2.2
      linear_combination b.2.2 * ht - t.2.2 * hbt
  · have : Road.dot (crossV b t) toRight = m := by
      simp only [Road.dot, crossV]
      linear_combination b.1 * c1 + b.2.1 * c2 + b.2.2 * c3 + m * hb
    rw [this]; exact hl2

example : Road.cross (3, 0, 0) (0, 2, 0) ≠ (0, 0, 0) := by simp [Road.cross]

end Verif.Preprocessor
