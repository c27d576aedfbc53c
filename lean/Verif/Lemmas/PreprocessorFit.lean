import Verif.Spec.Preprocessor
import Verif.Lemmas.ResList
import Mathlib.Algebra.BigOperators.Intervals
import Mathlib.Tactic.Ring
import Mathlib.Tactic.Linarith
import Mathlib.Tactic.LinearCombination
import Mathlib.Tactic.FieldSimp

set_option autoImplicit false

namespace Verif.Preprocessor

/-- Full cost of an inner element. -/
noncomputable def fullCost (k : Kind) (w : Weights) (ds : ℝ) (a b : Node) : ℝ :=
  commonCost k w ds a b + elevationCost k w ds a b

theorem fullCost_eq (c : Circuit) (k : Kind) (w : Weights) (f : ℝ) (i i' : Nat) :
    fullCost k w (f * c.ds i) (c.node i) (c.node i') = c.elementCost k w f i i' := by
  cases k <;> simp [fullCost, commonCost, elevationCost, Circuit.elementCost] <;> ring

theorem inner_range (k : Kind) (w : Weights) (f : ℝ) (ds : Nat → ℝ) (node : Nat → Node) :
    ∀ (m i m' : Nat) (cost : ℝ), m ≤ m' →
    inner k w f ((List.range' i m').map ds) (node i) ((List.range' (i + 1) m).map node) cost
      = .ok (cost + ∑ j ∈ Finset.Ico i (i + m), fullCost k w (f * ds j) (node j) (node (j + 1)),
          (List.range' i m).flatMap fun j => rows k (f * ds j) (node j) (node (j + 1)))
  | 0, i, m', cost, _ => by
    simp only [List.range'_zero, List.map_nil, Finset.Ico_self, Finset.sum_empty,
      add_zero, List.flatMap_nil]
    cases (List.range' i m').map ds <;> rfl
  | m + 1, i, m', cost, h => by
    obtain ⟨m'', rfl⟩ : ∃ m'', m' = m'' + 1 := ⟨m' - 1, by omega⟩
    rw [List.range'_succ, List.map_cons, List.range'_succ, List.map_cons, inner,
      inner_range k w f ds node m (i + 1) m'' _ (by omega), Res.map_ok]
    congr 2
    · rw [Finset.sum_eq_sum_Ico_succ_bot (by omega : i < i + (m + 1))]
      rw [show i + 1 + m = i + (m + 1) by ring]
      simp only [fullCost]
      ring

theorem inner_circuit (c : Circuit) (hn : 0 < c.n) (closed : Bool) (k : Kind) (w : Weights) (f : ℝ) :
    ∃ first rest, c.nodes = first :: rest ∧ first = c.node 0 ∧
      inner k w f (c.lengths closed) first rest 0
        = .ok (∑ j ∈ Finset.range (c.n - 1), c.elementCost k w f j (j + 1),
          (List.range (c.n - 1)).flatMap fun j => rows k (f * c.ds j) (c.node j) (c.node (j + 1))) := by
  obtain ⟨m, hm⟩ : ∃ m, c.n = m + 1 := ⟨c.n - 1, by omega⟩
  refine ⟨c.node 0, (List.range' 1 m).map c.node, ?_, rfl, ?_⟩
  · rw [Circuit.nodes, hm, List.range_eq_range', List.range'_succ, List.map_cons]
  · have h := inner_range k w f c.ds c.node m 0 (if closed then c.n else c.n - 1) 0 (by
      split <;> omega)
    rw [Circuit.lengths, List.range_eq_range']
    rw [show (1 : Nat) = 0 + 1 from rfl, h, hm]
    simp only [zero_add, Nat.add_sub_cancel, List.range_eq_range', Nat.Ico_zero_eq_range,
      fullCost_eq]

theorem nodes_getLast (c : Circuit) (hn : 0 < c.n) : c.nodes.getLast? = some (c.node (c.n - 1)) := by
  obtain ⟨m, hm⟩ : ∃ m, c.n = m + 1 := ⟨c.n - 1, by omega⟩
  rw [Circuit.nodes, hm, List.range_succ, List.map_append]
  simp

theorem lengths_getLast (c : Circuit) (hn : 0 < c.n) :
    (c.lengths true).getLast? = some (c.ds (c.n - 1)) := by
  obtain ⟨m, hm⟩ : ∃ m, c.n = m + 1 := ⟨c.n - 1, by omega⟩
  rw [Circuit.lengths, hm, if_pos rfl, List.range_succ, List.map_append]
  simp

theorem evaluate_closed (c : Circuit) (hn : 0 < c.n) (p : Problem) (hc : p.closed = true)
    (hds : p.ds = c.lengths true) (f : ℝ) :
    evaluate p f c.nodes = .ok
      ((∑ j ∈ Finset.range (c.n - 1), c.elementCost p.kind p.weights f j (j + 1))
          + commonCost p.kind p.weights (f * c.ds (c.n - 1)) (c.node (c.n - 1)) (c.node 0),
        ((List.range (c.n - 1)).flatMap fun j =>
            rows p.kind (f * c.ds j) (c.node j) (c.node (j + 1)))
          ++ closingRows p.kind p.direction (f * c.ds (c.n - 1)) (c.node (c.n - 1)) (c.node 0)
          ++ [offLine p.leftFirst p.rightFirst (centre p.kind (c.node 0).q)]) := by
  obtain ⟨first, rest, h1, h2, h3⟩ := inner_circuit c hn true p.kind p.weights f
  have h4 := nodes_getLast c hn
  have h5 := lengths_getLast c hn
  unfold evaluate
  rw [h4, hds, h5, h1]
  simp only [hc]
  rw [h3, Res.bind_ok, if_pos trivial, h2]

theorem evaluate_open (c : Circuit) (hn : 0 < c.n) (p : Problem) (hc : p.closed = false)
    (hds : p.ds = c.lengths false) (f : ℝ) :
    evaluate p f c.nodes = .ok
      (∑ j ∈ Finset.range (c.n - 1), c.elementCost p.kind p.weights f j (j + 1),
        ((List.range (c.n - 1)).flatMap fun j =>
            rows p.kind (f * c.ds j) (c.node j) (c.node (j + 1)))
          ++ [offLine p.leftFirst p.rightFirst (centre p.kind (c.node 0).q)]
          ++ [offLine p.leftLast p.rightLast (centre p.kind (c.node (c.n - 1)).q)]) := by
  obtain ⟨first, rest, h1, h2, h3⟩ := inner_circuit c hn false p.kind p.weights f
  have h4 := nodes_getLast c hn
  unfold evaluate
  rw [h4, hds, h1]
  simp only [hc]
  rw [h3, Res.bind_ok, if_neg (by simp), h2]

theorem mem_rows_zero (c : Circuit) (k : Kind) (f : ℝ) (i i' : Nat) :
    (∀ r ∈ rows k (f * c.ds i) (c.node i) (c.node i'), r = 0) ↔
      ∀ j < nStates k, (c.node i').q j - (c.node i).q j = c.change k f i i' j := by
  simp only [rows, List.mem_map, List.mem_range, forall_exists_index, and_imp,
    forall_apply_eq_imp_iff₂, Circuit.change, Circuit.slope]
  refine forall₂_congr fun j _ => ?_
  constructor <;> intro h <;> linear_combination h

theorem mem_closingRows_zero (c : Circuit) (k : Kind) (dir : ℤ) (f : ℝ) (i i' : Nat) :
    (∀ r ∈ closingRows k dir (f * c.ds i) (c.node i) (c.node i'), r = 0) ↔
      ∀ j < nStates k, (c.node i').q j + (if j = iYaw k then 2 * Real.pi * dir else 0)
        - (c.node i).q j = c.change k f i i' j := by
  simp only [closingRows, List.mem_map, List.mem_range, forall_exists_index, and_imp,
    forall_apply_eq_imp_iff₂, Circuit.change, Circuit.slope]
  refine forall₂_congr fun j _ => ?_
  constructor <;> intro h <;> linear_combination h

theorem rows_length (k : Kind) (ds : ℝ) (a b : Node) : (rows k ds a b).length = nStates k := by
  simp [rows]

theorem closingRows_length (k : Kind) (dir : ℤ) (ds : ℝ) (a b : Node) :
    (closingRows k dir ds a b).length = nStates k := by
  simp [closingRows]

theorem flatMap_rows_length (c : Circuit) (k : Kind) (f : ℝ) (m : Nat) :
    ((List.range m).flatMap fun j => rows k (f * c.ds j) (c.node j) (c.node (j + 1))).length
      = nStates k * m := by
  rw [List.length_flatMap]
  simp [rows_length, Nat.mul_comm]

/-! ### Arclength and errors -/

theorem arclengthLoop_differences (f : ℝ) (extra : List ℝ) : ∀ (l : List ℝ) (a acc : ℝ),
    arclengthLoop f l.length acc (differences (a :: l) ++ extra)
      = .ok ((a :: l).map fun v => acc + f * (v - a))
  | [], a, acc => by simp [arclengthLoop]
  | b :: l, a, acc => by
    have ih := arclengthLoop_differences f extra l b (acc + (b - a) * f)
    simp only [differences, List.length_cons, List.cons_append, arclengthLoop]
    rw [ih]
    simp only [Res.map_ok, List.map_cons, sub_self, mul_zero, add_zero]
    congr 2
    refine List.cons_eq_cons.2 ⟨by ring, List.map_congr_left fun v _ => by ring⟩

theorem errorLoop_max : ∀ (rest : List (ℝ × ℝ)) (s e mx l2 : ℝ),
    mx ≤ (errorLoop rest s e mx l2).1 ∧ (∀ p ∈ rest, p.2 ≤ (errorLoop rest s e mx l2).1) ∧
      ((errorLoop rest s e mx l2).1 = mx ∨ ∃ p ∈ rest, (errorLoop rest s e mx l2).1 = p.2)
  | [], s, e, mx, l2 => ⟨le_refl _, by simp, Or.inl rfl⟩
  | (s', e') :: rest, s, e, mx, l2 => by
    obtain ⟨h1, h2, h3⟩ := errorLoop_max rest s' e' (max e' mx)
      (l2 + 1 / 2 * (s' - s) * (e * e + e' * e'))
    simp only [errorLoop]
    refine ⟨(le_max_right _ _).trans h1, ?_, ?_⟩
    · intro p hp
      rcases List.mem_cons.1 hp with rfl | hp
      · exact (le_max_left _ _).trans h1
      · exact h2 p hp
    · rcases h3 with h | ⟨p, hp, h⟩
      · rcases max_choice e' mx with hm | hm
        · exact Or.inr ⟨(s', e'), by simp, by rw [h, hm]⟩
        · exact Or.inl (by rw [h, hm])
      · exact Or.inr ⟨p, by simp [hp], h⟩

theorem errorLoop_bound : ∀ (rest : List (ℝ × ℝ)) (M s e mx l2 : ℝ),
    ((s, e) :: rest).map Prod.fst |>.Pairwise (· ≤ ·) → (∀ p ∈ rest, 0 ≤ p.2 ∧ p.2 ≤ M) →
    (0 ≤ e ∧ e ≤ M) →
    (errorLoop rest s e mx l2).2.1 ≤ l2 + M * M * ((rest.getLast?.getD (s, e)).1 - s) ∧
      (0 ≤ (errorLoop rest s e mx l2).2.2 ∧ (errorLoop rest s e mx l2).2.2 ≤ M)
  | [], M, s, e, mx, l2, _, _, he => by simp [errorLoop, he]
  | (s', e') :: rest, M, s, e, mx, l2, hs, hp, he => by
    have hs2 := List.pairwise_cons.1 hs
    obtain ⟨h1, h2⟩ := errorLoop_bound rest M s' e' (max e' mx)
      (l2 + 1 / 2 * (s' - s) * (e * e + e' * e')) hs2.2 (fun p h => hp p (by simp [h]))
      (hp (s', e') (by simp))
    simp only [errorLoop]
    refine ⟨h1.trans ?_, h2⟩
    have hd : 0 ≤ s' - s := sub_nonneg.2 (hs2.1 s' (by simp))
    have he' := hp (s', e') (by simp)
    have hM : 0 ≤ M := he.1.trans he.2
    have q1 : e * e ≤ M * M := mul_le_mul he.2 he.2 he.1 hM
    have q2 : e' * e' ≤ M * M := mul_le_mul he'.2 he'.2 he'.1 hM
    have hl : ((((s', e') :: rest).getLast?).getD (s, e)).1 = (rest.getLast?.getD (s', e')).1 := by
      cases rest with
      | nil => rfl
      | cons a r => simp [List.getLast?_eq_some_getLast]
    rw [hl]
    nlinarith [mul_nonneg hd (sub_nonneg.2 q1), mul_nonneg hd (sub_nonneg.2 q2)]

theorem errorLoop_constant (e : ℝ) : ∀ (ss : List ℝ) (s l2 : ℝ),
    errorLoop (ss.map fun s => (s, e)) s e e l2
      = (e, l2 + e * e * ((s :: ss).getLast (by simp) - s), e)
  | [], s, l2 => by simp [errorLoop]
  | a :: ss, s, l2 => by
    have ih := errorLoop_constant e ss a (l2 + 1 / 2 * (a - s) * (e * e + e * e))
    simp only [List.map_cons, errorLoop, max_self]
    rw [ih]
    simp only [List.getLast_cons_cons, Prod.mk.injEq, true_and, and_true]
    ring

/-! ### Vectors -/

theorem normalizeV_spec (a : Verif.Road.Vec3) (h : a ≠ (0, 0, 0)) :
    0 < normV a ∧ Road.dot (normalizeV a) (normalizeV a) = 1 ∧
      a = (normV a * (normalizeV a).1, normV a * (normalizeV a).2.1, normV a * (normalizeV a).2.2) := by
  obtain ⟨x, y, z⟩ := a
  have hp : 0 < x * x + y * y + z * z := by
    rcases lt_or_eq_of_le (add_nonneg (add_nonneg (mul_self_nonneg x) (mul_self_nonneg y))
      (mul_self_nonneg z)) with h' | h'
    · exact h'
    · exfalso
      apply h
      have hx : x * x = 0 := by nlinarith [mul_self_nonneg x, mul_self_nonneg y, mul_self_nonneg z]
      have hy : y * y = 0 := by nlinarith [mul_self_nonneg x, mul_self_nonneg y, mul_self_nonneg z]
      have hz : z * z = 0 := by nlinarith [mul_self_nonneg x, mul_self_nonneg y, mul_self_nonneg z]
      rw [mul_self_eq_zero.1 hx, mul_self_eq_zero.1 hy, mul_self_eq_zero.1 hz]
  have hn : 0 < normV (x, y, z) := Real.sqrt_pos.2 hp
  have hsq : normV (x, y, z) * normV (x, y, z) = x * x + y * y + z * z :=
    Real.mul_self_sqrt hp.le
  refine ⟨hn, ?_, ?_⟩
  · simp only [Road.dot, normalizeV]
    field_simp
    linear_combination -hsq
  · simp only [normalizeV]
    rw [mul_div_cancel₀ _ hn.ne', mul_div_cancel₀ _ hn.ne', mul_div_cancel₀ _ hn.ne']

end Verif.Preprocessor
