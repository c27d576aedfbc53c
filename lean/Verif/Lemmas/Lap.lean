import Verif.Lemmas.Rows
import Mathlib.Algebra.Order.Field.Basic
import Mathlib.Algebra.Order.BigOperators.Group.Finset
import Mathlib.Tactic.Linarith
import Mathlib.Tactic.Positivity

/-! Helper lemmas: lap-time report, uniqueness of the evaluated nodes, sums over the mesh. -/

set_option autoImplicit false
set_option linter.unusedSectionVars false

namespace Verif.Transcription

open Verif.Control

variable {K : Type*}

theorem PiecewiseConstantAt_unique [Zero K] [LinearOrder K] {mesh values : List K} {s a b : K}
    (ha : PiecewiseConstantAt mesh values s a) (hb : PiecewiseConstantAt mesh values s b) : a = b := by
  obtain ⟨i, x, hi, hx, hj, hv⟩ := ha
  obtain ⟨i', x', hi', hx', hj', hv'⟩ := hb
  have : i = i' := by
    rcases lt_trichotomy i i' with h | h | h
    · exact absurd hx' (not_le.2 (hj i' x' h hi'))
    · exact h
    · exact absurd hx (not_le.2 (hj' i x h hi))
  subst this
  rw [hv] at hv'
  exact Option.some.inj hv'

theorem ExpectedControl_unique [Zero K] [LinearOrder K] {c : CV K} {d s a b : K} {i : Nat}
    (ha : ExpectedControl c d i s a) (hb : ExpectedControl c d i s b) : a = b := by
  unfold ExpectedControl at ha hb
  cases hk : c.kind <;> simp only [hk] at ha hb
  · rw [ha, hb]
  · rw [ha] at hb; simpa using hb
  · exact PiecewiseConstantAt_unique ha hb
  · rw [ha] at hb; simpa using hb

theorem EvaluatedAt.unique [Field K] [LinearOrder K] {v : Vehicle K} {p : Problem K} {st : Loaded K} {i : Nat}
    {a b : Node K} (hdef : v.controlsDef.length = st.controls.length)
    (ha : EvaluatedAt v p st i a) (hb : EvaluatedAt v p st i b) : a = b := by
  obtain ⟨row, si, u, h1, h2, h3, h4, rfl⟩ := ha
  obtain ⟨row', si', u', g1, g2, g3, g4, rfl⟩ := hb
  rw [h1] at g1; rw [h2] at g2
  simp only [Option.some.injEq] at g1 g2
  subst g1; subst g2
  have : u = u' := by
    refine list_eq_of_get (by rw [h3, g3]) ?_
    intro j hj
    have e1 : u[j]? = some (u[j]'(by omega)) := List.getElem?_eq_getElem (by omega)
    have e2 : u'[j]? = some u'[j] := List.getElem?_eq_getElem hj
    have e3 : st.controls[j]? = some (st.controls[j]'(by omega)) := List.getElem?_eq_getElem (by omega)
    have e4 : v.controlsDef[j]? = some (v.controlsDef[j]'(by omega)) := List.getElem?_eq_getElem (by omega)
    rw [e1, e2]
    congr 1
    exact ExpectedControl_unique (h4 j _ _ _ e3 e4 e1) (g4 j _ _ _ e3 e4 e2)
  rw [this]

section
variable [Field K] [LinearOrder K]

theorem evalNodes_eq {v : Vehicle K} {p : Problem K} (hp : Shape p)
    (hcon : ∀ c ∈ p.controls, Consistent c) (hdef : v.controlsDef.length = p.controls.length)
    (hcov : HypermeshCovers p) {st : Loaded K} (hst : FitsProblem p st) {node : Nat → Node K}
    (hn : EvaluatedNodes v p st node) : evalNodes v p st = .ok ((List.range p.nPoints).map node) := by
  obtain ⟨node', h1, h2⟩ := evalNodes_ok hp hcon hdef hcov hst
  rw [h1]
  congr 1
  apply List.map_congr_left
  intro i hi
  have hi' : i < p.nPoints := by simpa using hi
  exact EvaluatedAt.unique (by rw [hdef, hst.controls]) (h2 i hi') (hn i hi')

/-- Time over the inner element `e`. -/
def innerTime (v : Vehicle K) (σ : K) (node : Nat → Node K) (e : Nat) : K :=
  ((node (e + 1)).s - (node e).s) * ((1 - σ) * dtds v (node e).eq + σ * dtds v (node (e + 1)).eq)

theorem nodeTimes_eq (v : Vehicle K) (σ : K) (node : Nat → Node K) (m : Nat) : ∀ (i : Nat) (t : K),
    nodeTimes v σ t (node i) ((List.range' (i + 1) m).map node) =
      (List.range m).map fun j => t + ∑ e ∈ Finset.range (j + 1), innerTime v σ node (i + e) := by
  induction m with
  | zero => intro i t; rfl
  | succ m ih =>
    intro i t
    rw [List.range'_succ, List.map_cons, nodeTimes]
    have ht : t + ((node (i + 1)).s - (node i).s) * (σ * dtds v (node (i + 1)).eq + (1 - σ) * dtds v (node i).eq)
        = t + innerTime v σ node i := by unfold innerTime; ring
    simp only [ht]
    rw [ih (i + 1), List.range_succ_eq_map, List.map_cons, List.map_map]
    congr 1
    · simp
    · apply List.map_congr_left
      intro j _
      simp only [Function.comp_apply, Nat.succ_eq_add_one]
      rw [Finset.sum_range_succ' _ (j + 1), Nat.add_zero, add_assoc]
      congr 1
      rw [add_comm]
      congr 1
      apply Finset.sum_congr rfl
      intro e _
      congr 1; omega

theorem quadratureTo_inner {v : Vehicle K} {p : Problem K} (node : Nat → Node K) (n : Nat) (hn : n < p.nPoints) :
    quadratureTo v p node (fun nd => dtds v nd.eq) n = ∑ e ∈ Finset.range n, innerTime v p.opts.sigma node e := by
  unfold quadratureTo
  apply Finset.sum_congr rfl
  intro e he
  have he' : e < n := by simpa using he
  have h : e + 1 < p.nPoints := by omega
  simp only [innerTime, elementLength, rightNode, if_pos h]

/-- The report in closed form. -/
theorem report_eq {v : Vehicle K} {p : Problem K} (hp : Shape p) {st : Loaded K}
    {row0 : Row K} (h0 : st.inputs[0]? = some row0) {node : Nat → Node K}
    (hev : evalNodes v p st = .ok ((List.range p.nPoints).map node)) :
    report v p st = .ok ((List.range p.nPoints).map fun i => row0 v.iTime +
        quadratureTo v p node (fun nd => dtds v nd.eq) i,
      row0 v.iTime + quadrature v p node (fun nd => dtds v nd.eq)) := by
  have h2 := hp.two
  obtain ⟨m, hm⟩ : ∃ m, p.nPoints = m + 1 := ⟨p.nPoints - 1, by omega⟩
  have hnodes : (List.range p.nPoints).map node = node 0 :: (List.range' 1 m).map node := by
    rw [hm, List.range_eq_range', List.range'_succ, List.map_cons]
  have htimes := nodeTimes_eq v p.opts.sigma node m 0 (row0 v.iTime)
  simp only [Nat.zero_add] at htimes
  have hall : row0 v.iTime :: nodeTimes v p.opts.sigma (row0 v.iTime) (node 0) ((List.range' 1 m).map node) =
      (List.range p.nPoints).map fun i => row0 v.iTime + quadratureTo v p node (fun nd => dtds v nd.eq) i := by
    rw [htimes, hm, List.range_succ_eq_map, List.map_cons, List.map_map]
    congr 1
    · simp [quadratureTo]
    · apply List.map_congr_left
      intro j hj
      have hj' : j < m := by simpa using hj
      simp only [Function.comp_apply, Nat.succ_eq_add_one]
      rw [quadratureTo_inner node (j + 1) (by omega)]
  have hlast : ∀ (l : List K) (hl : l ≠ []), l = ((List.range p.nPoints).map fun i => row0 v.iTime +
      quadratureTo v p node (fun nd => dtds v nd.eq) i) → l.getLast hl = row0 v.iTime +
      quadratureTo v p node (fun nd => dtds v nd.eq) (p.nPoints - 1) := by
    intro l hl he
    subst he
    rw [List.getLast_map, List.getLast_range]
  have hnl : ∀ hl, (node 0 :: (List.range' 1 m).map node).getLast hl = node (p.nPoints - 1) := by
    intro hl
    have : node 0 :: (List.range' 1 m).map node = (List.range p.nPoints).map node := hnodes.symm
    simp only [this]
    rw [List.getLast_map, List.getLast_range]
  unfold report
  simp only [idx, h0, Res.bind_ok, hev, hnodes, lapReport]
  rw [hlast _ _ hall, hall, hnl]
  congr 2
  unfold quadrature
  rw [hp.elements]
  cases hc : p.isClosed
  · simp [firstNode]
  · simp only [firstNode, if_true]
    rw [Nat.sub_zero]
    conv_rhs => rw [show p.nPoints = (p.nPoints - 1) + 1 by omega]
    unfold quadratureTo
    rw [Finset.sum_range_succ, ← add_assoc]
    congr 1
    have hl : ¬ (p.nPoints - 1 + 1 < p.nPoints) := by omega
    simp only [elementLength, rightNode_last hp, if_neg hl]

end

section ordered
variable [Field K] [LinearOrder K] [IsStrictOrderedRing K]

/-- Lengths of the elements of an increasing mesh that ends before the track does. -/
theorem elementLength_pos {v : Vehicle K} {p : Problem K} (hp : Shape p) {st : Loaded K} {node : Nat → Node K}
    (hn : EvaluatedNodes v p st node) (hs : p.s.Pairwise (· < ·))
    (hend : p.isClosed = true → ∀ b, p.s.getLast? = some b → b < v.trackLength) {e : Nat} (he : e < p.nElements) :
    0 < elementLength v p node e := by
  have h2 := hp.two
  unfold elementLength
  split
  · rename_i h
    have h1 := node_s hn (i := e) (by omega)
    have h3 := node_s hn (i := e + 1) h
    rw [List.pairwise_iff_getElem] at hs
    obtain ⟨g1, g2⟩ := List.getElem?_eq_some_iff.1 h1
    obtain ⟨g3, g4⟩ := List.getElem?_eq_some_iff.1 h3
    have := hs e (e + 1) g1 g3 (by omega)
    rw [g2, g4] at this
    linarith
  · rename_i h
    rw [hp.elements] at he
    cases hc : p.isClosed
    · simp [firstNode, hc] at he; omega
    · simp [firstNode, hc] at he
      have h1 := node_s hn (i := e) he
      have hl : p.s.getLast? = some (node e).s := by
        rw [List.getLast?_eq_getElem?, hp.s, show p.nPoints - 1 = e by omega, h1]
      have := hend hc _ hl
      linarith

theorem elementLength_nonneg {v : Vehicle K} {p : Problem K} (hp : Shape p) {st : Loaded K} {node : Nat → Node K}
    (hn : EvaluatedNodes v p st node) (hs : p.s.Pairwise (· ≤ ·))
    (hend : p.isClosed = true → ∀ b, p.s.getLast? = some b → b ≤ v.trackLength) {e : Nat} (he : e < p.nElements) :
    0 ≤ elementLength v p node e := by
  have h2 := hp.two
  unfold elementLength
  split
  · rename_i h
    have h1 := node_s hn (i := e) (by omega)
    have h3 := node_s hn (i := e + 1) h
    rw [List.pairwise_iff_getElem] at hs
    obtain ⟨g1, g2⟩ := List.getElem?_eq_some_iff.1 h1
    obtain ⟨g3, g4⟩ := List.getElem?_eq_some_iff.1 h3
    have := hs e (e + 1) g1 g3 (by omega)
    rw [g2, g4] at this
    linarith
  · rename_i h
    rw [hp.elements] at he
    cases hc : p.isClosed
    · simp [firstNode, hc] at he; omega
    · simp [firstNode, hc] at he
      have h1 := node_s hn (i := e) he
      have hl : p.s.getLast? = some (node e).s := by
        rw [List.getLast?_eq_getElem?, hp.s, show p.nPoints - 1 = e by omega, h1]
      have := hend hc _ hl
      linarith

theorem overFullMesh_nonneg {f : CV K → K} {cs : List (CV K)}
    (h : ∀ c ∈ cs, c.kind = .fullMesh → 0 ≤ f c) : 0 ≤ overFullMesh f cs := by
  unfold overFullMesh
  apply List.sum_nonneg
  intro a ha
  obtain ⟨c, hc, rfl⟩ := List.mem_map.1 ha
  rw [List.mem_filter] at hc
  exact h c hc.1 (of_decide_eq_true hc.2)

theorem overFullMesh_eq_zero {f : CV K → K} {cs : List (CV K)}
    (h : ∀ c ∈ cs, c.kind = .fullMesh → 0 ≤ f c) :
    overFullMesh f cs = 0 ↔ ∀ c ∈ cs, c.kind = .fullMesh → f c = 0 := by
  induction cs with
  | nil => simp [overFullMesh]
  | cons c cs ih =>
    have ih' := ih (fun d hd => h d (by simp [hd]))
    have hn : 0 ≤ overFullMesh f cs := overFullMesh_nonneg (fun d hd => h d (by simp [hd]))
    by_cases hk : c.kind = .fullMesh
    · have hc := h c (by simp) hk
      have e : overFullMesh f (c :: cs) = f c + overFullMesh f cs := by simp [overFullMesh, hk]
      rw [e]
      constructor
      · intro h0
        have h1 : f c = 0 := by linarith
        have h2 : overFullMesh f cs = 0 := by linarith
        intro d hd hkd
        rcases List.mem_cons.1 hd with rfl | hd
        · exact h1
        · exact ih'.1 h2 d hd hkd
      · intro h0
        rw [h0 c (by simp) hk, ih'.2 (fun d hd hkd => h0 d (by simp [hd]) hkd), add_zero]
    · have e : overFullMesh f (c :: cs) = overFullMesh f cs := by simp [overFullMesh, hk]
      rw [e, ih']
      constructor
      · intro h0 d hd hkd
        rcases List.mem_cons.1 hd with rfl | hd
        · exact absurd hkd hk
        · exact h0 d hd hkd
      · intro h0 d hd hkd
        exact h0 d (by simp [hd]) hkd

theorem slopePenalty_nonneg {v : Vehicle K} {p : Problem K} {node : Nat → Node K} {c : CV K}
    (hc : 0 ≤ c.dissipation) (hl : ∀ e, e < p.nElements → 0 ≤ elementLength v p node e) :
    0 ≤ slopePenalty v p node c := by
  unfold slopePenalty
  apply Finset.sum_nonneg
  intro e he
  have := hl e (by simpa using he)
  positivity

/-- The penalty of a control vanishes iff the control does not change. -/
theorem slopePenalty_eq_zero {v : Vehicle K} {p : Problem K} (hp : Shape p) {node : Nat → Node K} {c : CV K}
    (hc : 0 < c.dissipation) (hl : ∀ e, e < p.nElements → 0 < elementLength v p node e) :
    slopePenalty v p node c = 0 ↔ ∀ i, i < p.nPoints → valueAt c i = valueAt c 0 := by
  have h2 := hp.two
  unfold slopePenalty
  rw [Finset.sum_eq_zero_iff_of_nonneg]
  · constructor
    · intro h i
      induction i with
      | zero => intro _; rfl
      | succ i ih =>
        intro hi
        have he : i < p.nElements := by
          rw [hp.elements]; unfold firstNode; split <;> omega
        have h1 := h i (by simpa using he)
        have hle := hl i he
        have hr : rightNode p i = i + 1 := rightNode_inner hp (by omega)
        rw [hr] at h1
        have h3 : ((valueAt c (i + 1) - valueAt c i) / elementLength v p node i) ^ 2 = 0 := by
          rcases mul_eq_zero.1 h1 with h1 | h1
          · rcases mul_eq_zero.1 h1 with h1 | h1
            · exact absurd h1 hc.ne'
            · exact h1
          · exact absurd h1 hle.ne'
        have h4 := pow_eq_zero_iff (two_ne_zero) |>.1 h3
        rcases div_eq_zero_iff.1 h4 with h5 | h5
        · rw [← ih (by omega)]; linarith
        · exact absurd h5 hle.ne'
    · intro h e he
      have he' : e < p.nElements := by simpa using he
      have hep : e < p.nPoints := by rw [hp.elements] at he'; omega
      rw [h _ (rightNode_lt hp e), h e hep]
      simp
  · intro e he
    have := hl e (by simpa using he)
    positivity

end ordered

end Verif.Transcription
