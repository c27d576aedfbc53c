import Verif.Lemmas.Parameter
import Mathlib.Topology.Order.OrderClosed
import Mathlib.Topology.Algebra.Ring.Real
import Mathlib.Topology.Piecewise
import Mathlib.Topology.Instances.Real.Lemmas

/-! Piecewise-linear interpolation with clamping, used to prove continuity (C25). -/

set_option autoImplicit false

namespace Verif.Parameter

noncomputable def interp : List (ℝ × ℝ) → ℝ → ℝ
  | [], _ => 0
  | [n], _ => n.2
  | n :: m :: rest, s =>
    if s ≤ n.1 then n.2
    else if s ≤ m.1 then n.2 + (s - n.1) / (m.1 - n.1) * (m.2 - n.2)
    else interp (m :: rest) s

theorem interp_at_head (n : ℝ × ℝ) (rest : List (ℝ × ℝ)) (s : ℝ) (h : s ≤ n.1) :
    interp (n :: rest) s = n.2 := by
  cases rest with
  | nil => rfl
  | cons m rest => simp [interp, h]

theorem interp_continuous (l : List (ℝ × ℝ)) (h : l.Pairwise (fun a b => a.1 < b.1)) :
    Continuous (interp l) := by
  induction l with
  | nil => exact continuous_const
  | cons n l ih =>
    cases l with
    | nil => exact continuous_const
    | cons m rest =>
      have ih' := ih (List.pairwise_cons.1 h).2
      have hnm : n.1 < m.1 := (List.pairwise_cons.1 h).1 m (by simp)
      show Continuous (fun s => interp (n :: m :: rest) s)
      simp only [interp]
      refine Continuous.if_le continuous_const ?_ continuous_id continuous_const ?_
      · refine Continuous.if_le (by fun_prop) ih' continuous_id continuous_const ?_
        intro s hs
        have hs : s = m.1 := hs
        rw [interp_at_head _ _ _ (le_of_eq hs), hs, div_self (by linarith)]
        ring
      · intro s hs
        have hs : s = n.1 := hs
        rw [if_pos (by rw [hs]; exact le_of_lt hnm), hs]
        simp

theorem interp_interval (l : List (ℝ × ℝ)) : ∀ (i : Nat) (a b : ℝ × ℝ) (s : ℝ),
    l.Pairwise (fun a b => a.1 < b.1) → l[i]? = some a → l[i+1]? = some b → a.1 ≤ s → s < b.1 →
    interp l s = a.2 + (s - a.1) / (b.1 - a.1) * (b.2 - a.2) := by
  induction l with
  | nil => intro i a b s _ h; simp at h
  | cons n l ih =>
    intro i a b s hp ha hb h1 h2
    cases l with
    | nil => simp at hb
    | cons m rest =>
      have hnm : n.1 < m.1 := (List.pairwise_cons.1 hp).1 m (by simp)
      cases i with
      | zero =>
        simp only [List.getElem?_cons_zero, Option.some.injEq, List.getElem?_cons_succ] at ha hb
        subst ha; subst hb
        simp only [interp]
        by_cases hs : s ≤ n.1
        · have : s = n.1 := le_antisymm hs h1
          simp [this]
        · simp [hs, le_of_lt h2]
      | succ i =>
        simp only [List.getElem?_cons_succ] at ha hb
        have hma : m.1 ≤ a.1 := by
          cases i with
          | zero => simp at ha; rw [ha]
          | succ i =>
            have hmem : a ∈ rest := by
              simp only [List.getElem?_cons_succ] at ha
              exact List.mem_of_getElem? ha
            exact le_of_lt ((List.pairwise_cons.1 (List.pairwise_cons.1 hp).2).1 a hmem)
        have hih := ih i a b s (List.pairwise_cons.1 hp).2 ha hb h1 h2
        simp only [interp]
        rw [if_neg (by linarith)]
        by_cases hs : s ≤ m.1
        · have hsm : s = m.1 := by linarith
          rw [if_pos hs, ← hih, interp_at_head _ _ _ hs, hsm, div_self (by linarith)]
          ring
        · rw [if_neg hs]; exact hih

theorem interp_last (l : List (ℝ × ℝ)) : ∀ (a : ℝ × ℝ) (s : ℝ),
    l.Pairwise (fun a b => a.1 < b.1) → l[l.length - 1]? = some a → a.1 ≤ s → interp l s = a.2 := by
  induction l with
  | nil => intro a s _ h; simp at h
  | cons n l ih =>
    intro a s hp ha hs
    cases l with
    | nil => simp at ha; simp [interp, ha]
    | cons m rest =>
      have hp' := (List.pairwise_cons.1 hp).2
      have hnm : n.1 < m.1 := (List.pairwise_cons.1 hp).1 m (by simp)
      have ha' : (m :: rest)[(m :: rest).length - 1]? = some a := by
        simpa using ha
      have hma : m.1 ≤ a.1 := by
        have hmem : a ∈ m :: rest := List.mem_of_getElem? ha'
        rcases List.mem_cons.1 hmem with rfl | hmem
        · exact le_refl _
        · exact le_of_lt ((List.pairwise_cons.1 hp').1 a hmem)
      have hih := ih a s hp' ha' hs
      simp only [interp]
      rw [if_neg (by linarith)]
      by_cases hsm : s ≤ m.1
      · have hsm' : s = m.1 := by linarith
        rw [if_pos hsm, ← hih, interp_at_head _ _ _ hsm, hsm', div_self (by linarith)]
        ring
      · rw [if_neg hsm]; exact hih

end Verif.Parameter
