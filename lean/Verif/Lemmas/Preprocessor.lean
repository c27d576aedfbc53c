import Verif.Spec.Preprocessor
import Verif.Lemmas.ResList
import Mathlib.Tactic.Ring
import Mathlib.Tactic.Linarith

set_option autoImplicit false

namespace Verif.Preprocessor

variable {K : Type*}

theorem readN_eq (x : List K) : ∀ (n k : Nat), k + n ≤ x.length →
    readN x k n = .ok ((x.drop k).take n, k + n)
  | 0, k, _ => by simp [readN]
  | n + 1, k, h => by
    have hk : k < x.length := by omega
    rw [readN, idx_of_lt hk, Res.bind_ok, readN_eq x n (k + 1) (by omega), Res.bind_ok,
      List.drop_eq_getElem_cons hk, List.take_succ_cons]
    simp only [Res.ok.injEq, Prod.mk.injEq, true_and]
    omega

/-- Number of variables of a point. -/
def perPoint (k : Kind) : Nat := nStates k + nControls k

/-- States and controls at the block of size `perPoint` that starts at `b`. -/
def arraysAt [Zero K] (k : Kind) (x : List K) (b : Nat) : (Nat → K) × (Nat → K) :=
  (asArray ((x.drop b).take (nStates k)), asArray ((x.drop (b + nStates k)).take (nControls k)))

theorem loadPoints_eq [Zero K] (kd : Kind) (x : List K) : ∀ (n k : Nat),
    k + perPoint kd * n ≤ x.length →
    loadPoints kd x k n =
      .ok ((List.range n).map fun i => arraysAt kd x (k + perPoint kd * i), k + perPoint kd * n)
  | 0, k, _ => by simp [loadPoints]
  | n + 1, k, h => by
    have h' : k + perPoint kd + perPoint kd * n ≤ x.length := by
      rw [Nat.mul_succ] at h; omega
    have hp : perPoint kd = nStates kd + nControls kd := rfl
    rw [loadPoints, readN_eq x _ _ (by omega), Res.bind_ok, readN_eq x _ _ (by simp only; omega),
      Res.bind_ok]
    rw [show (k + nStates kd + nControls kd) = k + perPoint kd by omega,
      loadPoints_eq kd x n (k + perPoint kd) h', Res.bind_ok]
    simp only [Res.ok.injEq, Prod.mk.injEq]
    refine ⟨?_, by rw [Nat.mul_succ]; omega⟩
    rw [List.range_succ_eq_map, List.map_cons, List.map_map]
    refine congrArg₂ _ (by simp [arraysAt]) ?_
    refine List.map_congr_left fun i _ => ?_
    simp only [Function.comp_apply]
    congr 1
    rw [Nat.mul_succ]; omega

theorem unpackArrays_eq [Zero K] (k : Kind) (x : List K) (i : Nat)
    (h : 1 + perPoint k * (i + 1) ≤ x.length) :
    unpackArrays k x i = .ok (arraysAt k x (1 + perPoint k * i)) := by
  have hp : perPoint k = nStates k + nControls k := rfl
  rw [Nat.mul_succ] at h
  unfold unpackArrays copyN
  rw [← hp, if_pos (by omega), Res.bind_ok, if_pos (by omega), Res.bind_ok]
  rfl

theorem unpackArrays_ub [Zero K] (k : Kind) (x : List K) (i : Nat)
    (h : x.length < 1 + perPoint k * (i + 1)) : unpackArrays k x i = .ub := by
  have hp : perPoint k = nStates k + nControls k := rfl
  rw [Nat.mul_succ] at h
  unfold unpackArrays copyN
  rw [← hp]
  split
  · rw [Res.bind_ok, if_neg (by omega), Res.bind_ub]
  · rfl

theorem writes_length (k : Kind) (p : Point K) : (writes k p).length = perPoint k := by
  cases k <;> rfl

theorem lowerWrites_length [Field K] (deg : K) (o : Limits K) (k : Kind) (p : Point K) :
    (lowerWrites deg o k p).length = perPoint k := by
  cases k <;> rfl

theorem upperWrites_length [Field K] (deg : K) (o : Limits K) (k : Kind) (p : Point K) :
    (upperWrites deg o k p).length = perPoint k := by
  cases k <;> rfl

theorem flatMap_length (w : Point K → List K) (m : Nat) (hw : ∀ p, (w p).length = m)
    (pts : List (Point K)) : (pts.flatMap w).length = m * pts.length := by
  induction pts with
  | nil => simp
  | cons p l ih => simp only [List.flatMap_cons, List.length_append, hw, ih, List.length_cons]; ring

theorem fill_eq [Zero K] (k : Kind) (first : K) (w : Point K → List K)
    (hw : ∀ p, (w p).length = perPoint k) (pts : List (Point K)) :
    fill k first w pts = .ok (first :: pts.flatMap w, nVariables k pts.length) := by
  unfold fill
  refine Transcription.storeAll_full _ _ _ ?_
  rw [List.length_cons, flatMap_length w _ hw]
  unfold nVariables perPoint
  omega

theorem drop_flatMap (w : Point K → List K) (m : Nat) (hw : ∀ p, (w p).length = m) :
    ∀ (pts : List (Point K)) (i : Nat) (p : Point K), pts[i]? = some p →
      ∃ rest, (pts.flatMap w).drop (m * i) = w p ++ rest
  | [], _, _, h => by simp at h
  | a :: l, 0, p, h => by
    simp only [List.getElem?_cons_zero, Option.some.injEq] at h
    subst h
    exact ⟨l.flatMap w, by simp⟩
  | a :: l, i + 1, p, h => by
    obtain ⟨rest, hr⟩ := drop_flatMap w m hw l i p (by simpa using h)
    refine ⟨rest, ?_⟩
    rw [List.flatMap_cons, List.drop_append, hw, List.drop_eq_nil_of_le (by rw [hw, Nat.mul_succ]; omega),
      List.nil_append, ← hr]
    congr 1
    rw [Nat.mul_succ]; omega

theorem arraysAt_fill [Zero K] (k : Kind) (first : K) (w : Point K → List K)
    (hw : ∀ p, (w p).length = perPoint k) (pts : List (Point K)) (i : Nat) (p : Point K)
    (h : pts[i]? = some p) :
    arraysAt k (first :: pts.flatMap w) (1 + perPoint k * i)
      = (asArray ((w p).take (nStates k)), asArray ((w p).drop (nStates k))) := by
  obtain ⟨rest, hr⟩ := drop_flatMap w _ hw pts i p h
  have hp : perPoint k = nStates k + nControls k := rfl
  have h1 : (first :: pts.flatMap w).drop (1 + perPoint k * i) = w p ++ rest := by
    rw [Nat.add_comm, List.drop_succ_cons, hr]
  have h2 : (first :: pts.flatMap w).drop (1 + perPoint k * i + nStates k)
      = (w p).drop (nStates k) ++ rest := by
    rw [← List.drop_drop, h1, List.drop_append, hw,
      show nStates k - perPoint k = 0 by omega, List.drop_zero]
  unfold arraysAt
  rw [h1, h2, List.take_append_of_le_length (by rw [hw]; omega),
    List.take_append_of_le_length (by rw [List.length_drop, hw]; omega)]
  congr 2
  exact List.take_of_length_le (by rw [List.length_drop, hw]; omega)

theorem store_writes [Zero K] (k : Kind) (p : Point K) :
    store k (asArray ((writes k p).take (nStates k))) (asArray ((writes k p).drop (nStates k)))
      = keep k p := by
  cases k <;> rfl

theorem unpack_fill [Zero K] (k : Kind) (first : K) (w : Point K → List K)
    (hw : ∀ p, (w p).length = perPoint k) (g : Point K → Point K)
    (hg : ∀ p, store k (asArray ((w p).take (nStates k))) (asArray ((w p).drop (nStates k))) = g p)
    (pts : List (Point K)) :
    unpack k pts.length (first :: pts.flatMap w) = .ok (pts.map g) := by
  unfold unpack
  rw [mapRes_map (g := fun i => ((pts[i]?).map g).getD (g ⟨0,0,0,0,0,0,0,0,0,0,0,0,0,0,0,0⟩))]
  · congr 1
    refine List.ext_getElem (by simp) fun i h1 h2 => ?_
    have hi : i < pts.length := by simpa using h2
    simp [hi]
  · intro i hi
    have hi : i < pts.length := List.mem_range.1 hi
    have hlen : 1 + perPoint k * (i + 1) ≤ (first :: pts.flatMap w).length := by
      rw [List.length_cons, flatMap_length w _ hw]
      have := Nat.mul_le_mul_left (perPoint k) hi
      simp only [Nat.succ_eq_add_one] at this
      omega
    rw [unpackArrays_eq k _ i hlen, Res.map_ok,
      arraysAt_fill k first w hw pts i pts[i] (List.getElem?_eq_getElem hi), hg]
    simp [hi]

end Verif.Preprocessor

namespace Verif.Preprocessor

variable {K : Type*}

theorem forall₂_append {A B : Type*} {R : A → B → Prop} {a a' : List A} {b b' : List B}
    (h : a.length = b.length) :
    List.Forall₂ R (a ++ a') (b ++ b') ↔ List.Forall₂ R a b ∧ List.Forall₂ R a' b' := by
  induction a generalizing b with
  | nil =>
    cases b with
    | nil => simp
    | cons _ _ => simp at h
  | cons x a ih =>
    cases b with
    | nil => simp at h
    | cons y b =>
      simp only [List.cons_append, List.forall₂_cons, ih (by simpa using h), and_assoc]

theorem forall₂_flatMap {R : K → K → Prop} (wa wb : Point K → List K)
    (h : ∀ p, (wa p).length = (wb p).length) (pts : List (Point K)) :
    List.Forall₂ R (pts.flatMap wa) (pts.flatMap wb) ↔ ∀ p ∈ pts, List.Forall₂ R (wa p) (wb p) := by
  induction pts with
  | nil => simp
  | cons p l ih => simp [List.flatMap_cons, forall₂_append (h p), ih]

end Verif.Preprocessor
