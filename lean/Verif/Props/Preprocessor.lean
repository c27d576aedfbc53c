import Verif.Lemmas.Preprocessor
import Mathlib.Tactic.NormNum
import Mathlib.Tactic.FieldSimp
import Mathlib.Tactic.LinearCombination

/-! # Properties of the track preprocessor -/

set_option autoImplicit false

namespace Verif.Preprocessor

open Verif.Road (Vec3)

variable {K : Type*}

/-! ## C57: layout of the optimisation vector -/

/-- C57. The starting point is written completely and inside its vector, and storing it as if it were
the solution gives back every point; the cost function reads the same values from it. -/
theorem C57_round_trip [Field K] (k : Kind) (pts : List (Point K)) :
    ∃ x, pack k pts = .ok (x, nVariables k pts.length) ∧
      x.length = nVariables k pts.length ∧
      unpack k pts.length x = .ok (pts.map (keep k)) ∧
      ∃ qs, load k pts.length x = .ok (1, qs, nVariables k pts.length) ∧
        qs.map (fun qu => store k qu.1 qu.2) = pts.map (keep k) := by
  have hlen : (1 :: pts.flatMap (writes k)).length = nVariables k pts.length := by
    rw [List.length_cons, flatMap_length _ _ (writes_length k)]
    unfold nVariables perPoint; omega
  refine ⟨1 :: pts.flatMap (writes k), fill_eq k 1 _ (writes_length k) pts, hlen,
    unpack_fill k 1 _ (writes_length k) (keep k) (store_writes k) pts, ?_⟩
  refine ⟨(List.range pts.length).map fun i =>
    arraysAt k (1 :: pts.flatMap (writes k)) (1 + perPoint k * i), ?_, ?_⟩
  · unfold load
    rw [loadPoints_eq k _ _ _ (by rw [hlen]; exact Nat.le_refl _)]
    rfl
  · refine List.ext_getElem (by simp) fun i h1 h2 => ?_
    have hi : i < pts.length := by simpa using h2
    simp only [List.getElem_map, List.getElem_range,
      arraysAt_fill k 1 _ (writes_length k) pts i pts[i] (List.getElem?_eq_getElem hi)]
    exact store_writes k _

/-- C57. Whatever vector the solver returns: if it has the advertised size, what is stored for point
`i` is what the cost function read for point `i`; if it is shorter, storing it is undefined. -/
theorem C57_solution [Field K] (k : Kind) (nPoints : Nat) (x : List K) :
    (nVariables k nPoints ≤ x.length → ∃ f qs,
        load k nPoints x = .ok (f, qs, nVariables k nPoints) ∧ x[0]? = some f ∧
          qs.length = nPoints ∧
          unpack k nPoints x = .ok (qs.map fun qu => store k qu.1 qu.2)) ∧
      (0 < nPoints → x.length < nVariables k nPoints → unpack k nPoints x = .ub) := by
  constructor
  · intro h
    have h0 : 0 < x.length := by unfold nVariables at h; omega
    refine ⟨x[0], (List.range nPoints).map fun i => arraysAt k x (1 + perPoint k * i), ?_, by simp [h0],
      by simp, ?_⟩
    · unfold load
      rw [idx_of_lt h0, Res.bind_ok, loadPoints_eq k x _ _ h]
      rfl
    · unfold unpack
      rw [mapRes_map (g := fun i => store k (arraysAt k x (1 + perPoint k * i)).1
        (arraysAt k x (1 + perPoint k * i)).2), List.map_map]
      · rfl
      · intro i hi
        have hi := List.mem_range.1 hi
        have := Nat.mul_le_mul_left (perPoint k) hi
        rw [unpackArrays_eq k x i (by
          unfold nVariables at h
          have hp : perPoint k = nStates k + nControls k := rfl
          rw [← hp] at h
          simp only [Nat.succ_eq_add_one] at this
          omega)]
        rfl
  · intro hn h
    unfold unpack
    obtain ⟨n, rfl⟩ : ∃ n, nPoints = n + 1 := ⟨nPoints - 1, by omega⟩
    cases hm : mapRes (fun i => (unpackArrays k x i).map fun qu => store k qu.1 qu.2)
      (List.range (n + 1)) with
    | ub => rfl
    | ok r =>
      obtain ⟨_, h2⟩ := mapRes_eq_ok hm
      obtain ⟨b, _, hb⟩ := h2 n n (by simp)
      rw [unpackArrays_ub k x n h] at hb
      simp at hb
    | throw =>
      refine absurd hm (mapRes_ne_throw fun i _ => ?_)
      by_cases hx : 1 + perPoint k * (i + 1) ≤ x.length
      · rw [unpackArrays_eq k x i hx]; simp
      · rw [unpackArrays_ub k x i (by omega)]; simp

/-- C57 on two points of an elevated track. -/
example : pack .elevated ([⟨1, 2, 3, 4, 5, 6, 7, 8, 9, 10, 11, 12, 13, 14, 15, 16⟩,
      ⟨21, 22, 23, 24, 25, 26, 27, 28, 29, 30, 31, 32, 33, 34, 35, 36⟩] : List (Point ℚ))
    = .ok ([1, 1, 2, 3, 4, 5, 6, 7, 8, 9, 10, 11, 12, 13, 14, 15, 16,
        21, 22, 23, 24, 25, 26, 27, 28, 29, 30, 31, 32, 33, 34, 35, 36], 33) := rfl

/-- The two clauses of `C57_solution` are inhabited. -/
example : nVariables .flat 2 = 19 ∧ nVariables .elevated 2 = 33 := ⟨rfl, rfl⟩

/-! ## C114: bounds of the fitting problem -/

/-- C114. The bound vectors have the layout of the starting point: what they hold for point `i` is the
range allowed for each quantity of point `i`. -/
theorem C114_bounds [Field K] (deg : K) (o : Limits K) (k : Kind) (pts : List (Point K)) :
    ∃ xl xu ls us, packLower deg o k pts = .ok (xl, nVariables k pts.length) ∧
      packUpper deg o k pts = .ok (xu, nVariables k pts.length) ∧
      xl[0]? = some (9 / 10) ∧ xu[0]? = some (111 / 100) ∧
      unpack k pts.length xl = .ok ls ∧ unpack k pts.length xu = .ok us ∧
      ∀ (i : Nat) (p : Point K), pts[i]? = some p →
        ∃ l u, ls[i]? = some l ∧ us[i]? = some u ∧
          ∀ q : Quantity, q.used k = true → (l.get q, u.get q) = allowed deg o p q := by
  refine ⟨_, _, _, _, fill_eq k _ _ (lowerWrites_length deg o k) pts,
    fill_eq k _ _ (upperWrites_length deg o k) pts, rfl, rfl,
    unpack_fill k _ _ (lowerWrites_length deg o k) _ (fun p => rfl) pts,
    unpack_fill k _ _ (upperWrites_length deg o k) _ (fun p => rfl) pts, ?_⟩
  intro i p hp
  refine ⟨_, _, by rw [List.getElem?_map, hp, Option.map_some],
    by rw [List.getElem?_map, hp, Option.map_some], ?_⟩
  intro q hq
  cases k <;> cases q <;> first | rfl | simp [Quantity.used] at hq

/-- C114. The bounds can be met exactly when the three limits are not negative and the track is at
least one metre wide at every point. -/
theorem C114_feasible_box [Field K] [LinearOrder K] [IsStrictOrderedRing K] (deg : K) (hdeg : 0 ≤ deg) (o : Limits K) (k : Kind)
    (pts : List (Point K)) (hne : pts ≠ []) :
    ∃ xl xu, packLower deg o k pts = .ok (xl, nVariables k pts.length) ∧
      packUpper deg o k pts = .ok (xu, nVariables k pts.length) ∧
      (List.Forall₂ (· ≤ ·) xl xu ↔
        0 ≤ o.maxYawDot ∧ 0 ≤ o.maxDyawDot ∧ 0 ≤ o.maxDn ∧ ∀ p ∈ pts, 1 ≤ p.nl + p.nr) := by
  refine ⟨_, _, fill_eq k _ _ (lowerWrites_length deg o k) pts,
    fill_eq k _ _ (upperWrites_length deg o k) pts, ?_⟩
  have key : ∀ p : Point K, List.Forall₂ (· ≤ ·) (lowerWrites deg o k p) (upperWrites deg o k p) ↔
      0 ≤ o.maxYawDot ∧ 0 ≤ o.maxDyawDot ∧ 0 ≤ o.maxDn ∧ 1 ≤ p.nl + p.nr := by
    intro p
    have e1 : ∀ a b : K, 0 ≤ b → a - b ≤ a + b := fun a b hb => by linarith
    have e2 : ∀ a : K, -a ≤ a ↔ 0 ≤ a := fun a => by constructor <;> intro h <;> linarith
    have e30 := e1 p.yaw (30 * deg) (by positivity)
    have e10 := e1 p.pitch (10 * deg) (by positivity)
    have e11 := e1 p.roll (10 * deg) (by positivity)
    have ex := e1 p.x 100 (by norm_num)
    have ey := e1 p.y 100 (by norm_num)
    have ez := e1 p.z 10 (by norm_num)
    cases k <;>
      simp only [lowerWrites, upperWrites, List.forall₂_cons, List.forall₂_nil_left_iff, e2, ex, ey, ez, e30, e10, e11, true_and, and_true] <;>
      constructor <;> intro h <;> refine ⟨?_, ?_, ?_, ?_⟩ <;> simp_all
  rw [List.forall₂_cons, forall₂_flatMap _ _ (fun p => by
    rw [lowerWrites_length, upperWrites_length])]
  simp only [key]
  constructor
  · rintro ⟨_, h⟩
    obtain ⟨p, hp⟩ := List.exists_mem_of_ne_nil pts hne
    exact ⟨(h p hp).1, (h p hp).2.1, (h p hp).2.2.1, fun p hp => (h p hp).2.2.2⟩
  · rintro ⟨h1, h2, h3, h4⟩
    exact ⟨by norm_num, fun p hp => ⟨h1, h2, h3, h4 p hp⟩⟩

/-- C114. The starting point respects the bound vectors exactly when every quantity of every point is
in its allowed range: the vectors are aligned with the starting point. -/
theorem C114_start_inside [Field K] [LinearOrder K] [IsStrictOrderedRing K] (deg : K) (hdeg : 0 ≤ deg) (o : Limits K) (k : Kind)
    (pts : List (Point K)) :
    ∃ x xl xu, pack k pts = .ok (x, nVariables k pts.length) ∧
      packLower deg o k pts = .ok (xl, nVariables k pts.length) ∧
      packUpper deg o k pts = .ok (xu, nVariables k pts.length) ∧
      (List.Forall₂ (· ≤ ·) xl x ∧ List.Forall₂ (· ≤ ·) x xu ↔
        ∀ p ∈ pts, ∀ q : Quantity, q.used k = true →
          (allowed deg o p q).1 ≤ p.get q ∧ p.get q ≤ (allowed deg o p q).2) := by
  refine ⟨_, _, _, fill_eq k _ _ (writes_length k) pts, fill_eq k _ _ (lowerWrites_length deg o k) pts,
    fill_eq k _ _ (upperWrites_length deg o k) pts, ?_⟩
  rw [List.forall₂_cons, List.forall₂_cons, forall₂_flatMap _ _ (fun p => by
    rw [lowerWrites_length, writes_length]), forall₂_flatMap _ _ (fun p => by
    rw [writes_length, upperWrites_length])]
  have e0 : (9 / 10 : K) ≤ 1 := by norm_num
  have e1 : (1 : K) ≤ 111 / 100 := by norm_num
  simp only [e0, e1, true_and]
  rw [← forall₂_and]
  refine forall₂_congr fun p _ => ?_
  constructor
  · intro h q hq
    cases k <;> simp only [lowerWrites, upperWrites, writes, List.forall₂_cons] at h <;>
      cases q <;> first | exact absurd hq (by decide) | (simp only [allowed, Point.get]; constructor <;> simp_all)
  · intro h
    cases k with
    | flat =>
      have hx := h .x rfl; have hy := h .y rfl; have hyaw := h .yaw rfl; have hyd := h .yawDot rfl
      have hnl := h .nl rfl; have hnr := h .nr rfl; have hdy := h .dyawDot rfl
      have hdl := h .dnl rfl; have hdr := h .dnr rfl
      simp only [allowed, Point.get] at *
      simp_all [lowerWrites, upperWrites, writes]
    | elevated =>
      have hx := h .x rfl; have hy := h .y rfl; have hz := h .z rfl; have hyaw := h .yaw rfl
      have hp := h .pitch rfl; have hr := h .roll rfl; have hyd := h .yawDot rfl
      have hpd := h .pitchDot rfl; have hrd := h .rollDot rfl
      have hnl := h .nl rfl; have hnr := h .nr rfl; have hdy := h .dyawDot rfl
      have hdp := h .dpitchDot rfl; have hdrr := h .drollDot rfl
      have hdl := h .dnl rfl; have hdr := h .dnr rfl
      simp only [allowed, Point.get] at *
      simp_all [lowerWrites, upperWrites, writes]

/-- A point whose curvature is beyond the limit: the starting point is outside its bounds, and a track
narrower than a metre leaves no room at all. -/
example : ¬ ((allowed (1 : ℚ) ⟨1/10, 1/50, 1⟩ ⟨0,0,0,0,0,0,1/5,0,0,5,5,0,0,0,0,0⟩ .yawDot).2
    ≥ (⟨0,0,0,0,0,0,1/5,0,0,5,5,0,0,0,0,0⟩ : Point ℚ).get .yawDot) := by
  simp only [allowed, Point.get]; norm_num

end Verif.Preprocessor
