import Verif.Lemmas.CircuitSides
import Verif.Props.CircuitEstimate

/-! Property of the estimate of the centreline of the mirror image of a circuit (C272). -/

set_option autoImplicit false

namespace Verif.Fit

open Verif.Road (Vec3)
open Verif.Preprocessor

/-! ## C272 -/

/-- C272, full statement: the estimate of the mirror image of the boundaries, left and right exchanged, is the mirror image of the
estimate. -/
def EstimateMirrors (lib : Library) : Prop :=
  ∀ (closed : Bool) (ratio dmax : ℝ) (how : Meshing) (left right : List Vec3) (fuel : Nat), left ≠ [] → right ≠ [] →
    averaged lib closed ratio dmax how.mirrored (mirrorLine right) (mirrorLine left) fuel
      = (averaged lib closed ratio dmax how left right fuel).map fun r => r.map Centerline.mirrored

/-- C272, the part that holds: the estimate is mirrored when the cross-sections are, that is when the cross-sections placed along the left
boundary are those placed along the right one. Missing: that they are. -/
theorem C272_estimate_partial (lib : Library) (hM : Mirrors lib) (closed : Bool) (ratio dmax : ℝ) (how : Meshing)
    (left right : List Vec3) (fuel : Nat)
    (hs : sampled lib closed ratio dmax how.mirrored (mirrorLine right) (mirrorLine left) fuel
      = (sampled lib closed ratio dmax how left right fuel).map fun r => r.map (List.map mirrorSection)) :
    averaged lib closed ratio dmax how.mirrored (mirrorLine right) (mirrorLine left) fuel
      = (averaged lib closed ratio dmax how left right fuel).map fun r => r.map Centerline.mirrored := by
  unfold averaged
  refine andThen_map _ _ _ _ (List.map mirrorSection) _ hs ?_
  intro pairs hp
  exact recentred_mirror lib hM closed ratio how pairs (sampled_ne _ _ _ _ _ _ _ _ _ hp) fuel

/-! ### The search by projection -/

theorem exFoot_mirror (a b p : Vec3) : exFoot (mirrorPoint a) (mirrorPoint b) (mirrorPoint p) = mirrorPoint (exFoot a b p) := by
  have hdot : ∀ u v w : Vec3, Road.dot (mirrorPoint u - mirrorPoint w) (mirrorPoint v - mirrorPoint w) = Road.dot (u - w) (v - w) := by
    intro u v w
    simp only [Road.dot, mirrorPoint, Prod.fst_sub, Prod.snd_sub]
    ring
  rw [exFoot, exFoot, exPart, exPart, hdot, hdot]
  generalize max 0 (min 1 (Road.dot (p - a) (b - a) / Road.dot (b - a) (b - a))) = t
  ext
  · simp [mirrorPoint]
  · simp only [mirrorPoint, Prod.fst_add, Prod.snd_add, Prod.smul_snd, Prod.smul_fst, Prod.fst_sub, Prod.snd_sub, smul_eq_mul]
    ring
  · simp [mirrorPoint]

theorem len_mirror (p q : Vec3) : len (mirrorPoint p - mirrorPoint q) = len (p - q) := by
  rw [← distance_eq, ← distance_eq, distance_mirror]

theorem exNearest_mirror (line : List Vec3) (p : Vec3) :
    exNearest (mirrorLine line) (mirrorPoint p) = mirrorPoint (exNearest line p) := by
  induction line with
  | nil => rfl
  | cons a l ih =>
    match l with
    | [] => rfl
    | [b] => exact exFoot_mirror a b p
    | b :: c :: l =>
      simp only [mirrorLine, List.map_cons] at ih ⊢
      simp only [exNearest, ih, exFoot_mirror, len_mirror]
      split <;> rfl

theorem exBroken_map (f : Vec3 → Vec3) (hf : ∀ (t : ℝ) (p q : Vec3), f (p + t • (q - p)) = f p + t • (f q - f p)) (s : List ℝ)
    (line : List Vec3) (x : ℝ) (h : line ≠ []) : exBroken s (line.map f) x = f (exBroken s line x) := by
  induction line generalizing s with
  | nil => exact absurd rfl h
  | cons p r ih =>
    match s, r with
    | a :: b :: s, q :: r =>
      have := ih (b :: s) (by simp)
      simp only [List.map_cons] at this ⊢
      simp only [exBroken, this]
      split
      · rw [hf]
      · rfl
    | [], q :: r => rfl
    | [a], q :: r => rfl
    | [], [] => rfl
    | [a], [] => rfl
    | a :: b :: s, [] => rfl

theorem exProjecting_mirrors : Mirrors exProjecting where
  find line p closed _ _ _ := by
    simp only [exProjecting]
    rw [show vertices closed (mirrorLine line) = mirrorLine (vertices closed line) by
      cases closed <;> simp [vertices, mirrorLine, List.map_take], exNearest_mirror, len_mirror]
  linear s line x h := exBroken_map mirrorPoint (fun t p q => by
    ext
    · simp [mirrorPoint]
    · simp only [mirrorPoint, Prod.fst_add, Prod.snd_add, Prod.smul_snd, Prod.smul_fst, Prod.fst_sub, Prod.snd_sub, smul_eq_mul]
      ring
    · simp [mirrorPoint]) s line x h
  opposite s line x h := exBroken_map (fun v => -v) (fun t p q => by
    rw [neg_add, ← smul_neg, neg_sub, neg_sub_neg]) s line x h

/-- The cross-sections of an open road between two straight lines along the first axis, with one element. -/
theorem exSections (yl yr xl xr : ℝ) (hl : 0 < xl) (hr : 0 < xr) :
    sampled exProjecting false 2 100 (.equispaced 1) [(0, yl, 0), (xl, yl, 0)] [(0, yr, 0), (xr, yr, 0)] 0
      = some (.ok [((0, yr, 0), (0, yl, 0)), ((xr, yr, 0), (min xr xl, yl, 0))]) := by
  have d1 : distance ((0 : ℝ), yr, (0 : ℝ)) (xr, yr, 0) = xr := by
    rw [distance_eq]
    unfold len Road.dot
    simp only [Prod.mk_sub_mk, sub_self, Prod.fst_zero, Prod.snd_zero, mul_zero, add_zero, sub_zero]
    exact Real.sqrt_mul_self hr.le
  have v : ∀ x : ℝ, 0 ≤ x → exNearest (vertices false [(0, yl, 0), (xl, yl, 0)]) (x, yr, 0) = (min x xl, yl, 0) := by
    intro x hx
    have e : exPart (0, yl, 0) (xl, yl, 0) (x, yr, 0) = min x xl / xl := by
      simp only [exPart, Road.dot, Prod.mk_sub_mk, sub_self, Prod.fst_zero, Prod.snd_zero, mul_zero, add_zero, sub_zero,
        mul_div_mul_right _ _ hl.ne']
      rw [max_eq_right (le_min zero_le_one (div_nonneg hx hl.le)), ← min_div_div_right hl.le, div_self hl.ne', min_comm]
    simp only [vertices, Bool.false_eq_true, if_false, exNearest, exFoot, e]
    ext
    · simp only [Prod.fst_add, Prod.smul_fst, Prod.fst_sub, smul_eq_mul, sub_zero, zero_add]
      field_simp
    · simp
    · simp
  have v0 := v 0 le_rfl
  have v1 := v xr hr.le
  rw [min_eq_left hl.le] at v0
  unfold sampled
  simp only [closeLine, Bool.false_eq_true, if_false, andThen, along, one_ne_zero]
  simp [Mesh.linspace, Mesh.arclengthsFrom, d1, exProjecting, exBroken, dropClosing, follow, lengthOf, v0, v1, List.range_succ, hr.ne',
    hr.le]

/-- C272: the full statement is false. The nodes are placed along the right boundary. Between a left boundary of 20 m and a right one of 10 m
the estimate with one element is 10 m long; in the mirror image the boundary of 20 m is the right one, and the estimate is 15 m long. -/
theorem C272_false : Mirrors exProjecting ∧ FindsClosest exProjecting.find ∧ ¬EstimateMirrors exProjecting := by
  refine ⟨exProjecting_mirrors, exProjecting_closest, fun h => ?_⟩
  have h := h false 2 100 (.equispaced 1) [(0, 0, 0), (20, 0, 0)] [(0, 4, 0), (10, 4, 0)] 0 (by simp) (by simp)
  have e1 : mirrorLine [((0 : ℝ), (4 : ℝ), (0 : ℝ)), (10, 4, 0)] = [(0, -4, 0), (10, -4, 0)] := by simp [mirrorLine, mirrorPoint]
  have e2 : mirrorLine [((0 : ℝ), (0 : ℝ), (0 : ℝ)), (20, 0, 0)] = [(0, 0, 0), (20, 0, 0)] := by simp [mirrorLine, mirrorPoint]
  have s1 := exSections 0 4 20 10 (by norm_num) (by norm_num)
  have s2 := exSections (-4) 0 10 20 (by norm_num) (by norm_num)
  rw [e1, e2] at h
  simp only [Meshing.mirrored, averaged, s1, s2, andThen] at h
  have len1 : ∀ a b : Vec3 × Vec3, (recentred exProjecting false 2 (.equispaced 1) [a, b] 0)
      = some (.ok ⟨[0, distance (middle a) (middle b)], [exBroken [0, distance (middle a) (middle b)] [middle a, middle b] 0,
          exBroken [0, distance (middle a) (middle b)] [middle a, middle b] (distance (middle a) (middle b))],
        [exBroken [0, distance (middle a) (middle b)] [half a, half b] 0,
          exBroken [0, distance (middle a) (middle b)] [half a, half b] (distance (middle a) (middle b))],
        distance (middle a) (middle b)⟩) := by
    intro a b
    unfold recentred
    simp only [closeLine, Bool.false_eq_true, if_false, andThen, along, one_ne_zero]
    simp [Mesh.linspace, Mesh.arclengthsFrom, exProjecting, dropClosing, lengthOf, List.range_succ]
  rw [len1, len1] at h
  have h := congrArg (fun r => r.map fun q => q.map fun c => c.length) h
  simp only [Option.map_some, Res.map, Centerline.mirrored, Option.some.injEq, Res.ok.injEq] at h
  rw [distance_eq, distance_eq] at h
  have h := congrArg (fun x => x ^ 2) h
  simp only [sq (len _), len_sq] at h
  norm_num [middle, Road.dot] at h

/-- C272: a road between parallel lines of the same length has the same cross-sections seen from either side. -/
example : averaged exProjecting false 2 100 (.equispaced 1) (mirrorLine exRight) (mirrorLine exLeft) 0 = some (.ok exEstimate.mirrored) := by
  have h := C272_estimate_partial exProjecting exProjecting_mirrors false 2 100 (.equispaced 1) exLeft exRight 0 (by
    have e1 : mirrorLine exRight = [(0, -4, 0), (10, -4, 0)] := by simp [exRight, mirrorLine, mirrorPoint]
    have e2 : mirrorLine exLeft = [(0, 0, 0), (10, 0, 0)] := by simp [exLeft, mirrorLine, mirrorPoint]
    have s1 := exSections 0 4 10 10 (by norm_num) (by norm_num)
    have s2 := exSections (-4) 0 10 10 (by norm_num) (by norm_num)
    rw [e1, e2]
    simp only [Meshing.mirrored, exLeft, exRight]
    rw [s1, s2]
    simp [Res.map, mirrorSection, mirrorPoint])
  rw [exProjecting_estimate] at h
  exact h

end Verif.Fit
