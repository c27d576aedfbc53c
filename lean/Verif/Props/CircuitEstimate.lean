import Verif.Lemmas.CircuitEstimate
import Verif.Props.CircuitMoves

/-! Properties of the estimate of the centreline of circuits that are moved or turned (C270) and of the search for the closest
points (C271). -/

set_option autoImplicit false

namespace Verif.Fit

open Verif.Road (Vec3)
open Verif.Path (turnPoint)
open Verif.Preprocessor

/-! ## C270 -/

/-- C270: the estimate of the centreline of boundaries that are turned about the vertical and moved, with the places of the sizes turned
and moved as well, is the estimate of the boundaries, turned and moved: same nodes, same length, and the computation ends, fails or is
undefined for the one as for the other. -/
theorem C270_estimate (lib : Library) (hT : Turns lib) (angle : ℝ) (d : Vec3) (closed : Bool) (ratio dmax : ℝ) (how : Meshing)
    (left right : List Vec3) (hl : left ≠ []) (fuel : Nat) :
    averaged lib closed ratio dmax (how.turned angle d) (turnLine angle d left) (turnLine angle d right) fuel
      = (averaged lib closed ratio dmax how left right fuel).map fun r => r.map (Centerline.turned angle d) := by
  unfold averaged
  refine andThen_map _ _ _ _ (List.map (turnPair angle d)) _ (sampled_turn lib hT angle d closed ratio dmax how left right hl fuel) ?_
  intro pairs hp
  exact recentred_turn lib hT angle d closed ratio how pairs (sampled_ne _ _ _ _ _ _ _ _ _ hp) fuel

/-- C270: the fit of boundaries that are turned about the vertical and moved, started from their own estimate of the centreline, is as good
as the fit of the boundaries started from theirs, and runs around the circuit in the same direction. -/
theorem C270_fit (angle : ℝ) (d : Vec3) (hd : d.2.2 = 0) (lib : Library) (hT : Turns lib) (hfind : FindsClosest lib.find)
    (hw : WrapsTurns lib.wrap) (D : List Vec3 → Vec3 → ℝ) (hD : Measures true D) (opt : Optimiser) (hopt : RightSize opt)
    (hrel : Reliable 0 0 opt) (hmin : Minimises opt) (st : Settings) (closed : Bool) (ratio : ℝ) (how : Meshing) (left right : List Vec3)
    (h2l : 2 ≤ left.length) (h2r : 2 ≤ right.length) (fuel : Nat) (c c' : Centerline)
    (hest : averaged lib closed ratio st.dmax how left right fuel = some (.ok c))
    (hest' : averaged lib closed ratio st.dmax (how.turned angle d) (turnLine angle d left) (turnLine angle d right) fuel = some (.ok c'))
    (h2c : 2 ≤ c.r.length) (hu : Usable closed left right c) (ha : Apart closed c.r) (res res' : Fitted)
    (hres : compute lib opt st .flat closed left right c = .ok res)
    (hres' : compute lib opt st .flat closed (turnLine angle d left) (turnLine angle d right) c' = .ok res')
    (hc : Close c.r res.points) (hc' : Close c'.r res'.points) :
    misfit D .flat closed st.weights (turnLine angle d left) (turnLine angle d right) c'.r res'.s res'.length res'.points
      = misfit D .flat closed st.weights left right c.r res.s res.length res.points ∧
    res'.direction = res.direction := by
  have hl : left ≠ [] := by rintro rfl; simp at h2l
  have h := C270_estimate lib hT angle d closed ratio st.dmax how left right hl fuel
  rw [hest, hest'] at h
  obtain rfl : c' = c.turned angle d := by simpa [Res.map] using h
  exact C267_turned angle d hd lib hfind hw D hD opt hopt hrel hmin st closed left right h2l h2r c h2c hu ha res res' hres hres' hc hc'

/-- Straight lines between consecutive values, the last value afterwards. -/
noncomputable def exBroken : List ℝ → List Vec3 → ℝ → Vec3
  | a :: b :: s, p :: q :: r, x => if x ≤ b then p + ((x - a) / (b - a)) • (q - p) else exBroken (b :: s) (q :: r) x
  | _, p :: _, _ => p
  | _, [], _ => 0

theorem exBroken_turn (angle : ℝ) (d : Vec3) (s : List ℝ) (line : List Vec3) (x : ℝ) (h : line ≠ []) :
    exBroken s (turnLine angle d line) x = turnPoint angle d (exBroken s line x) := by
  induction line generalizing s with
  | nil => exact absurd rfl h
  | cons p r ih =>
    match s, r with
    | a :: b :: s, q :: r =>
      have := ih (b :: s) (by simp)
      simp only [turnLine, List.map_cons] at this ⊢
      simp only [exBroken, this]
      split
      · rw [turnPoint_divide]
      · rfl
    | [], q :: r => rfl
    | [a], q :: r => rfl
    | [], [] => rfl
    | [a], [] => rfl
    | a :: b :: s, [] => rfl

/-- How far along a segment the closest point is. -/
noncomputable def exPart (a b p : Vec3) : ℝ := max 0 (min 1 (Road.dot (p - a) (b - a) / Road.dot (b - a) (b - a)))

/-- The closest point of a segment. -/
noncomputable def exFoot (a b p : Vec3) : Vec3 := a + exPart a b p • (b - a)

/-- The closest point of a line, on the first segment if there are several. -/
noncomputable def exNearest : List Vec3 → Vec3 → Vec3
  | [], p => p
  | [a], _ => a
  | [a, b], p => exFoot a b p
  | a :: b :: c :: l, p =>
    if len (exFoot a b p - p) ≤ len (exNearest (b :: c :: l) p - p) then exFoot a b p else exNearest (b :: c :: l) p

/-- A library that projects on the segments. -/
noncomputable def exProjecting : Library :=
  ⟨fun line p closed _ _ => (exNearest (vertices closed line) p, len (exNearest (vertices closed line) p - p) ^ 2, 0, 0), exBroken,
    fun a => toIocMod Real.two_pi_pos (-Real.pi) a, fun _ => 0⟩

theorem exFoot_least (a b p : Vec3) (t : ℝ) (h0 : 0 ≤ t) (h1 : t ≤ 1) : len (exFoot a b p - p) ^ 2 ≤ len (a + t • (b - a) - p) ^ 2 := by
  have key : ∀ x : ℝ, len (a + x • (b - a) - p) ^ 2
      = x ^ 2 * Road.dot (b - a) (b - a) - 2 * x * Road.dot (p - a) (b - a) + Road.dot (p - a) (p - a) := by
    intro x
    rw [sq (len _), len_sq]
    simp only [Road.dot, Prod.fst_add, Prod.snd_add, Prod.fst_sub, Prod.snd_sub, Prod.smul_fst, Prod.smul_snd, smul_eq_mul]
    ring
  rw [exFoot, key, key]
  have hD : 0 ≤ Road.dot (b - a) (b - a) := by
    simp only [Road.dot]
    nlinarith [mul_self_nonneg (b - a).1, mul_self_nonneg (b - a).2.1, mul_self_nonneg (b - a).2.2]
  rcases hD.eq_or_lt with hD | hD
  · have hN : Road.dot (p - a) (b - a) = 0 := by
      have e1 : (b - a).1 = 0 := by
        have h := hD; simp only [Road.dot] at h
        nlinarith [mul_self_nonneg (b - a).1, mul_self_nonneg (b - a).2.1, mul_self_nonneg (b - a).2.2]
      have e2 : (b - a).2.1 = 0 := by
        have h := hD; simp only [Road.dot] at h
        nlinarith [mul_self_nonneg (b - a).1, mul_self_nonneg (b - a).2.1, mul_self_nonneg (b - a).2.2]
      have e3 : (b - a).2.2 = 0 := by
        have h := hD; simp only [Road.dot] at h
        nlinarith [mul_self_nonneg (b - a).1, mul_self_nonneg (b - a).2.1, mul_self_nonneg (b - a).2.2]
      simp only [Road.dot, e1, e2, e3]
      ring
    rw [← hD, hN]
    simp
  · generalize hDe : Road.dot (b - a) (b - a) = D at *
    generalize hNe : Road.dot (p - a) (b - a) = N at *
    have hc : exPart a b p = max 0 (min 1 (N / D)) := by rw [exPart, hDe, hNe]
    rw [hc]
    rcases le_total (N / D) 0 with h | h
    · have hN : N ≤ 0 := by rwa [div_le_iff₀ hD, zero_mul] at h
      rw [min_eq_right (h.trans zero_le_one), max_eq_left h]
      nlinarith [mul_nonneg h0 (neg_nonneg.2 hN), mul_nonneg (sq_nonneg t) hD.le]
    · rcases le_total (N / D) 1 with h' | h'
      · rw [min_eq_right h', max_eq_right h]
        have e : N = N / D * D := by field_simp
        generalize N / D = c at *
        rw [e]
        nlinarith [mul_nonneg (sq_nonneg (t - c)) hD.le]
      · have hN : D ≤ N := by rwa [le_div_iff₀ hD, one_mul] at h'
        rw [min_eq_left h', max_eq_right zero_le_one]
        nlinarith [mul_nonneg (sub_nonneg.2 h1) (sub_nonneg.2 hN), mul_nonneg (sub_nonneg.2 h1) (mul_nonneg (sub_nonneg.2 h1) hD.le)]

theorem exNearest_closest (line : List Vec3) (p : Vec3) (h : 2 ≤ line.length) :
    SquaredDistance line p (len (exNearest line p - p) ^ 2) := by
  have hfoot : ∀ a b : Vec3, 0 ≤ exPart a b p ∧ exPart a b p ≤ 1 := fun a b =>
    ⟨le_max_left _ _, max_le zero_le_one (min_le_left _ _)⟩
  induction line with
  | nil => simp at h
  | cons a l ih =>
    match l with
    | [] => simp at h
    | [b] =>
      refine ⟨⟨_, (onLine_cons a b [] _).2 (Or.inl ⟨exPart a b p, (hfoot a b).1, (hfoot a b).2, rfl⟩), rfl⟩, fun q hq => ?_⟩
      rcases (onLine_cons _ _ _ _).1 hq with ⟨t, h0, h1, rfl⟩ | h
      · exact exFoot_least a b p t h0 h1
      · exact absurd h (onLine_single _ _)
    | b :: c :: l =>
      obtain ⟨⟨q₀, hq₀, e₀⟩, hle⟩ := ih (by simp)
      simp only [exNearest]
      split
      · rename_i hlt
        refine ⟨⟨_, (onLine_cons a b _ _).2 (Or.inl ⟨exPart a b p, (hfoot a b).1, (hfoot a b).2, rfl⟩), rfl⟩, fun q hq => ?_⟩
        rcases (onLine_cons _ _ _ _).1 hq with ⟨t, h0, h1, rfl⟩ | h
        · exact exFoot_least a b p t h0 h1
        · exact (pow_le_pow_left₀ (len_nonneg _) hlt 2).trans (hle q h)
      · rename_i hlt
        refine ⟨⟨q₀, (onLine_cons a b _ _).2 (Or.inr hq₀), e₀⟩, fun q hq => ?_⟩
        rcases (onLine_cons _ _ _ _).1 hq with ⟨t, h0, h1, rfl⟩ | h
        · exact (pow_le_pow_left₀ (len_nonneg _) (not_le.1 hlt).le 2).trans (exFoot_least a b p t h0 h1)
        · exact hle q h

theorem exProjecting_closest : FindsClosest exProjecting.find := by
  intro line p closed i d h
  refine exNearest_closest _ p ?_
  unfold vertices
  split
  · simp only [List.length_append]; omega
  · exact h

theorem exFoot_turn (angle : ℝ) (d a b p : Vec3) :
    exFoot (turnPoint angle d a) (turnPoint angle d b) (turnPoint angle d p) = turnPoint angle d (exFoot a b p) := by
  have hs := Real.sin_sq_add_cos_sq angle
  have hdot : ∀ u v w : Vec3, Road.dot (turnPoint angle d u - turnPoint angle d w) (turnPoint angle d v - turnPoint angle d w)
      = Road.dot (u - w) (v - w) := by
    intro u v w
    simp only [Road.dot, turnPoint, Prod.fst_sub, Prod.snd_sub]
    linear_combination ((u.1 - w.1) * (v.1 - w.1) + (u.2.1 - w.2.1) * (v.2.1 - w.2.1)) * hs
  rw [exFoot, exFoot, turnPoint_divide, exPart, exPart, hdot, hdot]

theorem exNearest_turn (angle : ℝ) (d : Vec3) (line : List Vec3) (p : Vec3) :
    exNearest (turnLine angle d line) (turnPoint angle d p) = turnPoint angle d (exNearest line p) := by
  induction line with
  | nil => rfl
  | cons a l ih =>
    match l with
    | [] => rfl
    | [b] => exact exFoot_turn angle d a b p
    | b :: c :: l =>
      simp only [turnLine, List.map_cons] at ih ⊢
      simp only [exNearest, ih, exFoot_turn, turnPoint_dist]
      split <;> rfl

theorem exProjecting_turns : Turns exProjecting where
  find angle d line p closed _ _ _ := by simp only [exProjecting, vertices_turn, exNearest_turn, turnPoint_dist]
  linear angle d s line x h := exBroken_turn angle d s line x h

theorem exProjecting_estimate : averaged exProjecting false 2 100 (.equispaced 1) exLeft exRight 0 = some (.ok exEstimate) := by
  have d1 : distance ((0 : ℝ), (4 : ℝ), (0 : ℝ)) (10, 4, 0) = 10 := by rw [distance_eq, exRight_step, len_ten]
  have d2 : distance ((0 : ℝ), (2 : ℝ), (0 : ℝ)) (10, 2, 0) = 10 := by
    rw [distance_eq, show (((10, 2, 0) : Vec3) - (0, 2, 0)) = (10, 0, 0) by ext <;> norm_num, len_ten]
  have v0 : exNearest (vertices false exLeft) (0, 4, 0) = (0, 0, 0) := by
    simp [vertices, exLeft, exNearest, exFoot, exPart, Road.dot]
  have v1 : exNearest (vertices false exLeft) (10, 4, 0) = (10, 0, 0) := by
    simp [vertices, exLeft, exNearest, exFoot, exPart, Road.dot]
  have hs : sampled exProjecting false 2 100 (.equispaced 1) exLeft exRight 0
      = some (.ok [((0, 4, 0), (0, 0, 0)), ((10, 4, 0), (10, 0, 0))]) := by
    unfold sampled exRight
    simp only [closeLine, Bool.false_eq_true, if_false, andThen, along, one_ne_zero]
    simp [Mesh.linspace, Mesh.arclengthsFrom, d1, exProjecting, exBroken, dropClosing, follow, lengthOf, v0, v1, List.range_succ]
  unfold averaged
  rw [hs]
  have mids : ([(((0 : ℝ), (4 : ℝ), (0 : ℝ)), ((0 : ℝ), (0 : ℝ), (0 : ℝ))), ((10, 4, 0), (10, 0, 0))].map middle : List Vec3)
      = [(0, 2, 0), (10, 2, 0)] := by
    simp only [List.map_cons, List.map_nil, middle, Prod.mk_add_mk, Prod.smul_mk, smul_eq_mul]
    norm_num
  have halves : ([(((0 : ℝ), (4 : ℝ), (0 : ℝ)), ((0 : ℝ), (0 : ℝ), (0 : ℝ))), ((10, 4, 0), (10, 0, 0))].map half : List Vec3)
      = [(0, 2, 0), (0, 2, 0)] := by
    simp only [List.map_cons, List.map_nil, half, Prod.mk_sub_mk, Prod.smul_mk, smul_eq_mul]
    norm_num
  change recentred exProjecting false 2 (.equispaced 1) _ 0 = _
  unfold recentred
  rw [mids, halves]
  simp only [closeLine, Bool.false_eq_true, if_false, andThen, along, one_ne_zero]
  simp [Mesh.linspace, Mesh.arclengthsFrom, d2, exProjecting, exBroken, dropClosing, lengthOf, List.range_succ, exEstimate]

/-- C270: the estimate of the straight road, turned by one radian and moved. -/
example : averaged exProjecting false 2 100 (.equispaced 1) (turnLine 1 (7, -3, 0) exLeft) (turnLine 1 (7, -3, 0) exRight) 0
    = some (.ok (exEstimate.turned 1 (7, -3, 0))) := by
  have := C270_estimate exProjecting exProjecting_turns 1 (7, -3, 0) false 2 100 (.equispaced 1) exLeft exRight (by simp [exLeft]) 0
  rw [exProjecting_estimate] at this
  exact this

/-! ## C271 -/

/-- C271: which of several closest points the search returns, where it starts and how far it looks do not matter for the fit of a
circuit to a given estimate: two searches that find the distance to the line give the same circuit or the same failure. -/
theorem C271_search (lib lib' : Library) (hf : FindsClosest lib.find) (hf' : FindsClosest lib'.find) (hw : lib.wrap = lib'.wrap)
    (he : lib.euler = lib'.euler) (opt : Optimiser) (st : Settings) (k : Kind) (closed : Bool) (left right : List Vec3)
    (h2l : 2 ≤ left.length) (h2r : 2 ≤ right.length) (c : Centerline) (h2c : 2 ≤ c.r.length) :
    compute lib opt st k closed left right c = compute lib' opt st k closed left right c := by
  simp only [compute, setup_same lib lib' hf hf' hw he st k closed h2l h2r c h2c, finish, errors_same lib lib' hf hf' closed st.dmax h2l,
    errors_same lib lib' hf hf' closed st.dmax h2r]

/-- C271: the search by projection gives the fit of the straight road that any other search of the closest points gives. -/
example : ∃ res, compute exProjecting exOptimiser exSettings .flat false exLeft exRight exEstimate = .ok res ∧
    compute exClosest exOptimiser exSettings .flat false exLeft exRight exEstimate = .ok res := by
  obtain ⟨res, h⟩ := exFit
  refine ⟨res, ?_, h⟩
  rw [← h]
  exact C271_search exProjecting exClosest exProjecting_closest exSearch_closest rfl rfl exOptimiser exSettings .flat false exLeft exRight
    le_rfl le_rfl exEstimate le_rfl

/-- C270: the straight road and the road turned by one radian and moved, both fitted from their own estimates. -/
example : ∃ c res c' res', averaged exProjecting false 2 100 (.equispaced 1) exLeft exRight 0 = some (.ok c) ∧
    averaged exProjecting false 2 100 (.equispaced 1) (turnLine 1 (7, -3, 0) exLeft) (turnLine 1 (7, -3, 0) exRight) 0 = some (.ok c') ∧
    compute exProjecting exOptimiser exSettings .flat false exLeft exRight c = .ok res ∧
    compute exProjecting exOptimiser exSettings .flat false (turnLine 1 (7, -3, 0) exLeft) (turnLine 1 (7, -3, 0) exRight) c' = .ok res' ∧
    misfit exDistance .flat false exSettings.weights (turnLine 1 (7, -3, 0) exLeft) (turnLine 1 (7, -3, 0) exRight) c'.r res'.s
        res'.length res'.points
      = misfit exDistance .flat false exSettings.weights exLeft exRight c.r res.s res.length res.points := by
  have same : ∀ left right c, 2 ≤ List.length left → 2 ≤ List.length right → 2 ≤ c.r.length →
      compute exProjecting exOptimiser exSettings .flat false left right c
        = compute exClosest exOptimiser exSettings .flat false left right c := fun left right c h1 h2 h3 =>
    C271_search exProjecting exClosest exProjecting_closest exSearch_closest rfl rfl exOptimiser exSettings .flat false left right h1 h2 c h3
  obtain ⟨res, h⟩ := exFit
  obtain ⟨res', h'⟩ := exFit_turned 1 (7, -3, 0) rfl
  have hc : Close exEstimate.r res.points := by
    have := exClose 0 0 rfl res (by
      rw [turnLine_zero, turnLine_zero, show exEstimate.turned 0 0 = exEstimate by simp only [Centerline.turned, turnLine_zero]]
      exact h)
    rwa [turnLine_zero] at this
  have hest' := C270_estimate exProjecting exProjecting_turns 1 (7, -3, 0) false 2 100 (.equispaced 1) exLeft exRight (by simp [exLeft]) 0
  rw [exProjecting_estimate] at hest'
  have hp := (same exLeft exRight exEstimate le_rfl le_rfl le_rfl).trans h
  have hp' := (same (turnLine 1 (7, -3, 0) exLeft) (turnLine 1 (7, -3, 0) exRight) (exEstimate.turned 1 (7, -3, 0)) le_rfl le_rfl le_rfl).trans h'
  exact ⟨exEstimate, res, exEstimate.turned 1 (7, -3, 0), res', exProjecting_estimate, hest', hp, hp',
    (C270_fit 1 (7, -3, 0) rfl exProjecting exProjecting_turns exProjecting_closest exWraps exDistance exDistance_measures exOptimiser
      exOptimiser_rightSize exOptimiser_reliable exOptimiser_minimises exSettings false 2 (.equispaced 1) exLeft exRight le_rfl le_rfl 0
      exEstimate _ exProjecting_estimate hest' le_rfl exEstimate_usable exApart res res' hp hp' hc (exClose 1 (7, -3, 0) rfl res' h')).1⟩

end Verif.Fit
