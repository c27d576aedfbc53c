import Verif.Lemmas.Path
import Verif.Lemmas.ArcsTrack
import Verif.Spec.Preprocessor
import Mathlib.Tactic.NormNum
import Mathlib.Tactic.Positivity

/-! # Properties of the minimum curvature path: geometry and cost -/

set_option autoImplicit false

namespace Verif.Path

open Verif.Road (Vec3)

/-! ## C135: the path stays on the track -/

/-- C135, the part that holds: on a circuit given by its geometry. Whatever the solver returns within
the bounds, every point of the path is on the straight line between the left and the right edge of the
circuit at its station, and its lateral displacement is its distance to the centreline, measured
perpendicularly to the direction of travel. -/
theorem C135_inside_partial (closed : Bool) (deg length : ℝ) (table : ℝ → Station ℝ)
    (centre : ℝ → Vec3) (s s' xs xl xu x : List ℝ) (pts : List (Vars ℝ)) (ds : List ℝ)
    (h : problem closed deg length table s = .ok (s', xs, xl, xu))
    (hl : List.Forall₂ (· ≤ ·) xl x) (hu : List.Forall₂ (· ≤ ·) x xu)
    (hx : load s'.length (nElements closed s'.length) x = .ok (pts, ds))
    (i : Nat) (a : ℝ) (v : Vars ℝ) (ha : s'[i]? = some a) (hv : pts[i]? = some v) :
    let nv := normalVector (table a).yaw (table a).pitch (table a).roll
    let edge := fun n => place (centre a) nv n
    (∃ t, 0 ≤ t ∧ t ≤ 1 ∧ place (centre a) nv v.n =
      ((1 - t) * (edge (-(table a).nl)).1 + t * (edge (table a).nr).1,
       (1 - t) * (edge (-(table a).nl)).2.1 + t * (edge (table a).nr).2.1,
       (1 - t) * (edge (-(table a).nl)).2.2 + t * (edge (table a).nr).2.2)) ∧
    Road.dot nv nv = 1 ∧ Road.dot nv (heading (table a).yaw (table a).pitch) = 0 := by
  obtain ⟨xl', a1, a2, a3, _⟩ := written closed deg length table s' Range.lower
  obtain ⟨xu', b1, b2, b3, _⟩ := written closed deg length table s' Range.upper
  obtain ⟨e1, e2⟩ : xl = xl' ∧ xu = xu' := by
    unfold problem at h
    simp only [Res.bind_eq_ok] at h
    obtain ⟨s'', _, y, _, y1, hy1, y2, hy2, hh⟩ := h
    have hh := Res.ok.inj hh
    simp only [Prod.mk.injEq] at hh
    obtain ⟨rfl, rfl, rfl, rfl⟩ := hh
    rw [a1] at hy1; rw [b1] at hy2
    exact ⟨(Res.ok.inj hy1).symm, (Res.ok.inj hy2).symm⟩
  subst e1 e2
  have hlow := a3 i a ha (.n, ⟨0, -(table a).nl, (table a).nr⟩) (by simp [pointEntries])
  have hupp := b3 i a ha (.n, ⟨0, -(table a).nl, (table a).nr⟩) (by simp [pointEntries])
  have hn : x[nameEnd * i + Name.n.val]? = some v.n := by
    unfold load at hx
    obtain ⟨pts', h1, h2⟩ := Res.bind_eq_ok.1 hx
    obtain ⟨ds', _, h3⟩ := Res.bind_eq_ok.1 h2
    obtain ⟨rfl, rfl⟩ := Prod.mk.inj (Res.ok.inj h3)
    obtain ⟨hlen, hall⟩ := mapRes_eq_ok h1
    have hi := (List.getElem?_eq_some_iff.1 ha).1
    obtain ⟨b, hb, hb2⟩ := hall i i (List.getElem?_range hi)
    rw [hv] at hb
    obtain rfl := Option.some.inj hb
    unfold loadPoint at hb2
    simp only [Res.bind_eq_ok, idx_eq_ok] at hb2
    obtain ⟨n, h0, _, _, _, _, _, _, _, _, _, _, _, _, he⟩ := hb2
    rw [h0, ← Res.ok.inj he]
  have h1 : -(table a).nl ≤ v.n := by
    have hj := List.getElem?_eq_some_iff.1 hlow
    have hj2 := List.getElem?_eq_some_iff.1 hn
    have := (List.forall₂_iff_get.1 hl).2 _ hj.1 hj2.1
    simp only [List.get_eq_getElem] at this
    rw [hj2.2, hj.2] at this
    exact this
  have h2 : v.n ≤ (table a).nr := by
    have hj := List.getElem?_eq_some_iff.1 hupp
    have hj2 := List.getElem?_eq_some_iff.1 hn
    have := (List.forall₂_iff_get.1 hu).2 _ hj2.1 hj.1
    simp only [List.get_eq_getElem] at this
    rw [hj2.2, hj.2] at this
    exact this
  have hy := Real.cos_sq_add_sin_sq (table a).yaw
  have hp := Real.cos_sq_add_sin_sq (table a).pitch
  have hr := Real.cos_sq_add_sin_sq (table a).roll
  refine ⟨?_, ?_, ?_⟩
  · by_cases h0 : (table a).nl + (table a).nr = 0
    · refine ⟨0, le_refl _, zero_le_one, ?_⟩
      have : v.n = -(table a).nl := by linarith
      rw [this]
      simp [place]
    · have hpos : 0 < (table a).nl + (table a).nr :=
        lt_of_le_of_ne (by linarith) (Ne.symm h0)
      refine ⟨(v.n + (table a).nl) / ((table a).nl + (table a).nr), by
        apply div_nonneg <;> linarith, by rw [div_le_one hpos]; linarith, ?_⟩
      have key : ∀ c m : ℝ, c + v.n * m
          = (1 - (v.n + (table a).nl) / ((table a).nl + (table a).nr)) * (c + -(table a).nl * m)
            + (v.n + (table a).nl) / ((table a).nl + (table a).nr) * (c + (table a).nr * m) := by
        intro c m
        field_simp
        ring
      simp only [place, ← key]
  · simp only [Road.dot, normalVector]
    generalize Real.cos (table a).yaw = cy at *
    generalize Real.sin (table a).yaw = sy at *
    generalize Real.cos (table a).pitch = cp at *
    generalize Real.sin (table a).pitch = sp at *
    generalize Real.cos (table a).roll = cr at *
    generalize Real.sin (table a).roll = sr at *
    linear_combination (sp ^ 2 * sr ^ 2 + cr ^ 2) * hy + sr ^ 2 * hp + hr
  · simp only [Road.dot, normalVector, heading]
    generalize Real.cos (table a).yaw = cy at *
    generalize Real.sin (table a).yaw = sy at *
    generalize Real.cos (table a).pitch = cp at *
    generalize Real.sin (table a).pitch = sp at *
    generalize Real.cos (table a).roll = cr at *
    generalize Real.sin (table a).roll = sr at *
    linear_combination (sp * sr * cp) * hy

/-- C135. On a track made of arcs the bounds keep the path on the track exactly when the track is at
least ten metres wide on each side: the width is not used. -/
theorem C135_arcs (t : Arcs.Track) (n : Nat) (hn : 0 < n) :
    (∀ w : List ℝ, List.Forall₂ (· ≤ ·) (arcsBounds n).1 w → List.Forall₂ (· ≤ ·) w (arcsBounds n).2 →
      ∀ v ∈ w, |v| ≤ t.w) ↔ 10 ≤ t.w := by
  have key : ∀ (n : Nat) (w : List ℝ), List.Forall₂ (· ≤ ·) (List.replicate n (-10 : ℝ)) w →
      ∀ v ∈ w, -10 ≤ v := by
    intro n
    induction n with
    | zero => intro w h v hv; cases h; simp at hv
    | succ n ih =>
      intro w h v hv
      rw [List.replicate_succ] at h
      cases h with
      | cons h1 h2 =>
        rcases List.mem_cons.1 hv with rfl | hv
        · exact h1
        · exact ih _ h2 v hv
  have key' : ∀ (n : Nat) (w : List ℝ), List.Forall₂ (· ≤ ·) w (List.replicate n (10 : ℝ)) →
      ∀ v ∈ w, v ≤ 10 := by
    intro n
    induction n with
    | zero => intro w h v hv; cases h; simp at hv
    | succ n ih =>
      intro w h v hv
      rw [List.replicate_succ] at h
      cases h with
      | cons h1 h2 =>
        rcases List.mem_cons.1 hv with rfl | hv
        · exact h1
        · exact ih _ h2 v hv
  constructor
  · intro h
    have := h (List.replicate n 10)
      (List.forall₂_iff_get.2 ⟨by simp [arcsBounds], fun i h1 h2 => by
        simp [arcsBounds]⟩)
      (List.forall₂_same.2 fun _ _ => le_refl _) 10 (by simp; omega)
    rwa [abs_of_pos (by norm_num)] at this
  · intro h w h1 h2 v hv
    exact (abs_le.2 ⟨key n w h1 v hv, key' n w h2 v hv⟩).trans h

/-- C135 is false: on a track made of arcs, six metres wide, a path ten metres away from the centreline
is within the bounds. -/
theorem C135_false : ∃ t, Arcs.build 1 6 false [.straight 100] = .ok t ∧ t.w = 3 ∧
    ∃ w : List ℝ, List.Forall₂ (· ≤ ·) (arcsBounds 2).1 w ∧ List.Forall₂ (· ≤ ·) w (arcsBounds 2).2 ∧
      ∃ v ∈ w, t.w < |v| := by
  refine ⟨_, rfl, by norm_num, [10, 10], ?_, ?_, 10, by simp, by norm_num⟩
  · simp [arcsBounds, List.replicate]
  · simp [arcsBounds, List.replicate]

/-- The hypotheses of `C135_inside_partial`: the starting point itself is within the bounds of a
circuit with edges on both sides. -/
example : ∃ s' xs xl xu pts ds, problem (K := ℝ) false 1 100 (fun _ => ⟨1, 2, 3, 4, 5, 6, 7, 8⟩) [10]
      = .ok (s', xs, xl, xu) ∧ List.Forall₂ (· ≤ ·) xl xs ∧ List.Forall₂ (· ≤ ·) xs xu ∧
      load s'.length (nElements false s'.length) xs = .ok (pts, ds) ∧ pts.length = 1 := by
  have hc : checkStations false (100 : ℝ) [10] = .ok [10] := by
    norm_num [checkStations]
  refine ⟨[10], [0, 1, 2, 3, 4, 5, 6], [-7, 1 - 60 * 1, 2 - 30 * 1, 3 - 30 * 1, 4 - 1, 5 - 1, 6 - 1],
    [8, 1 + 60 * 1, 2 + 30 * 1, 3 + 30 * 1, 4 + 1, 5 + 1, 6 + 1],
    [⟨0, 1, 2, 3, 4, 5, 6⟩], [], ?_, ?_, ?_, rfl, rfl⟩
  · unfold problem; rw [hc]; rfl
  · norm_num [List.forall₂_cons]
  · norm_num [List.forall₂_cons]

/-! ## C136: the constraints -/

theorem rows_len (ds : ℝ) (a b : Node) : (rows ds a b).length = 6 := rfl

/-- C136. Cost and constraints are written completely and inside their vector. -/
theorem C136_filled (c : Course) (hn : 0 < c.n) (closed : Bool) (direction : ℤ) :
    ∃ cost rs, evaluate closed direction (c.lengths closed) c.nodes = .ok (cost, rs) ∧
      fgVector closed direction (c.lengths closed) c.nodes
        = .ok (cost :: rs, 1 + nConstraints (nElements closed c.n)) := by
  have hlen : ∀ m, ((List.range m).flatMap fun j =>
      rows (c.ds j) (c.node j) (c.node (j + 1))).length = 6 * m := by
    intro m
    simp [List.length_flatMap, rows_len, mul_comm]
  have hnl : c.nodes.length = c.n := by simp [Course.nodes]
  have fin : ∀ (cost : ℝ) (rs : List ℝ), rs.length = nConstraints (nElements closed c.n) →
      evaluate closed direction (c.lengths closed) c.nodes = .ok (cost, rs) →
      fgVector closed direction (c.lengths closed) c.nodes
        = .ok (cost :: rs, 1 + nConstraints (nElements closed c.n)) := by
    intro cost rs hrs he
    unfold fgVector
    rw [he, Res.bind_ok, hnl]
    simp only
    rw [Transcription.storeAll_eq _ _ _ (by simp [hrs]; omega)]
    simp [hrs]
  cases closed with
  | true =>
    refine ⟨_, _, evaluate_closed c hn direction, fin _ _ ?_ (evaluate_closed c hn direction)⟩
    simp only [List.length_append, hlen, closingRows, List.length_cons, List.length_nil,
      nConstraints, nElements, if_true]
    omega
  | false =>
    refine ⟨_, _, evaluate_open c hn direction, fin _ _ ?_ (evaluate_open c hn direction)⟩
    simp only [hlen, nConstraints, nElements, Bool.false_eq_true, if_false]
    omega

/-- C136. What the constraints say, exactly: from every point to the next (from the last to the first
on a closed circuit, with one turn in the direction of the circuit) heading, pitch and roll advance by
the mean of their rates, and the position along the mean direction of travel **of the opposite pitch**. -/
theorem C136_opposite_pitch (c : Course) (hn : 0 < c.n) (closed : Bool) (direction : ℤ) :
    ∃ cost rs, evaluate closed direction (c.lengths closed) c.nodes = .ok (cost, rs) ∧
      ((∀ r ∈ rs, r = 0) ↔
        (∀ i, i + 1 < c.n →
          Follows (fun yaw pitch => heading yaw (-pitch)) 0 (c.ds i) (c.node i) (c.node (i + 1))) ∧
        (closed = true →
          Follows (fun yaw pitch => heading yaw (-pitch)) (2 * Real.pi * direction) (c.ds (c.n - 1))
            (c.node (c.n - 1)) (c.node 0))) := by
  have hin : (∀ r ∈ (List.range (c.n - 1)).flatMap fun j =>
      rows (c.ds j) (c.node j) (c.node (j + 1)), r = 0) ↔
      ∀ i, i + 1 < c.n → Follows codeHeading 0 (c.ds i) (c.node i) (c.node (i + 1)) := by
    simp only [List.mem_flatMap, List.mem_range, forall_exists_index, and_imp]
    constructor
    · intro h i hi
      exact (rows_zero _ _ _).1 fun r hr => h r i (by omega) hr
    · intro h r i hi hr
      exact (rows_zero _ _ _).2 (h i (by omega)) r hr
  cases closed with
  | true =>
    refine ⟨_, _, evaluate_closed c hn direction, ?_⟩
    simp only [List.mem_append, or_imp, forall_and]
    rw [hin, closingRows_zero]
    simp only [forall_const]
    rfl
  | false =>
    refine ⟨_, _, evaluate_open c hn direction, ?_⟩
    rw [hin]
    simp only [Bool.false_eq_true, false_imp_iff, and_true]
    rfl

/-- C136, the part that holds: on a path without pitch, the constraints hold exactly when the path
follows its direction of travel. -/
theorem C136_flat_partial (c : Course) (hn : 0 < c.n) (closed : Bool) (direction : ℤ)
    (hflat : ∀ i < c.n, (c.node i).v.pitch = 0) :
    ∃ cost rs, evaluate closed direction (c.lengths closed) c.nodes = .ok (cost, rs) ∧
      ((∀ r ∈ rs, r = 0) ↔
        (∀ i, i + 1 < c.n → Follows heading 0 (c.ds i) (c.node i) (c.node (i + 1))) ∧
        (closed = true →
          Follows heading (2 * Real.pi * direction) (c.ds (c.n - 1))
            (c.node (c.n - 1)) (c.node 0))) := by
  obtain ⟨cost, rs, h1, h2⟩ := C136_opposite_pitch c hn closed direction
  refine ⟨cost, rs, h1, h2.trans ?_⟩
  refine and_congr (forall₂_congr fun i hi => ?_) (imp_congr_right fun _ => ?_)
  · unfold Follows
    simp only [hflat i (by omega), hflat (i + 1) hi, neg_zero]
  · unfold Follows
    simp only [hflat (c.n - 1) (by omega), hflat 0 hn, neg_zero]

/-- A straight stretch that climbs: the pitch is minus the slope angle, as in the circuits of
`Circuit_preprocessor`. -/
noncomputable def climb : Course :=
  ⟨2, fun i => ⟨(i * Real.cos 1, 0, i * Real.sin 1), ⟨0, 0, -1, 0, 0, 0, 0⟩⟩, fun _ => 1⟩

/-- The direction of travel is the one of the preprocessor and of the road. -/
example (q : Nat → ℝ) : Preprocessor.travel .elevated q
    = heading (q Preprocessor.ElevState.yaw.val) (q Preprocessor.ElevState.pitch.val) := rfl

/-- C136 is false with pitch: the centreline of a circuit that climbs at constant slope follows its
direction of travel, and does not meet the constraints. -/
theorem C136_false : Follows heading 0 (climb.ds 0) (climb.node 0) (climb.node 1) ∧
    ∃ cost rs, evaluate false 1 (climb.lengths false) climb.nodes = .ok (cost, rs) ∧
      ¬ ∀ r ∈ rs, r = 0 := by
  have hs : Real.sin 1 ≠ 0 := (Real.sin_pos_of_pos_of_lt_pi (by norm_num)
    (by have := Real.two_le_pi; linarith)).ne'
  constructor
  · simp [Follows, climb, heading]
    constructor <;> ring
  · obtain ⟨cost, rs, h1, h2⟩ := C136_opposite_pitch climb (by decide) false 1
    refine ⟨cost, rs, h1, fun hall => ?_⟩
    have := (h2.1 hall).1 0 (by decide)
    simp only [Follows, climb, heading, Prod.mk.injEq] at this
    have h3 := this.1.2.2
    simp at h3
    exact hs (by linarith)

/-! ## C137: the cost of a closed path -/

theorem curvature2_eq (v : Vars ℝ) : curvature2 v = turn2 v := by
  have hp := Real.cos_sq_add_sin_sq v.pitch
  have hr := Real.cos_sq_add_sin_sq v.roll
  simp only [curvature2, curvature, turn2]
  generalize Real.cos v.pitch = cp at *
  generalize Real.sin v.pitch = sp at *
  generalize Real.cos v.roll = cr at *
  generalize Real.sin v.roll = sr at *
  linear_combination (v.pitchDot ^ 2 + cp ^ 2 * v.yawDot ^ 2) * hr + v.yawDot ^ 2 * hp

/-- C137. The quantity integrated is the squared norm of the curvature vector of a road with these
angles and rates, which is the rotation of its frame per unit length (C73). -/
theorem C137_rotation (pos : Vec3) (v : Vars ℝ) :
    turn2 v = Road.dot
      (Road.curvature ⟨pos, v.yaw, v.pitch, v.roll, v.yawDot, v.pitchDot, v.rollDot⟩)
      (Road.curvature ⟨pos, v.yaw, v.pitch, v.roll, v.yawDot, v.pitchDot, v.rollDot⟩) :=
  (curvature2_eq v).symm

theorem lapCost_eq (c : Course) (hn : 0 < c.n) :
    c.lapCost = (∑ j ∈ Finset.range (c.n - 1), elementCost (c.ds j) (c.node j) (c.node (j + 1)))
      + c.ds (c.n - 1) / 2 * (turn2 (c.node (c.n - 1)).v + turn2 (c.node 0).v) := by
  obtain ⟨m, hm⟩ : ∃ m, c.n = m + 1 := ⟨c.n - 1, by omega⟩
  unfold Course.lapCost
  rw [hm, Finset.sum_range_succ, Nat.mod_self, Nat.add_sub_cancel]
  congr 1
  refine Finset.sum_congr rfl fun i hi => ?_
  rw [Nat.mod_eq_of_lt (by have := Finset.mem_range.1 hi; omega), elementCost, curvature2_eq, curvature2_eq]
  ring

/-- C137, exactly: the cost of a closed path is the integral of the squared curvature, except that on
the closing element only the rate of the heading counts. -/
theorem C137_closed (c : Course) (hn : 0 < c.n) (direction : ℤ) :
    ∃ rs, evaluate true direction (c.lengths true) c.nodes = .ok
      (c.lapCost - c.ds (c.n - 1) / 2
        * ((turn2 (c.node (c.n - 1)).v - (c.node (c.n - 1)).v.yawDot ^ 2)
          + (turn2 (c.node 0).v - (c.node 0).v.yawDot ^ 2)), rs) := by
  refine ⟨((List.range (c.n - 1)).flatMap fun j => rows (c.ds j) (c.node j) (c.node (j + 1)))
          ++ closingRows direction (c.ds (c.n - 1)) (c.node (c.n - 1)) (c.node 0), ?_⟩
  rw [evaluate_closed c hn direction, lapCost_eq c hn, closingCost]
  congr 2
  ring

/-- C137. On an open path the cost is the integral of the squared curvature over all the elements. -/
theorem C137_open (c : Course) (hn : 0 < c.n) (direction : ℤ) :
    ∃ rs, evaluate false direction (c.lengths false) c.nodes = .ok
      (∑ i ∈ Finset.range (c.n - 1),
        c.ds i / 2 * (turn2 (c.node i).v + turn2 (c.node (i + 1)).v), rs) := by
  refine ⟨(List.range (c.n - 1)).flatMap fun j => rows (c.ds j) (c.node j) (c.node (j + 1)), ?_⟩
  rw [evaluate_open c hn direction]
  congr 2
  refine Finset.sum_congr rfl fun i _ => ?_
  rw [elementCost, curvature2_eq, curvature2_eq]
  ring

theorem turn2_flat (v : Vars ℝ) (h1 : v.pitch = 0) (h3 : v.pitchDot = 0)
    (h4 : v.rollDot = 0) : turn2 v = v.yawDot ^ 2 := by
  simp [turn2, h1, h3, h4]

theorem lapCost_rotate (c : Course) (hn : 0 < c.n) : c.rotate.lapCost = c.lapCost := by
  obtain ⟨m, hm⟩ : ∃ m, c.n = m + 1 := ⟨c.n - 1, by omega⟩
  unfold Course.lapCost Course.rotate
  simp only
  rw [hm, Finset.sum_range_succ, Nat.mod_self, Finset.sum_range_succ' _ m]
  congr 1
  · refine Finset.sum_congr rfl fun i hi => ?_
    rw [Nat.mod_eq_of_lt (by have := Finset.mem_range.1 hi; omega : i + 1 < m + 1)]

/-- C137, the part that holds: on a closed path without pitch and without changes of roll the cost does not depend on the
point where the circuit starts. -/
theorem C137_start_partial (c : Course) (hn : 0 < c.n) (direction : ℤ)
    (hflat : ∀ i < c.n, (c.node i).v.pitch = 0 ∧ (c.node i).v.pitchDot = 0 ∧ (c.node i).v.rollDot = 0) :
    ∃ cost rs rs', evaluate true direction (c.lengths true) c.nodes = .ok (cost, rs) ∧
      evaluate true direction (c.rotate.lengths true) c.rotate.nodes = .ok (cost, rs') ∧
      cost = ∑ i ∈ Finset.range c.n,
        c.ds i / 2 * ((c.node i).v.yawDot ^ 2 + (c.node ((i + 1) % c.n)).v.yawDot ^ 2) := by
  have hk : ∀ i < c.n, turn2 (c.node i).v = (c.node i).v.yawDot ^ 2 := fun i hi =>
    turn2_flat _ (hflat i hi).1 (hflat i hi).2.1 (hflat i hi).2.2
  obtain ⟨rs, h1⟩ := C137_closed c hn direction
  obtain ⟨rs', h2⟩ := C137_closed c.rotate hn direction
  refine ⟨c.lapCost, rs, rs', ?_, ?_, ?_⟩
  · rw [h1, hk _ (by omega), hk _ hn]; simp
  · rw [h2, lapCost_rotate c hn]
    simp only [Course.rotate]
    rw [hk _ (Nat.mod_lt _ hn), hk _ (Nat.mod_lt _ hn)]; simp
  · unfold Course.lapCost
    refine Finset.sum_congr rfl fun i hi => ?_
    rw [hk i (Finset.mem_range.1 hi), hk _ (Nat.mod_lt _ hn)]

/-- A closed path of two points, with a change of pitch at the first one, and elements of different
lengths. -/
def hump : Course :=
  ⟨2, fun i => ⟨(0, 0, 0), ⟨0, 0, 0, 0, 0, if i = 0 then 1 else 0, 0⟩⟩, fun i => if i = 0 then 1 else 3⟩

/-- C137 is false with pitch: the cost of the same closed path depends on where it starts. -/
theorem C137_false : ∃ cost cost' rs rs',
    evaluate true 1 (hump.lengths true) hump.nodes = .ok (cost, rs) ∧
    evaluate true 1 (hump.rotate.lengths true) hump.rotate.nodes = .ok (cost', rs') ∧ cost ≠ cost' := by
  refine ⟨_, _, _, _, evaluate_closed hump (by decide) 1, evaluate_closed hump.rotate (by decide) 1, ?_⟩
  simp [hump, Course.rotate, elementCost, closingCost, curvature2, curvature]

/-- A flat closed path of three points with different curvatures and element lengths. -/
example : ∃ rs rs', evaluate true 1
      (Course.lengths ⟨3, fun i => ⟨(i, 0, 0), ⟨0, 0, 0, 1, i, 0, 0⟩⟩, fun i => i + 1⟩ true)
      (Course.nodes ⟨3, fun i => ⟨(i, 0, 0), ⟨0, 0, 0, 1, i, 0, 0⟩⟩, fun i => i + 1⟩) = .ok (23 / 2, rs) ∧
    evaluate true 1
      ((Course.rotate ⟨3, fun i => ⟨(i, 0, 0), ⟨0, 0, 0, 1, i, 0, 0⟩⟩, fun i => i + 1⟩).lengths true)
      (Course.rotate ⟨3, fun i => ⟨(i, 0, 0), ⟨0, 0, 0, 1, i, 0, 0⟩⟩, fun i => i + 1⟩).nodes
        = .ok (23 / 2, rs') := by
  obtain ⟨cost, rs, rs', h1, h2, h3⟩ := C137_start_partial
    ⟨3, fun i => ⟨(i, 0, 0), ⟨0, 0, 0, 1, i, 0, 0⟩⟩, fun i => i + 1⟩ (by norm_num) 1
    (fun _ _ => ⟨rfl, rfl, rfl⟩)
  have : cost = 23 / 2 := by rw [h3]; norm_num [Finset.sum_range_succ]
  subst this
  exact ⟨rs, rs', h1, h2⟩

/-! ## C138: the cost on a track made of arcs -/

/-- C138. On a track made of arcs the cost is the sum over the points, equally spaced along the whole
track, of the criterion times the spacing, with the centred differences of the lateral displacement; the
list of displacements is periodic. -/
theorem C138_periodic (t : Arcs.Track) (hne : t.segs ≠ []) (n : Nat) (hn : 2 ≤ n) (w : Nat → ℝ) :
    ∃ P : ℝ → Arcs.Point, (∀ s, Arcs.at' t s = .ok (P s)) ∧
      arcsFitness t ((List.range n).map w) = .ok (∑ i ∈ Finset.range n,
        pseudoCurvature2 (P (i * (t.total / n))) (w i)
          ((w ((i + 1) % n) - w ((i + (n - 1)) % n)) / (2 * (t.total / n)))
          ((w ((i + 1) % n) + w ((i + (n - 1)) % n) - 2 * w i) / (t.total / n) ^ 2)
          * (t.total / n)) := by
  obtain ⟨g, rest, hg⟩ := List.exists_cons_of_ne_nil hne
  have hat : ∀ s, Arcs.at' t s = .ok (Arcs.onSeg (Arcs.locate s g rest) s) := by
    intro s; unfold Arcs.at'; rw [hg]
  refine ⟨_, hat, ?_⟩
  have hlen : ((List.range n).map w).length = n := by simp
  have hget : ∀ i < n, idx ((List.range n).map w) i = .ok (w i) := by
    intro i hi
    rw [idx_eq_ok, List.getElem?_map, List.getElem?_range hi]; rfl
  set ds := t.total / (n : ℝ) with hds
  have hd : ∀ i < n, lateralDerivatives ((List.range n).map w) ds i = .ok
      ((w ((i + 1) % n) - w ((i + (n - 1)) % n)) / (2 * ds),
       (w ((i + 1) % n) + w ((i + (n - 1)) % n) - 2 * w i) / ds ^ 2) := by
    intro i hi
    unfold lateralDerivatives
    simp only [hlen]
    have e1 : (if i = 0 then n - 1 else i - 1) = (i + (n - 1)) % n := by
      split
      · subst i; rw [Nat.zero_add, Nat.mod_eq_of_lt (by omega)]
      · rw [show i + (n - 1) = (i - 1) + n by omega, Nat.add_mod_right, Nat.mod_eq_of_lt (by omega)]
    have e2 : (if i = 0 then 1 else if i = n - 1 then 0 else i + 1) = (i + 1) % n := by
      split
      · subst i; rw [Nat.mod_eq_of_lt (by omega)]
      · split
        · subst i; rw [show n - 1 + 1 = n by omega, Nat.mod_self]
        · rw [Nat.mod_eq_of_lt (by omega)]
    rw [e1, e2, hget _ (Nat.mod_lt _ (by omega)), hget _ (Nat.mod_lt _ (by omega)), hget i hi]
    simp only [Res.bind_ok]
    congr 2
    · simp only [div_eq_mul_inv, mul_inv]; ring
    · simp only [div_eq_mul_inv, sq, mul_inv]; ring
  have hsum : ∀ (m i : Nat) (total : ℝ), i + m = n →
      arcsSum t ((List.range n).map w) ds m i total = .ok (total + ∑ j ∈ Finset.Ico i n,
        pseudoCurvature2 (Arcs.onSeg (Arcs.locate (j * ds) g rest) (j * ds)) (w j)
          ((w ((j + 1) % n) - w ((j + (n - 1)) % n)) / (2 * ds))
          ((w ((j + 1) % n) + w ((j + (n - 1)) % n) - 2 * w j) / ds ^ 2) * ds) := by
    intro m
    induction m with
    | zero => intro i total hi; rw [show i = n by omega]; simp [arcsSum]
    | succ m ih =>
      intro i total hi
      unfold arcsSum
      rw [hd i (by omega), hget i (by omega)]
      simp only [Res.bind_ok]
      rw [hat, Res.bind_ok, ih (i + 1) _ (by omega), Finset.sum_eq_sum_Ico_succ_bot (by omega : i < n)]
      congr 1
      ring
  unfold arcsFitness
  rw [hlen, if_neg (by omega), ← hds, hsum n 0 0 (by omega)]
  simp only [zero_add, Nat.Ico_zero_eq_range]

/-- C138. With less than two points the cost is undefined. -/
theorem C138_undefined (t : Arcs.Track) (w : List ℝ) (h : w.length < 2) : arcsFitness t w = .ub := by
  match w, h with
  | [], _ => rfl
  | [a], _ => simp [arcsFitness, arcsSum, lateralDerivatives, idx]

/-- Four points on a straight: the second differences of the displacement. -/
example : ∃ t, Arcs.build 1 6 false [.straight 4] = .ok t ∧ t.segs ≠ [] ∧
    ∃ c, arcsFitness t ((List.range 4).map fun i => (i : ℝ)) = .ok c := by
  refine ⟨_, rfl, by simp, ?_⟩
  exact (C138_periodic _ (List.cons_ne_nil _ _) 4 (by norm_num) fun i => (i : ℝ)).elim
    fun _ h => ⟨_, h.2⟩

/-! ## C139: the criterion on a track made of arcs -/

theorem Linked_locate {s : ℝ} : ∀ (rest : List Arcs.Seg) (g : Arcs.Seg), Arcs.Linked g rest →
    Arcs.IsUnitVec (Arcs.locate s g rest).dir := by
  intro rest
  induction rest with
  | nil => intro g h; exact h
  | cons b rest ih =>
    intro g h
    unfold Arcs.locate
    split
    · exact h.1
    · exact ih b h.2.2.2.2

/-- C139 for the centreline, whatever the parameter of the track is: the criterion is the square of
its curvature. -/
theorem C139_centreline (p : Arcs.Point) : pseudoCurvature2 p 0 0 0 = planeCurvature2 p.dr p.d2r := by
  simp only [pseudoCurvature2, planeCurvature2, Arcs.positionAt, zero_smul, mul_zero, add_zero]
  ring

example : pseudoCurvature2 ⟨(0, 0), (2, 0), (0, 1), (0, 0)⟩ 0 0 0 = (1 / 4) ^ 2 := by
  rw [C139_centreline]
  norm_num [planeCurvature2]

/-- C139, exactly: at every point of a track of sensible straights and corners, with `k` the curvature of
the track, the criterion is the square of `k - k² w + w''`. -/
theorem C139_criterion (scale width : ℝ) (closed : Bool) (nodes : List Arcs.Node) (t : Arcs.Track)
    (h : Arcs.build scale width closed nodes = .ok t)
    (hs : ∀ node ∈ nodes.dropLast, Arcs.Sensible scale node) (s w dw d2w : ℝ) :
    ∃ p, Arcs.at' t s = .ok p ∧
      pseudoCurvature2 p w dw d2w
        = (Arcs.yawRate p - Arcs.yawRate p ^ 2 * w + d2w) ^ 2 := by
  obtain ⟨g0, rest, e, hl, -⟩ := Arcs.build_linked h hs
  refine ⟨Arcs.onSeg (Arcs.locate s g0 rest) s, by unfold Arcs.at'; rw [e], ?_⟩
  have hu := Linked_locate (s := s) rest g0 hl
  set g := Arcs.locate s g0 rest
  have hd := Arcs.onSeg_unit hu s
  have hd' : (Arcs.onSeg g s).dr.1 * (Arcs.onSeg g s).dr.1
      + (Arcs.onSeg g s).dr.2 * (Arcs.onSeg g s).dr.2 = 1 := hd
  obtain ⟨k, h2, h3⟩ : ∃ k : ℝ, (Arcs.onSeg g s).d2r = k • Arcs.perp (Arcs.onSeg g s).dr ∧
      (Arcs.onSeg g s).d3r = -(k * k) • (Arcs.onSeg g s).dr := by
    by_cases hk : |g.k| < 1 / 10 ^ 10
    · exact ⟨0, by rw [Arcs.onSeg_straight hk]; simp, by rw [Arcs.onSeg_straight hk]; simp⟩
    · exact ⟨g.k, (Arcs.onSeg_curved hu hk s).2.2⟩
  generalize Arcs.onSeg g s = p at *
  obtain ⟨r, ⟨a, b⟩, d2, d3⟩ := p
  simp only [Arcs.perp, Prod.smul_mk, smul_eq_mul] at h2 h3 hd'
  subst h2 h3
  have hy : Arcs.yawRate ⟨r, (a, b), (k * -b, k * a), (-(k * k) * a, -(k * k) * b)⟩ = k := by
    simp only [Arcs.yawRate]
    rw [hd', div_one]
    linear_combination k * hd'
  rw [hy]
  simp only [pseudoCurvature2, Arcs.positionAt, Prod.smul_mk, smul_eq_mul, Prod.mk_add_mk, zero_mul,
    add_zero]
  rw [hd']
  have : a * (k * a + w * (-(k * k) * a) + 2 * dw * (k * -b) + d2w * a)
      - b * (k * -b + w * -(-(k * k) * b) + 2 * dw * -(k * a) + d2w * -b) = k - k ^ 2 * w + d2w := by
    linear_combination (k - k ^ 2 * w + d2w) * hd'
  rw [this]
  ring

example : ∃ t p, Arcs.build 1 8 false [.straight 10, .corner true 5 1, .straight 30] = .ok t ∧
    Arcs.at' t 12 = .ok p ∧ ∃ x, pseudoCurvature2 p 1 0 (1 / 2) = (x - x ^ 2 * 1 + 1 / 2) ^ 2 := by
  obtain ⟨t, ht⟩ : ∃ t, Arcs.build 1 8 false [.straight 10, .corner true 5 1, .straight 30] = .ok t := by
    simp [Arcs.build, Arcs.buildFrom, Arcs.advance]
  obtain ⟨p, h1, h2⟩ := C139_criterion 1 8 false _ t ht (by simp [Arcs.Sensible]; norm_num) 12 1 0 (1 / 2)
  exact ⟨t, p, ht, h1, _, h2⟩

/-- C139 is false: inside a corner of radius 20 to the right, the line two metres closer to the centre
turns more tightly than the centreline, and the criterion says that it turns less. -/
theorem C139_false : ∃ t p, Arcs.build 1 8 false [.corner false 20 1] = .ok t ∧ Arcs.at' t 0 = .ok p ∧
    planeCurvature2 (Arcs.positionAt p 0 0 0).2.1 (Arcs.positionAt p 0 0 0).2.2 = (1 / 20) ^ 2 ∧
    planeCurvature2 (Arcs.positionAt p 2 0 0).2.1 (Arcs.positionAt p 2 0 0).2.2 = (1 / 18) ^ 2 ∧
    pseudoCurvature2 p 0 0 0 = (1 / 20) ^ 2 ∧ pseudoCurvature2 p 2 0 0 = (1 / 20 * (9 / 10)) ^ 2 := by
  have hu : Arcs.IsUnitVec ((1, 0) : Arcs.Vec) := by simp [Arcs.IsUnitVec]
  have hk : ¬ |(1 / 20 : ℝ)| < 1 / 10 ^ 10 := by rw [abs_of_pos (by norm_num)]; norm_num
  obtain ⟨_, h2, h3, h4⟩ := Arcs.onSeg_curved (g := ⟨(0, 0), (1, 0), 0, 1 / 20⟩) hu hk 0
  refine ⟨⟨[⟨(0, 0), (1, 0), 0, 1 / 20⟩], 20, 4⟩, Arcs.onSeg ⟨(0, 0), (1, 0), 0, 1 / 20⟩ 0, ?_, rfl, ?_⟩
  · norm_num [Arcs.build, Arcs.buildFrom, Arcs.lastSeg, Arcs.curvatureOf]
  · generalize Arcs.onSeg ⟨(0, 0), (1, 0), 0, 1 / 20⟩ 0 = p at *
    obtain ⟨r, d1, d2, d3⟩ := p
    simp only at h2 h3 h4
    subst h2
    subst h3 h4
    norm_num [planeCurvature2, pseudoCurvature2, Arcs.positionAt, Arcs.perp]

end Verif.Path
