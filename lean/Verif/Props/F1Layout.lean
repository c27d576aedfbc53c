import Verif.Spec.F1
import Verif.Spec.Transcription
import Mathlib.Tactic.Linarith
import Mathlib.Tactic.FieldSimp
import Mathlib.Tactic.NormNum
import Mathlib.Tactic.IntervalCases
import Mathlib.Data.List.Nodup
import Mathlib.Data.List.Range
import Mathlib.Tactic.FinCases

/-! Properties of the F1 car: variables, limits, classification of the equations, extra constraints. -/

set_option autoImplicit false

namespace Verif.F1

open Verif.Road Verif.Chassis

/-! ## C104: names -/

/-- C104: the names of the inputs are the documented ones, one per input. -/
theorem C104_input_names (r : RoadKind) :
    (List.range nInputs).map (inputNames r) = documentedInputs r := by cases r <;> decide

/-- C104: the names of the controls are the documented ones, one per control. -/
theorem C104_control_names : (List.range nControls).map controlNames = documentedControls := by decide

/-- C104: no two variables have the same name, nor the name of the variable of integration. -/
theorem C104_distinct (r : RoadKind) :
    (keyName r :: ((List.range nInputs).map (inputNames r) ++ (List.range nControls).map controlNames)).Nodup := by
  cases r <;> decide

/-- C104: after the state has been set, every input is what its name stands for. -/
theorem C104_inputs_read (c : Car) (r : RoadKind) (q u : Nat → ℝ) (hg : c.chassis.g0 * c.chassis.mass ≠ 0)
    (k : Nat) (hk : k < nInputs) : meaning c r (setState c q u) (inputNames r k) = some (q k) := by
  have h (x : ℝ) : x * c.chassis.g0 * c.chassis.mass / (c.chassis.g0 * c.chassis.mass) = x := by
    rw [mul_assoc, mul_div_cancel_right₀ _ hg]
  have hk' : k < 14 := hk
  cases r <;> interval_cases k <;> first | rfl | exact congrArg some (h _)

/-- C104: after the state has been set, every control is what its name stands for. -/
theorem C104_controls_read (c : Car) (r : RoadKind) (q u : Nat → ℝ) (k : Nat) (hk : k < nControls) :
    meaning c r (setState c q u) (controlNames k) = some (u k) := by
  have hk' : k < 4 := hk
  cases r <;> interval_cases k <;> rfl

/-- C104: the variable of integration has the documented name. -/
theorem C104_key (r : RoadKind) : keyName r = documentedKey r := by cases r <;> rfl

/-- C104: the states of the road are the inputs of the same name, and their derivatives with respect to the
variable of integration are the rates of the road, in the order of their names. -/
theorem C104_road_states (c : Car) (f : TrackPoint) (q u : Nat → ℝ) (k : Nat) (hk : k ∈ [11, 12, 13]) :
    (equationsCurvilinear c f q u).states[k]? = some (q k) ∧
    (equationsCartesian c q u).states[k]? = some (q k) ∧
    (let r := Road.update f (q 12) (q 13) (q 4) (q 5) (q 6)
     (equationsCurvilinear c f q u).dstates[k]? = ([("time", 1 * r.dtimeds),
       ("road.lateral-displacement", r.nDot * r.dtimeds),
       ("road.track-heading-angle", r.alphaDot * r.dtimeds)].lookup (inputNames .curvilinear k))) ∧
    (equationsCartesian c q u).dstates[k]? = ([("x", q 4 * Real.cos (q 13) - q 5 * Real.sin (q 13)),
       ("y", q 4 * Real.sin (q 13) + q 5 * Real.cos (q 13)), ("psi", q 6)].lookup (inputNames .cartesian k)) := by
  simp only [List.mem_cons, List.not_mem_nil, or_false] at hk
  rcases hk with rfl | rfl | rfl <;>
    refine ⟨rfl, rfl, rfl, ?_⟩ <;> simp [equationsCartesian, evaluate, allStates, axleState, Chassis.state,
      roadCartesian, cartesian, inputNames, written, chassis3InputNames, chassisInputNames, roadInputNames,
      axleInputNames, List.lookup, setState, roadStart, loadStart, chassisStart, rearStart, frontStart]

/-! ## C53: limits -/

/-- C53: the steering goes to 20 degrees to either side, the heading to 45 degrees from the track. -/
theorem C53_angles (lowest highest bias0 : ℝ) (junk : Nat → Limits) (k : Nat) :
    (k < nControls → controlNames k = "front-axle.steering-angle" →
      (controlLimits bias0 junk k).ub = Real.pi / 9 ∧ (controlLimits bias0 junk k).lb = -(Real.pi / 9)) ∧
    (k < nInputs → inputNames .curvilinear k = "road.track-heading-angle" →
      (inputLimits lowest highest .curvilinear junk k).ub = Real.pi / 4 ∧
      (inputLimits lowest highest .curvilinear junk k).lb = -(Real.pi / 4)) := by
  constructor
  · intro hk hn
    have hk' : k < 4 := hk
    interval_cases k <;> first
      | exact absurd hn (by decide)
      | exact ⟨show 20 * DEG = _ by unfold DEG; ring, show -20 * DEG = _ by unfold DEG; ring⟩
  · intro hk hn
    have hk' : k < 14 := hk
    interval_cases k <;> first
      | exact absurd hn (by decide)
      | exact ⟨show 45 * DEG = _ by unfold DEG; ring, show -45 * DEG = _ by unfold DEG; ring⟩

/-- C53: the limits do not depend on what was in memory: every one is set. -/
theorem C53_all_set (lowest highest bias0 : ℝ) (r : RoadKind) (junk junk' : Nat → Limits) (k : Nat) :
    (k < nInputs → inputLimits lowest highest r junk k = inputLimits lowest highest r junk' k) ∧
    (k < nControls → controlLimits bias0 junk k = controlLimits bias0 junk' k) := by
  constructor
  · intro hk
    have hk' : k < 14 := hk
    cases r <;> interval_cases k <;> rfl
  · intro hk
    have hk' : k < 4 := hk
    interval_cases k <;> rfl

theorem KMH_pos : 0 < KMH := by norm_num [KMH]

theorem DEG_pos : 0 < DEG := by unfold DEG; positivity

/-- C53 for every input except the four loads. Missing: the loads, for which it is false. -/
theorem C53_inputs_partial (lowest highest : ℝ) (hl : lowest ≤ 0) (hh : 0 ≤ highest) (r : RoadKind)
    (junk : Nat → Limits) (k : Nat) (hk : k < nInputs) (hn : inputNames r k ∉ loadNames) :
    (inputLimits lowest highest r junk k).Inside := by
  have h1 := KMH_pos
  have h2 := DEG_pos
  have hk' : k < 14 := hk
  cases r <;> interval_cases k <;>
    first
    | exact absurd (by decide) hn
    | (simp only [inputLimits, chassis3InputLimits, chassisInputLimits, axleInputLimits, roadInputLimits,
        written, frontStart, rearStart, chassisStart, loadStart, roadStart, List.cons_append, List.nil_append,
        Limits.Inside]
       norm_num
       try constructor
       all_goals linarith)

/-- C53 for the controls, when the brake bias of the database is a fraction. -/
theorem C53_controls (bias0 : ℝ) (h0 : 0 ≤ bias0) (h1 : bias0 ≤ 1) (junk : Nat → Limits) (k : Nat)
    (hk : k < nControls) : (controlLimits bias0 junk k).Inside := by
  have h2 := DEG_pos
  have hk' : k < 4 := hk
  interval_cases k <;>
    (simp only [controlLimits, controlLimitWrites, written, cSteering, cBoost, cThrottle, cBrakeBias,
      Limits.Inside]
     norm_num
     try constructor
     all_goals linarith)

/-- C53 is false: the default of every vertical load is outside its bounds, whatever the rest. -/
theorem C53_false (lowest highest : ℝ) (r : RoadKind) (junk : Nat → Limits) (k : Nat) (hk : k < nInputs)
    (hn : inputNames r k ∈ loadNames) : ¬ (inputLimits lowest highest r junk k).Inside := by
  have hk' : k < 14 := hk
  cases r <;> interval_cases k <;>
    first
    | exact absurd hn (by decide)
    | (simp only [inputLimits, chassis3InputLimits, chassisInputLimits, axleInputLimits, roadInputLimits,
        written, frontStart, rearStart, chassisStart, loadStart, roadStart, List.cons_append, List.nil_append,
        Limits.Inside]
       norm_num)

example : inputNames .curvilinear 4 ∉ loadNames ∧ inputNames .curvilinear 7 ∈ loadNames := by decide

example (junk : Nat → Limits) : (inputLimits (-10 ^ 9) (10 ^ 9) .curvilinear junk 4).Inside :=
  C53_inputs_partial _ _ (by norm_num) (by norm_num) _ _ _ (by decide) (by decide)

example (junk : Nat → Limits) : (controlLimits (6 / 10) junk 3).Inside :=
  C53_controls _ (by norm_num) (by norm_num) _ _ (by decide)

/-! ## C54: classification of the equations -/

theorem countFrom_eq (c n : Nat) : countFrom c n = ((List.range n).map (c + ·), c + n) := by
  induction n generalizing c with
  | zero => rfl
  | succ n ih =>
    simp only [countFrom, ih, List.range_succ_eq_map, List.map_cons, List.map_map]
    refine Prod.ext ?_ (by simp only; omega)
    simp only [Nat.add_zero, List.cons.injEq, true_and]
    exact List.map_congr_left fun a _ => by simp only [Function.comp]; omega

theorem countAfter_eq (c n : Nat) : countAfter c n = ((List.range n).map (c + 1 + ·), c + n) := by
  induction n generalizing c with
  | zero => rfl
  | succ n ih =>
    simp only [countAfter, ih, List.range_succ_eq_map, List.map_cons, List.map_map]
    refine Prod.ext ?_ (by simp only; omega)
    simp only [Nat.add_zero, List.cons.injEq, true_and]
    exact List.map_congr_left fun a _ => by simp only [Function.comp]; omega

/-- C54 for every number of states and every index of the time: the classification is a partition of the
other states, all of them differential. -/
theorem C54_partition (n time : Nat) (h : time < n) :
    ∃ l, classifyBase n time = .ok (l, []) ∧ Partition n time (l, []) ∧ l.Pairwise (· < ·) := by
  have h0 : n ≠ 0 := by omega
  have h1 : time ≤ n - 1 := by omega
  refine ⟨(List.range time).map (0 + ·) ++ (List.range (n - 1 - time)).map (time + 1 + ·), ?_, ⟨?_, ?_⟩, ?_⟩
  · simp only [classifyBase, if_neg h0, if_pos h1, countFrom_eq, countAfter_eq]
    rw [if_neg (by omega)]
    simp only [Nat.zero_add]
  · simp only [List.append_nil, List.nodup_append, Nat.zero_add, List.map_id']
    refine ⟨List.nodup_range, List.nodup_range.map fun a b hab => by simpa using hab, ?_⟩
    intro a ha b hb
    simp only [List.mem_range, List.mem_map] at ha hb
    obtain ⟨x, hx, rfl⟩ := hb
    omega
  · intro k
    simp only [List.append_nil, List.mem_append, List.mem_map, List.mem_range, Nat.zero_add, exists_eq_right]
    constructor
    · rintro (hk | ⟨x, hx, rfl⟩) <;> omega
    · rintro ⟨hk, hne⟩
      by_cases hlt : k < time
      · exact .inl hlt
      · exact .inr ⟨k - (time + 1), by omega, by omega⟩
  · simp only [List.pairwise_append, Nat.zero_add, List.map_id']
    refine ⟨List.pairwise_lt_range, ?_, ?_⟩
    · exact List.pairwise_lt_range.map _ fun a b hab => by omega
    · intro a ha b hb
      simp only [List.mem_range, List.mem_map] at ha hb
      obtain ⟨x, hx, rfl⟩ := hb
      omega

/-- C54: an index of the time beyond the states is undefined, no states at all an error. -/
theorem C54_out_of_range (n time : Nat) (h : n ≤ time) :
    classifyBase n time = if n = 0 then .throw else .ub := by
  unfold classifyBase
  split
  · rfl
  · rw [if_neg (by omega)]

/-- C54 for the F1 car: on a flat road the vertical motion, the roll, the pitch and the roll balance are
algebraic and everything else except the time is differential; on an elevated road everything except
the time is differential. In both cases each equation is classified exactly once. -/
theorem C54_f1 (hasElevation : Bool) :
    ∃ r, classify hasElevation = .ok r ∧ Partition nInputs roadStart r ∧
      r.2 = if hasElevation then [] else [loadStart, loadStart + 1, loadStart + 2, loadStart + 3] := by
  cases hasElevation
  · refine ⟨([0, 1, 2, 3, 4, 5, 6, 12, 13], [7, 8, 9, 10]), by decide, ⟨by decide, fun k => ?_⟩, rfl⟩
    simp only [List.cons_append, List.nil_append, List.mem_cons, List.not_mem_nil, or_false]
    show _ ↔ k < 14 ∧ k ≠ 11
    omega
  · refine ⟨([0, 1, 2, 3, 4, 5, 6, 7, 8, 9, 10, 12, 13], []), by decide, ⟨by decide, fun k => ?_⟩, rfl⟩
    simp only [List.append_nil, List.mem_cons, List.not_mem_nil, or_false]
    show _ ↔ k < 14 ∧ k ≠ 11
    omega

example : ∃ l, classifyBase 20 7 = .ok (l, []) ∧ 8 ∈ l := by
  obtain ⟨l, h, hp, _⟩ := C54_partition 20 7 (by decide)
  exact ⟨l, h, by simpa using (hp.2 8).2 (by decide)⟩

example : classifyBase 5 5 = .ub := C54_out_of_range 5 5 le_rfl

/-- C54: what is called algebraic on a flat road has no state to differentiate: its state is zero for
every input and control, so that nothing is lost by imposing its equation at every point. -/
theorem C54_algebraic_states_vanish (c : Car) (f : TrackPoint) (hf : Flat f) (q u : Nat → ℝ)
    (r : List Nat × List Nat) (hr : classify false = .ok r) (k : Nat) (hk : k ∈ r.2) :
    (equationsCurvilinear c f q u).states[k]? = some 0 := by
  have hr2 : r.2 = [7, 8, 9, 10] := by
    have : classify false = .ok ([0, 1, 2, 3, 4, 5, 6, 12, 13], [7, 8, 9, 10]) := by decide
    rw [this] at hr
    cases hr
    rfl
  rw [hr2] at hk
  simp only [List.mem_cons, List.not_mem_nil, or_false] at hk
  rcases hk with rfl | rfl | rfl | rfl <;>
    simp [equationsCurvilinear, evaluate, allStates, axleState, Chassis.state, carUpdate, Chassis.update,
      roadCurvilinear, omegaBody, rotZ, eulerAnglesDot, Road.update, curvature, hf.pitch, hf.roll, hf.dpitch,
      hf.droll]

/-! ## C56: track limits -/

/-- The values of the constraints of the track limits, after an evaluation. -/
theorem C56_constraints (c : Car) (m : Members) (o : CarOut) (wl wr : ℝ) :
    Within (extraBounds c wl wr) (extraConstraints c m o) →
      ∀ y ∈ [c.front.track / 2, -(c.front.track / 2)],
        -wl ≤ lateral m.road2 m.road3 (0, y, 0) ∧ lateral m.road2 m.road3 (0, y, 0) ≤ wr := by
  intro h y hy
  have h4 := h.2.2 4 (by simp [extraConstraints])
  have h5 := h.2.2 5 (by simp [extraConstraints])
  simp only [extraBounds, extraConstraints, List.getD_cons_succ, List.getD_cons_zero] at h4 h5
  simp only [List.mem_cons, List.not_mem_nil, or_false] at hy
  simp only [lateral]
  rcases hy with rfl | rfl
  · constructor <;> linarith [h4.1, h4.2]
  · constructor <;> linarith [h5.1, h5.2]

/-- C56: how far a wheel can be off the track although the constraints hold: the longitudinal distance of
its axle times the sine of the heading, plus half of what its axle is wider than the front axle. -/
theorem C56_overshoot (c : Car) (m : Members) (o : CarOut) (wl wr : ℝ)
    (hy1 : c.chassis.xFront.2.1 = 0) (hy2 : c.chassis.xRear.2.1 = 0)
    (h : Within (extraBounds c wl wr) (extraConstraints c m o)) (x : Vec3) (hx : x ∈ wheels c) :
    -wl - (|x.1 * Real.sin m.road3| + |c.rear.track - c.front.track| / 2) ≤ lateral m.road2 m.road3 x ∧
      lateral m.road2 m.road3 x ≤ wr + (|x.1 * Real.sin m.road3| + |c.rear.track - c.front.track| / 2) := by
  have ha := C56_constraints c m o wl wr h (c.front.track / 2) (by simp)
  have hb := C56_constraints c m o wl wr h (-(c.front.track / 2)) (by simp)
  simp only [lateral, zero_mul, zero_add] at ha hb
  have hs1 := le_abs_self (x.1 * Real.sin m.road3)
  have hs2 := neg_abs_le (x.1 * Real.sin m.road3)
  have ht0 := abs_nonneg (c.rear.track - c.front.track)
  have hcos : |(c.rear.track - c.front.track) * Real.cos m.road3| ≤ |c.rear.track - c.front.track| := by
    rw [abs_mul]
    exact mul_le_of_le_one_right (abs_nonneg _) (Real.abs_cos_le_one _)
  obtain ⟨hc1, hc2⟩ := abs_le.1 hcos
  simp only [wheels, List.mem_cons, List.not_mem_nil, or_false] at hx
  have hl : lateral m.road2 m.road3 x = m.road2 + x.1 * Real.sin m.road3 + x.2.1 * Real.cos m.road3 := by
    simp only [lateral]; ring
  rw [hl]
  have hx2 : x.2.1 = -(c.front.track / 2) ∨ x.2.1 = c.front.track / 2 ∨ x.2.1 = -(c.rear.track / 2) ∨
      x.2.1 = c.rear.track / 2 := by
    rcases hx with rfl | rfl | rfl | rfl
    · left; simp [hy1]
    · right; left; simp [hy1]
    · right; right; left; simp [hy2]
    · right; right; right; simp [hy2]
  rcases hx2 with e | e | e | e <;> rw [e] <;> constructor <;> nlinarith [ha.1, ha.2, hb.1, hb.2]

/-- C56 for a car that heads along the track and whose rear axle is not wider than its front axle: all the
wheels are between the track limits. Missing: any other heading or a wider rear axle, for which it is
false. -/
theorem C56_wheels_inside_partial (c : Car) (m : Members) (o : CarOut) (wl wr : ℝ)
    (hy1 : c.chassis.xFront.2.1 = 0) (hy2 : c.chassis.xRear.2.1 = 0) (h0 : 0 ≤ c.rear.track)
    (ht : c.rear.track ≤ c.front.track) (hα : m.road3 = 0)
    (h : Within (extraBounds c wl wr) (extraConstraints c m o)) :
    ∀ x ∈ wheels c, -wl ≤ lateral m.road2 m.road3 x ∧ lateral m.road2 m.road3 x ≤ wr := by
  intro x hx
  have ha := C56_constraints c m o wl wr h (c.front.track / 2) (by simp)
  have hb := C56_constraints c m o wl wr h (-(c.front.track / 2)) (by simp)
  simp only [wheels, List.mem_cons, List.not_mem_nil, or_false] at hx
  simp only [lateral, hα, Real.sin_zero, Real.cos_zero, mul_zero, mul_one, zero_add] at ha hb ⊢
  rcases hx with rfl | rfl | rfl | rfl <;>
    simp only [Prod.snd_add, Prod.fst_add, hy1, hy2, zero_add] <;>
    constructor <;> linarith [ha.1, ha.2, hb.1, hb.2]

/-! ## C112: slip angle limits -/

/-- C112 for loads up to the weight of the car: a slip angle below the one of maximum force at its load
satisfies its constraint. Missing: larger loads, allowed up to three times the weight. -/
theorem C112_slip_allowed_partial (c : Car) (wl wr : ℝ) (p : AxleP) (k : Nat)
    (hk : (p = c.front ∧ (k = 0 ∨ k = 1)) ∨ (p = c.rear ∧ (k = 2 ∨ k = 3)))
    (Fz lam : ℝ) (h0 : 0 ≤ Fz) (h1 : Fz ≤ c.chassis.mass * c.chassis.g0)
    (hl : |lam| ≤ Tyre.maxLambda p.tyre Fz) :
    (extraBounds c wl wr).1.getD k 0 ≤ lam ∧ lam ≤ (extraBounds c wl wr).2.getD k 0 := by
  have hm : Tyre.maxLambda p.tyre Fz ≤
      max (Tyre.maxLambda p.tyre 0) (Tyre.maxLambda p.tyre (c.chassis.mass * c.chassis.g0)) := by
    simp only [Tyre.maxLambda, Tyre.atLoad, mul_div_assoc]
    generalize (p.tyre.lambda2 - p.tyre.lambda1) / (p.tyre.Fz2 - p.tyre.Fz1) = s
    rcases le_total 0 s with hs | hs
    · exact le_max_of_le_right (by nlinarith)
    · exact le_max_of_le_left (by nlinarith)
  obtain ⟨ha, hb⟩ := abs_le.1 hl
  rcases hk with ⟨rfl, rfl | rfl⟩ | ⟨rfl, rfl | rfl⟩ <;>
    simp only [extraBounds, List.getD_cons_succ, List.getD_cons_zero] <;> constructor <;> linarith

/-- C112: the constraints keep the slip angle of each of the four tyres below the limit of its axle. -/
theorem C112_all_tyres (c : Car) (m : Members) (o : CarOut) (wl wr : ℝ)
    (h : Within (extraBounds c wl wr) (extraConstraints c m o)) :
    let lim (p : AxleP) := max (Tyre.maxLambda p.tyre 0) (Tyre.maxLambda p.tyre (c.chassis.mass * c.chassis.g0))
    |o.front.left.kin.lambda| ≤ lim c.front ∧ |o.front.right.kin.lambda| ≤ lim c.front ∧
    |o.rear.left.kin.lambda| ≤ lim c.rear ∧ |o.rear.right.kin.lambda| ≤ lim c.rear := by
  have h0 := h.2.2 0 (by simp [extraConstraints])
  have h1 := h.2.2 1 (by simp [extraConstraints])
  have h2 := h.2.2 2 (by simp [extraConstraints])
  have h3 := h.2.2 3 (by simp [extraConstraints])
  simp only [extraBounds, extraConstraints, List.getD_cons_succ, List.getD_cons_zero] at h0 h1 h2 h3
  exact ⟨abs_le.2 h0, abs_le.2 h1, abs_le.2 h2, abs_le.2 h3⟩

/-! ## A car -/

/-- Tyres whose limits do not depend on the load, except the slip angle. -/
noncomputable def exTyre : Tyre.Simple :=
  { sp := fun x => max x 0, Fz1 := 2000, Fz2 := 6000, muX1 := 2, muX2 := 2, muY1 := 2, muY2 := 2
    kappa1 := 1 / 10, kappa2 := 1 / 10, lambda1Deg := 0, lambda2Deg := 0, Qx := 1, Qy := 1
    lambda1 := 1 / 10, lambda2 := 2 / 10, Sx := 1, Sy := 1 }

/-- An engine of 500 kW. -/
noncomputable def exEngine : Power.Engine :=
  { directTorque := false, onlyMaxPower := true, gear := 1, maxPower := 500, P := fun _ => 0, left := 0, right := 1 }

/-- An axle, 1.6 m wide. -/
noncomputable def exAxle : AxleP :=
  { track := 16 / 10, I := 1, R0 := 3 / 10, tyre := exTyre
    torque := { sp := fun x => max x 0, ss := fun x => x, Tmax := 5000, stiffness := 10, engine := exEngine, boost := exEngine } }

/-- A car of 600 kg. -/
noncomputable def exCar : Car :=
  { front := exAxle, rear := exAxle
    chassis := { g0 := 10, mass := 600, I := ((100, 0, 0), (0, 400, 0), (0, 0, 450)), aero := ⟨1, 1, 3, 1, 0, 0⟩
                 xCom := (0, 0, -(3 / 10)), xFront := (18 / 10, 0, -(3 / 10)), xRear := (-(16 / 10), 0, -(3 / 10))
                 xAero := (0, 0, -(3 / 10)), rollBalance := 1 / 2, sp := fun x => max x 0 } }

/-- C112 is false for larger loads: at twice the weight, within the limits of the loads, a slip angle below
the one of maximum force violates its constraint. -/
theorem C112_false (wl wr : ℝ) : ∃ (c : Car) (Fz lam : ℝ), 0 ≤ Fz ∧ Fz ≤ 3 * (c.chassis.mass * c.chassis.g0) ∧
    |lam| ≤ Tyre.maxLambda c.front.tyre Fz ∧ ¬ lam ≤ (extraBounds c wl wr).2.getD 0 0 := by
  refine ⟨exCar, 12000, 35 / 100, by norm_num, by norm_num [exCar], ?_, ?_⟩
  · rw [abs_of_pos (by norm_num)]
    norm_num [exCar, exAxle, exTyre, Tyre.maxLambda, Tyre.atLoad]
  · simp only [extraBounds, List.getD_cons_zero, exCar, exAxle, exTyre, Tyre.maxLambda, Tyre.atLoad]
    norm_num

/-- A straight flat track. -/
def exStraight : TrackPoint := ⟨(0, 0, 0), 0, 0, 0, 0, 0, 0⟩

/-- A car that goes at 50 m/s, heading at 30 degrees to the track. -/
noncomputable def exInputs : Nat → ℝ := fun k => if k = 4 then 50 else if k = 13 then Real.pi / 6 else 0

/-- C56 is false for a car that heads at an angle to the track: on a straight flat track, a car whose
constraints hold has a wheel beyond the track limit. -/
theorem C56_false : ∃ (c : Car) (f : TrackPoint) (q u : Nat → ℝ) (wl wr : ℝ), Flat f ∧
    Within (extraBounds c wl wr)
      (extraConstraints c (setState c q u) (carUpdate c (setState c q u) (roadCurvilinear f (setState c q u)))) ∧
    ∃ x ∈ wheels c, wr < lateral (q 12) (q 13) x := by
  refine ⟨exCar, exStraight, exInputs, fun _ => 0, 8 / 10 * Real.cos (Real.pi / 6), 8 / 10 * Real.cos (Real.pi / 6),
    ⟨rfl, rfl, rfl, rfl⟩, ⟨rfl, rfl, ?_⟩, exCar.chassis.xFront + (0, exCar.front.track / 2, 0), by simp [wheels], ?_⟩
  · have hc : (0 : ℝ) < √3 := by positivity
    intro k hk
    have hk' : k < 6 := hk
    interval_cases k <;>
      simp [extraBounds, extraConstraints, carUpdate, axleUpdate, wheelUpdate, Tyre.updateKappa, setState, exInputs,
        roadCurvilinear, Road.update, eulerAnglesDot, omegaBody, curvature, exStraight, rotZ, cross, exCar, exAxle,
        exTyre, Tyre.maxLambda, Tyre.atLoad, frontStart, rearStart, chassisStart, loadStart, roadStart] <;>
      norm_num <;> linarith
  · have h1 : exInputs 12 = 0 := by simp [exInputs]
    have h2 : exInputs 13 = Real.pi / 6 := by simp [exInputs]
    rw [h1, h2, lateral, Real.sin_pi_div_six]
    simp only [exCar, exAxle, Prod.fst_add, Prod.snd_add]
    norm_num

/-! ## C103: rate limits -/

/-- C103 is broken by the F1 car: it has four controls and gives the limits of three rates, so a request
that optimises the brake bias at every node has no limit for its rate. -/
theorem C103_false_f1 (v : Transcription.Vehicle ℝ) (hl : v.dcontrolsLb = rateBounds.1)
    (controls : List (Control.CV ℝ)) (cv : Control.CV ℝ)
    (hb : controls[cBrakeBias]? = some cv) (hk : cv.kind = Control.Kind.fullMesh) : ¬ v.RatesBounded controls := by
  intro h
  have := (h cBrakeBias cv hb hk).1
  rw [hl] at this
  simp [rateBounds, cBrakeBias, cThrottle, cBoost, cSteering] at this

example : (extraBounds exCar 5 5).1.getD 2 0 ≤ 1 / 10 ∧ (1 / 10 : ℝ) ≤ (extraBounds exCar 5 5).2.getD 2 0 :=
  C112_slip_allowed_partial exCar 5 5 exCar.rear 2 (.inr ⟨rfl, .inl rfl⟩) 3000 (1 / 10) (by norm_num)
    (by norm_num [exCar]) (by rw [abs_of_pos (by norm_num)]; norm_num [exCar, exAxle, exTyre, Tyre.maxLambda, Tyre.atLoad])

example (q u : Nat → ℝ) : meaning exCar .curvilinear (setState exCar q u) "chassis.force_z_rl_g" = some (q 9) :=
  C104_inputs_read exCar .curvilinear q u (by norm_num [exCar]) 9 (by decide)

end Verif.F1
