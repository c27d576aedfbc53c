import Verif.Props.SteadyState

/-! # Properties of steady states: search ranges, rejections, independence of the mesh -/

set_option autoImplicit false

namespace Verif.Steady

variable {K I C D : Type*}

/-! ## C141, order of the branches -/

/-- A solver that stops early: the points it proposes satisfy the problem, without being the best. -/
def lazy (p : Nlp ℚ) : List ℚ :=
  match p.goal, p.x0.length with
  | .none, _ => [(p.g [0]).headD 0]
  | .maxLast, 3 => [0, 0, 5]
  | .maxLast, _ => [max (p.xl.getLastD 0) (-1 / 2), max (p.xl.getLastD 0) (-1 / 2)]
  | .minLast, _ => [min (p.xu.getLastD 0) (1 / 10), min (p.xu.getLastD 0) (1 / 10)]

/-- C141 is false of the order of the branches: with a solver that stops early (Ipopt finds local
optima) the upper branch is 0.6 m/s² below the lower one, all points being reported as solved. -/
theorem C141_order_false : Accurate 0 (proposes lazy) ∧
    ∃ mx mn, ∃ a b : Solution ℚ (List ℚ) Unit (List ℚ), ggAD (toy 1) (proposes lazy) 10 2 = .ok (mx, mn) ∧ mx[0]? = some a ∧ mn[0]? = some b ∧
      a.solved = true ∧ b.solved = true ∧ a.ax = -1 / 2 ∧ b.ax = 1 / 10 := by
  refine ⟨proposes_accurate _, [⟨true, 10, -1 / 2, 0, [-1 / 2], (), [-1 / 2]⟩,
      ⟨true, 10, 0, 5, [0], (), [0]⟩], [⟨true, 10, 1 / 10, 0, [1 / 10], (), [1 / 10]⟩,
      ⟨true, 10, 0, 5, [0], (), [0]⟩], _, _, ?_, rfl, rfl, rfl, rfl, rfl, rfl⟩
  decide +kernel

/-! ## C142: the range of the search -/

section
variable [Field K] [LinearOrder K] [IsStrictOrderedRing K]

/-- C142, what holds of the maximum lateral acceleration: it is the result of a search over a range
that includes all accelerations between -2 and 20 m/s², and either it is at least 0.1 units away from
all limits of that range, or the range has been enlarged 31 times: the product of its two widths is then
at least a thousand times the initial one. -/
theorem C142_lateral_partial (car : Car K I C D) (hu : 0 < car.units) (S : SolverAD K) (v : K)
    (s : Solution K I C D) (h : maxLatAD car S v = .ok s) :
    ∃ (b : LatState K) (x : List K), S (latProblem car b.x0 v b.lx b.ux b.ly b.uy) = (s.solved, x) ∧
      s.ax = x.getD car.nVars 0 * car.units ∧ s.ay = x.getD (car.nVars + 1) 0 * car.units ∧
      b.lx ≤ -2 / car.units ∧ 20 / car.units ≤ b.ux ∧ b.ly ≤ -2 / car.units ∧ 20 / car.units ≤ b.uy ∧
      (Clear b (s.ax / car.units) (s.ay / car.units) ∨
        1000 * (22 / car.units) ^ 2 ≤ (b.ux - b.lx) * (b.uy - b.ly)) := by
  unfold maxLatAD at h
  obtain ⟨z, _, h⟩ := Res.bind_eq_ok.1 h
  obtain ⟨r, hr, h⟩ := Res.bind_eq_ok.1 h
  obtain rfl := Res.ok.inj h
  obtain ⟨_, hrun, j, hj, hst, hfav, hunf⟩ := attempts_spec hr
  set run : LatState K → Bool × List K :=
    fun s => S (latProblem car s.x0 v s.lx s.ux s.ly s.uy) with hrundef
  have hwid : (-2 : K) / car.units ≤ 20 / car.units := by
    rw [div_le_div_iff_of_pos_right hu]; norm_num
  have hinv := attempts_invariant (run := run) (judge := latJudge car.nVars)
    (fun s => s.lx ≤ -2 / car.units ∧ 20 / car.units ≤ s.ux ∧ s.ly ≤ -2 / car.units ∧
      20 / car.units ≤ s.uy ∧ s.lx ≤ s.ux ∧ s.ly ≤ s.uy)
    (fun s hs => latJudge_bounds s _ hs)
  have h0 : (latStart car z v).lx ≤ -2 / car.units ∧ 20 / car.units ≤ (latStart car z v).ux ∧
      (latStart car z v).ly ≤ -2 / car.units ∧ 20 / car.units ≤ (latStart car z v).uy ∧
      (latStart car z v).lx ≤ (latStart car z v).ux ∧ (latStart car z v).ly ≤ (latStart car z v).uy :=
    ⟨le_refl _, le_refl _, le_refl _, le_refl _, hwid, hwid⟩
  have hb := hinv j _ h0
  rw [← hst] at hb
  have hgrow : ∀ (j : Nat) (s : LatState K),
      (s.lx ≤ -2 / car.units ∧ 20 / car.units ≤ s.ux ∧ s.ly ≤ -2 / car.units ∧
        20 / car.units ≤ s.uy ∧ s.lx ≤ s.ux ∧ s.ly ≤ s.uy) →
      (∀ i < j, (latJudge car.nVars (after run (latJudge car.nVars) i s)
        (run (after run (latJudge car.nVars) i s))).1 = false) →
      (5 / 4) ^ j * ((s.ux - s.lx) * (s.uy - s.ly)) ≤
        ((after run (latJudge car.nVars) j s).ux - (after run (latJudge car.nVars) j s).lx) *
        ((after run (latJudge car.nVars) j s).uy - (after run (latJudge car.nVars) j s).ly) := by
    intro j
    induction j with
    | zero => intro s _ _; simp [after]
    | succ j ih =>
      intro s hs hall
      have h1 := latJudge_width (r := run s) (by linarith [hs.2.2.2.2.1] : (0 : K) ≤ s.ux - s.lx)
        (by linarith [hs.2.2.2.2.2]) (hall 0 (by omega))
      have h2 := ih (latJudge car.nVars s (run s)).2 (latJudge_bounds s _ hs)
        (fun i hi => hall (i + 1) (by omega))
      refine le_trans ?_ h2
      calc (5 / 4 : K) ^ (j + 1) * ((s.ux - s.lx) * (s.uy - s.ly))
          = (5 / 4) ^ j * (5 / 4 * ((s.ux - s.lx) * (s.uy - s.ly))) := by ring
        _ ≤ _ := mul_le_mul_of_nonneg_left h1 (by positivity)
  refine ⟨r.2, r.1.2, hrun.symm, rfl, rfl, hb.1, hb.2.1, hb.2.2.1, hb.2.2.2.1, ?_⟩
  simp only [report, mul_div_cancel_right₀ _ hu.ne']
  by_cases hlt : j < 31
  · exact .inl (latJudge_clear.1 (hfav hlt))
  · right
    obtain rfl : j = 31 := by omega
    have := hgrow 31 _ h0 hunf
    rw [← hst] at this
    refine le_trans ?_ this
    simp only [latStart]
    have e : ((20 : K) / car.units - -2 / car.units) * (20 / car.units - -2 / car.units)
        = (22 / car.units) ^ 2 := by ring
    rw [e]
    exact mul_le_mul_of_nonneg_right (by norm_num) (by positivity)

/-- C142. If the solver finds true optima, no steady state with accelerations between -2 and 20 m/s² has
more lateral acceleration than the one reported as solved. -/
theorem C142_best (car : Car K I C D) (hp : car.Proper) (hu : 0 < car.units) (S : SolverAD K)
    (hA : Accurate 0 S) (hO : Optimal S) (v : K) (s : Solution K I C D) (h : maxLatAD car S v = .ok s)
    (hs : s.solved = true) (x : List K) (ax ay : K) (hx : Within 0 car.bounds.1 x car.bounds.2)
    (h1 : -2 ≤ ax) (h2 : ax ≤ 20) (h3 : -2 ≤ ay) (h4 : ay ≤ 20)
    (hc : Within 0 car.cBounds.1 (car.eqs x (ax / car.units) (ay / car.units) v).1 car.cBounds.2) :
    ay ≤ s.ay := by
  obtain ⟨b, y, hy, e1, e2, b1, b2, b3, b4, _⟩ := C142_lateral_partial car hu S v s h
  rw [hs] at hy
  have hlen : x.length = car.nVars := by rw [← hx.1.length_eq, hp.b1]
  have d : ∀ p q : K, p ≤ q → p / car.units ≤ q / car.units := fun p q hpq =>
    (div_le_div_iff_of_pos_right hu).2 hpq
  have hf : Feasible 0 (latProblem car b.x0 v b.lx b.ux b.ly b.uy) (x ++ [ax / car.units, ay / car.units]) := by
    constructor
    · constructor
      · refine List.rel_append hx.1 ?_
        simp only [List.forall₂_cons, List.Forall₂.nil, and_true, sub_zero]
        exact ⟨b1.trans (d _ _ h1), b3.trans (d _ _ h3)⟩
      · refine List.rel_append hx.2 ?_
        simp only [List.forall₂_cons, List.Forall₂.nil, and_true, add_zero]
        exact ⟨(d _ _ h2).trans b2, (d _ _ h4).trans b4⟩
    · have : (latProblem car b.x0 v b.lx b.ux b.ly b.uy).g (x ++ [ax / car.units, ay / car.units])
          = (car.eqs x (ax / car.units) (ay / car.units) v).1 := by
        simp [latProblem, ← hlen]
      rw [this]
      exact hc
  have hlast := hO _ _ hy rfl _ hf
  have hw := within_two hp.b1 hp.b2 (hA _ _ hy).1
  have e3 : y.getLastD 0 = y.getD (car.nVars + 1) 0 := by
    have hyl := hw.2.1
    have hne : y ≠ [] := by intro hnil; rw [hnil] at hyl; simp at hyl
    rw [List.getLastD_eq_getLast?, List.getLast?_eq_getElem?, hyl]
    simp [List.getD_eq_getElem?_getD]
  have e4 : (x ++ [ax / car.units, ay / car.units]).getLastD 0 = ay / car.units := by
    rw [List.getLastD_eq_getLast?]; simp
  rw [e3, e4, div_le_iff₀ hu] at hlast
  rw [e2]
  exact hlast

/-- C142, what holds of the longitudinal accelerations: the maximum is the result of a search that
includes all accelerations from -2 to 10 m/s², and either it is away from its limits or these have been
enlarged seven times; the minimum is the result of a search that includes all accelerations from that of
the maximum lateral acceleration to 10 m/s² below it, and no larger ones. -/
theorem C142_longitudinal_partial (car : Car K I C D) (hu : 0 < car.units) (S : SolverAD K) (v ay : K)
    (mx mn : Solution K I C D) (h : maxLonAD car S v ay = .ok (mx, mn)) :
    ∃ lat, maxLatAD car S v = .ok lat ∧
      (∃ x0 l u x, S (lonProblem car car.boundsAcc .maxLast x0 v (ay / car.units) l u) = (mx.solved, x) ∧
        mx.ax = x.getD car.nVars 0 * car.units ∧ l ≤ -2 / car.units ∧ 10 / car.units ≤ u ∧
        (1 / 100 ≤ |l - mx.ax / car.units| ∧ 1 / 5 ≤ |u - mx.ax / car.units| ∨
          (6 / 5) ^ 7 * (2 / car.units * (10 / car.units)) ≤ -l * u)) ∧
      (∃ x0 l x, S (lonProblem car car.boundsBrake .minLast x0 v (ay / car.units) l (lat.ax / car.units))
          = (mn.solved, x) ∧
        mn.ax = x.getD car.nVars 0 * car.units ∧ l ≤ (lat.ax - 10) / car.units) := by
  unfold maxLonAD at h
  obtain ⟨z, _, h⟩ := Res.bind_eq_ok.1 h
  obtain ⟨lat, hlat, h⟩ := Res.bind_eq_ok.1 h
  split at h
  · cases h
  obtain ⟨axSs, _, h⟩ := Res.bind_eq_ok.1 h
  obtain ⟨ss, _, h⟩ := Res.bind_eq_ok.1 h
  obtain ⟨r1, hr1, h⟩ := Res.bind_eq_ok.1 h
  obtain ⟨r2, hr2, h⟩ := Res.bind_eq_ok.1 h
  obtain ⟨rfl, rfl⟩ := Prod.mk.inj (Res.ok.inj h)
  refine ⟨lat, hlat, ?_, ?_⟩
  · obtain ⟨_, hrun, j, hj, hst, hfav, hunf⟩ := attempts_spec hr1
    set run : LonState K → Bool × List K :=
      fun s => S (lonProblem car car.boundsAcc .maxLast s.x0 v (ay / car.units) s.l s.u) with hrd
    set s0 : LonState K := ⟨car.getX ss.inputs ss.controls v ++ [ss.ax / car.units], -2 / car.units,
      10 / car.units⟩ with hs0
    have h0 : s0.l ≤ -2 / car.units ∧ 10 / car.units ≤ s0.u ∧ s0.l ≤ 0 ∧ 0 ≤ s0.u := by
      refine ⟨le_refl _, le_refl _, ?_, by positivity⟩
      rw [hs0]; simp only
      rw [div_le_iff₀ hu]; linarith
    have hb := attempts_invariant (run := run) (judge := maxJudge car.nVars)
      (fun s => s.l ≤ -2 / car.units ∧ 10 / car.units ≤ s.u ∧ s.l ≤ 0 ∧ 0 ≤ s.u)
      (fun s hs => maxJudge_bounds s _ hs) j _ h0
    rw [← hst] at hb
    have hgrow : ∀ (j : Nat) (s : LonState K), s.l ≤ 0 ∧ 0 ≤ s.u →
        (∀ i < j, (maxJudge car.nVars (after run (maxJudge car.nVars) i s)
          (run (after run (maxJudge car.nVars) i s))).1 = false) →
        (6 / 5) ^ j * (-s.l * s.u) ≤
          -(after run (maxJudge car.nVars) j s).l * (after run (maxJudge car.nVars) j s).u := by
      intro j
      induction j with
      | zero => intro s _ _; simp [after]
      | succ j ih =>
        intro s hs hall
        have hbb := maxJudge_bounds (n := car.nVars) (a := 0) (b := 0) s (run s) ⟨hs.1, hs.2, hs.1, hs.2⟩
        have h2 := ih (maxJudge car.nVars s (run s)).2 ⟨hbb.1, hbb.2.1⟩
          (fun i hi => hall (i + 1) (by omega))
        have hf := hall 0 (by omega)
        refine le_trans ?_ h2
        have h1 : 6 / 5 * (-s.l * s.u) ≤
            -(maxJudge car.nVars s (run s)).2.l * (maxJudge car.nVars s (run s)).2.u := by
          have hp : 0 ≤ -s.l * s.u := mul_nonneg (by linarith [hs.1]) hs.2
          simp only [after, maxJudge, Bool.not_eq_false', Bool.or_eq_true, decide_eq_true_eq] at hf ⊢
          rcases hf with hf | hf <;> replace hf := of_decide_eq_true hf
          · rw [if_pos hf]; split <;> nlinarith
          · rw [if_pos hf]; split <;> nlinarith
        calc (6 / 5 : K) ^ (j + 1) * (-s.l * s.u) = (6 / 5) ^ j * (6 / 5 * (-s.l * s.u)) := by ring
          _ ≤ _ := mul_le_mul_of_nonneg_left h1 (by positivity)
    refine ⟨r1.2.x0, r1.2.l, r1.2.u, r1.1.2, hrun.symm, rfl, hb.1, hb.2.1, ?_⟩
    simp only [lonReport, report, mul_div_cancel_right₀ _ hu.ne']
    by_cases hlt : j < 7
    · left
      have := hfav hlt
      simpa [maxJudge] using this
    · right
      obtain rfl : j = 7 := by omega
      have := hgrow 7 s0 ⟨h0.2.2.1, h0.2.2.2⟩ hunf
      rw [← hst] at this
      refine le_trans (le_of_eq ?_) this
      rw [hs0]
      simp only
      ring
  · obtain ⟨_, hrun, j, hj, hst, hfav, hunf⟩ := attempts_spec hr2
    have h10 : lat.ax / car.units - 10 / car.units ≤ lat.ax / car.units := by
      have : 0 ≤ 10 / car.units := by positivity
      linarith
    have hb := attempts_invariant
      (run := fun s => S (lonProblem car car.boundsBrake .minLast s.x0 v (ay / car.units) s.l s.u))
      (judge := minJudge car.nVars)
      (fun s => s.l ≤ lat.ax / car.units - 10 / car.units ∧ s.u = lat.ax / car.units ∧ s.l ≤ s.u)
      (fun s hs => minJudge_bounds s _ hs) j
      ⟨car.getX ss.inputs ss.controls v ++ [ss.ax / car.units], minLower car.units lat.ax,
        lat.ax / car.units⟩
      ⟨by rw [minLower_eq], rfl, by simp only [minLower_eq]; exact h10⟩
    rw [← hst] at hb
    refine ⟨r2.2.x0, r2.2.l, r2.1.2, ?_, rfl, by rw [sub_div]; exact hb.1⟩
    have : r2.1 = _ := hrun
    rw [hb.2.1] at this
    exact this.symm

end

/-- A vehicle without any limit. -/
def limitless : Car ℚ Unit Unit Unit where
  nVars := 0
  eqs _ _ _ _ := ([], (), ())
  rate _ _ := ()
  getX _ _ _ := []
  guess := []
  bounds := ([], [])
  boundsAcc := ([], [])
  boundsBrake := ([], [])
  cBounds := ([], [])
  units := 1

/-- C142 is false: a lateral acceleration at the limit of the last range is reported as a solved
maximum, although larger accelerations are steady states. -/
theorem C142_false : Accurate 0 (proposes Nlp.xu) ∧ ∃ s, maxLatAD limitless (proposes Nlp.xu) 10 = .ok s ∧
    s.solved = true ∧ ∀ a, ∃ s' : Solution ℚ Unit Unit Unit, s'.v = 10 ∧ s'.ay = a ∧
      IsSteady 0 limitless limitless.bounds s' := by
  refine ⟨proposes_accurate _, ⟨true, 10, -2 + 22 * (5 / 4) ^ 31, -2 + 22 * (5 / 4) ^ 31, (), (), ()⟩,
    by decide +kernel, rfl, fun a => ⟨⟨true, 10, 0, a, (), (), ()⟩, rfl, rfl, [], [], ?_, rfl, ?_, rfl⟩⟩ <;>
  simp [Within, limitless]

/-! ## C143: unreachable lateral accelerations -/

section
variable [Field K] [LinearOrder K]

/-- C143, what holds: a lateral acceleration above the maximum is rejected, and nothing else is. -/
theorem C143_rejected_partial (car : Car K I C D) (S : SolverAD K) (v ay : K)
    (zero lat : Solution K I C D) (h0 : solveAD car S v 0 0 none = .ok zero)
    (h : maxLatAD car S v = .ok lat) : maxLonAD car S v ay = .throw ↔ lat.ay < ay := by
  unfold maxLonAD
  rw [h0, h]
  simp only [Res.bind_ok]
  by_cases hlt : lat.ay < ay
  · simp [hlt]
  · simp only [iff_false, hlt]
    refine bind_ne_throw (by unfold proportional; split <;> simp) fun a => ?_
    refine bind_ne_throw (solveAD_ne_throw _ _ _ _ _ _) fun ss => ?_
    refine bind_ne_throw (attempts_ne_throw _ _) fun r1 => ?_
    exact bind_ne_throw (attempts_ne_throw _ _) fun r2 => by simp

end

/-- C143 is false to the other side: a lateral acceleration of -100 m/s² is not rejected by a vehicle
that reaches 5 m/s² in either direction; the results are reported as not solved. -/
theorem C143_false : ∃ lat, maxLatAD (toy 1) (proposes (toyBest 1)) 10 = .ok lat ∧ lat.ay = 5 ∧
    ∃ mx mn, maxLonAD (toy 1) (proposes (toyBest 1)) 10 (-100) = .ok (mx, mn) ∧
      mx.solved = false ∧ mn.solved = false := by
  refine ⟨⟨true, 10, 0, 5, [0], (), [0]⟩, by decide +kernel, rfl,
    ⟨false, 10, 3, -100, [3], (), [3]⟩, ⟨false, 10, -3, -100, [-3], (), [-3]⟩, ?_, rfl, rfl⟩
  decide +kernel

example : maxLonAD (toy 1) (proposes (toyBest 1)) 10 6 = .throw := by decide +kernel

/-! ## C144: refinement of the diagram -/

section
variable [Field K] [LinearOrder K]

/-- C144, the part that holds: where the solver finds the steady state at a lateral acceleration, and from
it the minimum, at first attempt, the points of the diagram at that lateral acceleration do not depend on
the number of points. -/
theorem C144_refinement_partial (car : Car K I C D) (S : SolverAD K) (v ay : K)
    (zero lat : Solution K I C D) (lon : Solution K I C D × Solution K I C D)
    (hz : solveAD car S v 0 0 none = .ok zero) (hlat : maxLatAD car S v = .ok lat)
    (hlon : maxLonAD car S v 0 = .ok lon)
    (hS : ∀ s, solveAD car S v (lat.ax * ay / lat.ay) ay (some (car.getX zero.inputs zero.controls v))
      = .ok s → s.solved = true ∧
        (S (lonProblem car car.boundsBrake .minLast (car.getX s.inputs s.controls v ++ [s.ax / car.units]) v
          (ay / car.units) (lon.2.ax / car.units - 1 / 10 / car.units)
          (lat.ax / car.units + 1 / 10 / car.units))).1 = true)
    (n m : Nat) (mx mn mx' mn' : List (Solution K I C D)) (h : ggAD car S v n = .ok (mx, mn))
    (h' : ggAD car S v m = .ok (mx', mn')) (i j : Nat) (a b a' b' : Solution K I C D) (hi : i + 1 < n)
    (hj : j + 1 < m) (ha : mx[i]? = some a) (hb : mn[i]? = some b) (ha' : mx'[j]? = some a')
    (hb' : mn'[j]? = some b') (hay : a.ay = ay) (hay' : a'.ay = ay) :
    a = a' ∧ b = b' := by
  obtain ⟨zero, lat, lon, r, h1, h2, h3, hn, h4, rfl, rfl⟩ := ggAD_parts h
  obtain ⟨zero', lat', lon', r', h1', h2', h3', hn', h4', rfl, rfl⟩ := ggAD_parts h'
  obtain rfl := Res.ok.inj (h1.symm.trans h1')
  obtain rfl := Res.ok.inj (h2.symm.trans h2')
  obtain rfl := Res.ok.inj (h3.symm.trans h3')
  obtain rfl := Res.ok.inj (h1.symm.trans hz)
  obtain rfl := Res.ok.inj (h2.symm.trans hlat)
  obtain rfl := Res.ok.inj (h3.symm.trans hlon)
  obtain ⟨l1, l2, l3⟩ := ggLoop_spec h4
  obtain ⟨l1', l2', l3'⟩ := ggLoop_spec h4'
  have hlen : ∀ n, ((Mesh.linspace lat.ay (n - 1)).take (n - 1)).length = n - 1 := by
    intro n; simp [Mesh.linspace]
  rw [hlen] at l1 l2 l1' l2'
  obtain ⟨p1, p2, e1, e2, ss, prev, p, hpt, rfl, rfl⟩ := l3 i _ (ays_get lat.ay n i (by omega))
  obtain ⟨q1, q2, e1', e2', ss', prev', q, hqt, rfl, rfl⟩ := l3' j _ (ays_get lat.ay m j (by omega))
  rw [List.getElem?_append_left (by omega), e1] at ha
  rw [List.getElem?_append_left (by omega), e2] at hb
  rw [List.getElem?_append_left (by omega), e1'] at ha'
  rw [List.getElem?_append_left (by omega), e2'] at hb'
  obtain rfl := Option.some.inj ha
  obtain rfl := Option.some.inj hb
  obtain rfl := Option.some.inj ha'
  obtain rfl := Option.some.inj hb'
  have hmin : ∀ x0 ay l u prev, (S (lonProblem car car.boundsBrake .minLast x0 v (ay / car.units) l u)).1 = true →
      ggMin car S x0 v ay l u prev = ggRun car S car.boundsBrake .minLast x0 v ay l u := by
    intro x0 ay l u prev hok
    unfold ggMin
    have : (ggRun car S car.boundsBrake .minLast x0 v ay l u).1 = true := hok
    split
    · simp_all
    · rfl
  have hpay : ∀ ss prev a p, ggPoint car S v lat lon.1 lon.2 (car.getX zero.inputs zero.controls v) ss prev a
        = .ok p → p.2.1.ay = a := by
    intro ss prev a p hp
    unfold ggPoint at hp
    obtain ⟨ax, hax, hp⟩ := Res.bind_eq_ok.1 hp
    obtain ⟨cand, hc, hp⟩ := Res.bind_eq_ok.1 hp
    obtain ⟨e, he, hp⟩ := Res.bind_eq_ok.1 hp
    obtain rfl := Res.ok.inj hp
    generalize (if cand.solved = true then cand else ss) = ss1 at he
    unfold ggExtremes at he
    simp only at he
    split at he
    · obtain rfl := Res.ok.inj he
      simp [lonReport, report]
    · cases he
  have key : ∀ ss prev p, ggPoint car S v lat lon.1 lon.2 (car.getX zero.inputs zero.controls v) ss prev ay
        = .ok p → ∀ ss' prev',
      ggPoint car S v lat lon.1 lon.2 (car.getX zero.inputs zero.controls v) ss' prev' ay = .ok p := by
    intro ss prev p hp ss' prev'
    unfold ggPoint at hp
    obtain ⟨ax, hax, hp⟩ := Res.bind_eq_ok.1 hp
    obtain ⟨cand, hc, hp⟩ := Res.bind_eq_ok.1 hp
    have hax' : ax = lat.ax * ay / lat.ay := by
      unfold proportional at hax
      split at hax
      · cases hax
      · exact (Res.ok.inj hax).symm
    obtain ⟨hsol, hmn⟩ := hS cand (hax' ▸ hc)
    rw [hsol] at hp
    simp only [if_true] at hp
    unfold ggPoint
    rw [hax, Res.bind_ok, hc, Res.bind_ok, hsol]
    simp only [if_true]
    rw [← hp]
    unfold ggExtremes
    simp only [hmin _ _ _ _ _ hmn]
  have c := hpay _ _ _ _ hpt
  have d := hpay _ _ _ _ hqt
  rw [← c, hay] at hpt
  rw [← d, hay'] at hqt
  have := key _ _ _ hpt ss' prev'
  rw [hqt] at this
  obtain rfl := Res.ok.inj this
  exact ⟨rfl, rfl⟩

end

/-- The small vehicle meets the hypotheses at 2.5 m/s², half of its maximum. -/
example : maxLatAD (toy 1) (proposes (toyBest 1)) 10 = .ok ⟨true, 10, 0, 5, [0], (), [0]⟩ ∧
    solveAD (toy 1) (proposes (toyBest 1)) 10 (0 * (5 / 2) / 5) (5 / 2) (some [0])
      = .ok ⟨true, 10, 0, 5 / 2, [0], (), [0]⟩ ∧
    (proposes (toyBest 1) (lonProblem (toy 1) (toy 1).boundsBrake .minLast [0, 0] 10 (5 / 2 / 1)
      (-3 / 1 - 1 / 10 / 1) (0 / 1 + 1 / 10 / 1))).1 = true := by
  refine ⟨?_, ?_, ?_⟩ <;> decide +kernel

/-- A solver that stays at its starting point, and fails to find the steady state at a lateral
acceleration of 2.5. -/
def stubborn (p : Nlp ℚ) : List ℚ :=
  match p.goal, p.x0.length with
  | .none, _ => if (p.g [0]).getLastD 0 = 5 / 2 then [7] else [(p.g [0]).headD 0]
  | .maxLast, 3 => [1 / 5, 1 / 5, 5]
  | _, _ => p.x0

/-- C144 is false when a solver call fails: the point at 2.5 m/s² of the diagram with three points is
not that of the diagram with five, both being reported as solved. -/
theorem C144_false : Accurate 0 (proposes stubborn) ∧ ∃ mx mn mx' mn' a a',
    ggAD (toy 1) (proposes stubborn) 10 3 = .ok (mx, mn) ∧
    ggAD (toy 1) (proposes stubborn) 10 5 = .ok (mx', mn') ∧ mx[1]? = some a ∧ mx'[2]? = some a' ∧
    a.ay = 5 / 2 ∧ a'.ay = 5 / 2 ∧ a.solved = true ∧ a'.solved = true ∧ a.ax ≠ a'.ax := by
  refine ⟨proposes_accurate _, [⟨true, 10, 0, 0, [0], (), [0]⟩, ⟨true, 10, 0, 5 / 2, [0], (), [0]⟩,
      ⟨true, 10, 1 / 5, 5, [1 / 5], (), [1 / 5]⟩],
    [⟨true, 10, 0, 0, [0], (), [0]⟩, ⟨true, 10, 0, 5 / 2, [0], (), [0]⟩,
      ⟨true, 10, 1 / 5, 5, [1 / 5], (), [1 / 5]⟩],
    [⟨true, 10, 0, 0, [0], (), [0]⟩, ⟨true, 10, 1 / 20, 5 / 4, [1 / 20], (), [1 / 20]⟩,
      ⟨true, 10, 1 / 20, 5 / 2, [1 / 20], (), [1 / 20]⟩,
      ⟨false, 10, 3 / 20, 15 / 4, [3 / 20], (), [3 / 20]⟩, ⟨true, 10, 1 / 5, 5, [1 / 5], (), [1 / 5]⟩],
    [⟨true, 10, 0, 0, [0], (), [0]⟩, ⟨true, 10, 1 / 20, 5 / 4, [1 / 20], (), [1 / 20]⟩,
      ⟨true, 10, 1 / 20, 5 / 2, [1 / 20], (), [1 / 20]⟩,
      ⟨true, 10, 3 / 20, 15 / 4, [3 / 20], (), [3 / 20]⟩, ⟨true, 10, 1 / 5, 5, [1 / 5], (), [1 / 5]⟩],
    _, _, by decide +kernel, by decide +kernel, rfl, rfl, rfl, rfl, rfl, rfl, by norm_num⟩

/-! ## C145: definedness -/

section
variable [Field K] [LinearOrder K]

/-- C145. With a solver that returns as many numbers as it gets: `solve` and the maximum lateral
acceleration are defined at every speed; the longitudinal ones at every lateral acceleration up to the
maximum if that is not zero; the diagram for every positive number of points if the maximum lateral
acceleration is positive. -/
theorem C145_defined (car : Car K I C D) (hp : car.Proper) (S : SolverAD K) (hS : Sized S) (v : K) :
    (∀ ax ay, ∃ s, solveAD car S v ax ay none = .ok s) ∧
    ∃ lat, maxLatAD car S v = .ok lat ∧
      (∀ ay, ay ≤ lat.ay → lat.ay ≠ 0 → ∃ r, maxLonAD car S v ay = .ok r) ∧
      (∀ n, 0 < n → 0 < lat.ay → ∃ r, ggAD car S v n = .ok r) := by
  have hsolve := fun ax ay => solveAD_defined hp hS v ax ay none (by simp)
  obtain ⟨zero, hz⟩ := hsolve 0 0
  obtain ⟨rl, hrl⟩ := attempts_defined (len := car.nVars + 2)
    (run := fun s => S (latProblem car s.x0 v s.lx s.ux s.ly s.uy)) (judge := latJudge car.nVars)
    (fun s => s.x0.length = car.nVars + 2)
    (fun s hs => by rw [hS]; exact hs)
    (fun s hs => by
      simp only [latJudge]
      split
      · rw [hS]; exact hs
      · exact hs) 31 (latStart car zero v) (by simp [latStart, hp.getX])
  have hlat : ∃ lat, maxLatAD car S v = .ok lat := by
    unfold maxLatAD
    rw [hz, Res.bind_ok, hrl]
    exact ⟨_, rfl⟩
  obtain ⟨lat, hlat⟩ := hlat
  have hlon : ∀ ay, ay ≤ lat.ay → lat.ay ≠ 0 → ∃ r, maxLonAD car S v ay = .ok r := by
    intro ay hay hne
    unfold maxLonAD
    rw [hz, hlat]
    simp only [Res.bind_ok, if_neg (not_lt.2 hay), proportional, if_neg hne]
    obtain ⟨ss, hss⟩ := solveAD_defined hp hS v (lat.ax * ay / lat.ay) ay
      (some (car.getX zero.inputs zero.controls v)) (by simp [hp.getX])
    rw [hss]
    simp only [Res.bind_ok]
    obtain ⟨r1, hr1⟩ := attempts_defined (len := car.nVars + 1)
      (run := fun s => S (lonProblem car car.boundsAcc .maxLast s.x0 v (ay / car.units) s.l s.u))
      (judge := maxJudge car.nVars) (fun s => s.x0.length = car.nVars + 1)
      (fun s hs => by rw [hS]; exact hs) (fun s hs => hs) 7
      ⟨car.getX ss.inputs ss.controls v ++ [ss.ax / car.units], -2 / car.units, 10 / car.units⟩
      (by simp [hp.getX])
    obtain ⟨r2, hr2⟩ := attempts_defined (len := car.nVars + 1)
      (run := fun s => S (lonProblem car car.boundsBrake .minLast s.x0 v (ay / car.units) s.l s.u))
      (judge := minJudge car.nVars) (fun s => s.x0.length = car.nVars + 1)
      (fun s hs => by rw [hS]; exact hs)
      (fun s hs => by
        simp only [minJudge]
        split
        · rw [hS]; exact hs
        · exact hs) 29
      ⟨car.getX ss.inputs ss.controls v ++ [ss.ax / car.units], minLower car.units lat.ax,
        lat.ax / car.units⟩ (by simp [hp.getX])
    rw [hr1, Res.bind_ok, hr2]
    exact ⟨_, rfl⟩
  refine ⟨hsolve, lat, hlat, hlon, fun n hn hpos => ?_⟩
  obtain ⟨lon, hl⟩ := hlon 0 hpos.le hpos.ne'
  have hloop : ∀ (ays : List K) ss prev, ∃ r, ggLoop car S v lat lon.1 lon.2
      (car.getX zero.inputs zero.controls v) ss prev ays = .ok r := by
    intro ays
    induction ays with
    | nil => intro ss prev; exact ⟨_, rfl⟩
    | cons ay rest ih =>
      intro ss prev
      have hpt : ∃ p, ggPoint car S v lat lon.1 lon.2 (car.getX zero.inputs zero.controls v) ss prev ay
          = .ok p := by
        unfold ggPoint proportional
        rw [if_neg hpos.ne', Res.bind_ok]
        obtain ⟨cand, hc⟩ := solveAD_defined hp hS v (lat.ax * ay / lat.ay) ay
          (some (car.getX zero.inputs zero.controls v)) (by simp [hp.getX])
        rw [hc, Res.bind_ok]
        generalize (if cand.solved = true then cand else ss) = ss'
        have he : ∃ e, ggExtremes car S v lat lon.1 lon.2 ss' prev ay = .ok e := by
          unfold ggExtremes
          simp only
          rw [if_pos]
          · exact ⟨_, rfl⟩
          · constructor
            · unfold ggRun; rw [hS]; simp [lonProblem, hp.getX]
            · unfold ggMin ggRun
              split <;> (rw [hS]; simp [lonProblem, hp.getX])
        obtain ⟨e, he⟩ := he
        rw [he]
        exact ⟨_, rfl⟩
      obtain ⟨p, hpt⟩ := hpt
      obtain ⟨r, hr⟩ := ih p.1 (some p.2.2)
      unfold ggLoop
      rw [hpt, Res.bind_ok, hr]
      exact ⟨_, rfl⟩
  obtain ⟨r, hr⟩ := hloop ((Mesh.linspace lat.ay (n - 1)).take (n - 1)) zero none
  unfold ggAD
  rw [hz, Res.bind_ok, hlat, Res.bind_ok, hl, Res.bind_ok, if_neg (by omega), hr]
  exact ⟨_, rfl⟩

end

open Classical in
/-- A solver that maximises: it reports success where an optimum exists. -/
noncomputable def best : SolverAD ℚ := fun p =>
  if h : p.x0.length = p.xl.length ∧ ∃ x, Feasible 0 p x ∧ ∀ y, Feasible 0 p y → y.getLastD 0 ≤ x.getLastD 0
  then (true, h.2.choose) else (false, p.x0)

theorem best_spec : Accurate 0 best ∧ Optimal best ∧ Sized best := by
  refine ⟨fun p x h => ?_, fun p x h _ => ?_, fun p => ?_⟩
  · unfold best at h
    split at h
    · next hh => obtain rfl := (Prod.mk.inj h).2; exact hh.2.choose_spec.1
    · exact absurd (Prod.mk.inj h).1 (by simp)
  · unfold best at h
    split at h
    · next hh => obtain rfl := (Prod.mk.inj h).2; exact hh.2.choose_spec.2
    · exact absurd (Prod.mk.inj h).1 (by simp)
  · unfold best
    split
    · next hh => rw [hh.1]; exact hh.2.choose_spec.1.1.1.length_eq.symm
    · rfl

/-- The hypotheses of `C142_best` are met by `best` and the small vehicle, whose maximum is found. -/
example : ∃ s, maxLatAD (toy 1) best 10 = .ok s ∧ s.solved = true ∧ s.ay = 5 := by
  obtain ⟨hA, hO, hZ⟩ := best_spec
  obtain ⟨_, s, hs, _⟩ := C145_defined (toy 1) (toy_proper 1) best hZ 10
  have hsol : s.solved = true := by
    have hs' := hs
    unfold maxLatAD at hs'
    obtain ⟨z, _, hs'⟩ := Res.bind_eq_ok.1 hs'
    obtain ⟨r, hr, hs'⟩ := Res.bind_eq_ok.1 hs'
    obtain rfl := Res.ok.inj hs'
    obtain ⟨_, hrun, j, _, hst, _, _⟩ := attempts_spec hr
    have hinv := attempts_invariant (run := fun s => best (latProblem (toy 1) s.x0 10 s.lx s.ux s.ly s.uy))
      (judge := latJudge (toy 1).nVars)
      (fun s => (s.lx ≤ -2 / 1 ∧ 20 / 1 ≤ s.ux ∧ s.ly ≤ -2 / 1 ∧ 20 / 1 ≤ s.uy ∧ s.lx ≤ s.ux ∧ s.ly ≤ s.uy)
        ∧ s.x0.length = 3)
      (fun s hs => ⟨latJudge_bounds s _ hs.1, by
        simp only [latJudge]
        split
        · rw [hZ]; exact hs.2
        · exact hs.2⟩) j (latStart (toy 1) z 10) ⟨by norm_num [latStart, toy], by
          simp only [latStart, List.length_append, (toy_proper 1).getX]; rfl⟩
    rw [← hst] at hinv
    obtain ⟨⟨b1, b2, b3, b4, _⟩, hl⟩ := hinv
    have hf : Feasible 0 (latProblem (toy 1) r.2.x0 10 r.2.lx r.2.ux r.2.ly r.2.uy) [0, 0, 5] := by
      refine ⟨⟨?_, ?_⟩, (by decide +kernel : Within 0 [0, -5] [(0 : ℚ) * 1 - 0, 5 * 1] [0, 5])⟩ <;>
      simp only [latProblem, toy, List.cons_append, List.nil_append, List.forall₂_cons, List.Forall₂.nil,
        and_true] <;>
      refine ⟨?_, ?_, ?_⟩ <;> linarith
    have hup : ∀ y, Feasible 0 (latProblem (toy 1) r.2.x0 10 r.2.lx r.2.ux r.2.ly r.2.uy) y →
        y.getLastD 0 ≤ ([0, 0, 5] : List ℚ).getLastD 0 := by
      intro y hy
      obtain ⟨⟨hy1, _⟩, ⟨_, hy2⟩⟩ := hy
      have hyl := hy1.length_eq
      simp only [latProblem, toy, List.cons_append, List.nil_append, List.length_cons, List.length_nil] at hyl
      match y, hyl with
      | [f, ax, ay], _ =>
        simp only [latProblem, toy, List.forall₂_cons, List.Forall₂.nil, and_true] at hy2
        have := hy2.2
        simp at this ⊢
        linarith
    have hrun' : r.1 = best (latProblem (toy 1) r.2.x0 10 r.2.lx r.2.ux r.2.ly r.2.uy) := hrun
    show r.1.1 = true
    rw [hrun']
    unfold best
    rw [dif_pos ⟨by rw [show (latProblem (toy 1) r.2.x0 10 r.2.lx r.2.ux r.2.ly r.2.uy).x0 = r.2.x0 from rfl, hl]; rfl,
      _, hf, hup⟩]
  refine ⟨s, hs, hsol, le_antisymm ?_ ?_⟩
  · obtain ⟨x, c, _, h2, h3, _⟩ :=
      C140_lateral 0 (toy 1) (toy_proper 1) (by norm_num [toy]) best hA 10 s hs |>.2 hsol
    simp only [toy, Prod.mk.injEq, div_one, mul_one] at h2
    obtain ⟨rfl, _, _⟩ := h2
    have := h3.2
    simp only [toy, List.forall₂_cons, List.Forall₂.nil, and_true] at this
    linarith
  · have := C142_best (toy 1) (toy_proper 1) (by norm_num [toy]) best hA hO 10 s hs hsol [0] 0 5
      (by decide +kernel) (by norm_num) (by norm_num) (by norm_num) (by norm_num) (by decide +kernel)
    exact this

section
variable [Field K] [LinearOrder K]

omit [LinearOrder K] in
theorem solveNum_defined {car : Car K I C D} {S : SolverNum K} (hp : car.Proper) (hS : SizedNum S) (v ax ay : K)
    (n : Nat) (hn : 0 < n) (x0 : Option (List K)) (hx : ∀ x, x0 = some x → x.length = car.nVars) (f : Bool) :
    ∃ s, solveNum car S v ax ay n x0 f = .ok s := by
  have hstart : ∃ x, startPoint car x0 = .ok x ∧ x.length = car.nVars := by
    cases x0 with
    | none => exact ⟨_, rfl, hp.guess⟩
    | some x => exact ⟨x, by simp only [startPoint, if_pos (hx x rfl)], hx x rfl⟩
  obtain ⟨x, e, hlen⟩ := hstart
  have hcont : ∀ (is : List Nat) (x : List K), is ≠ [] → x.length = car.nVars →
      ∃ b y, continuation car S f v ax ay n is x = .ok (b, y) ∧ y.length = car.nVars := by
    intro is
    induction is with
    | nil => intro x h; exact absurd rfl h
    | cons i is ih =>
      intro x _ hx
      obtain ⟨b, y, e1, e2⟩ := hS.1 f (trimProblem car x v ((i : K) / (n : K) * ax) ((i : K) / (n : K) * ay))
      have hy : y.length = car.nVars := e2.trans hx
      cases is with
      | nil => exact ⟨b, y, e1, hy⟩
      | cons j js =>
        unfold continuation
        rw [e1, Res.bind_ok]
        exact ih y (by simp) hy
  obtain ⟨b, y, e1, e2⟩ := hcont ((List.range n).map (· + 1)) x (by
    intro h
    have := congrArg List.length h
    simp at this
    omega) hlen
  unfold solveNum
  rw [e, Res.bind_ok, e1, Res.bind_ok]
  simp only [e2, if_true]
  exact ⟨_, rfl⟩

omit [LinearOrder K] in
theorem lonNum_defined {car : Car K I C D} {S : SolverNum K} (hS : SizedNum S) (goal : Goal) (x0 : List K)
    (hx : x0.length = car.nVars + 1) (v ay l u : K) : ∃ s, lonNum car S goal x0 v ay l u = .ok s := by
  obtain ⟨b, y, e1, e2⟩ := hS.2 (lonProblem car car.bounds goal x0 v ay l u)
  have hy : y.length = car.nVars + 1 := e2.trans hx
  unfold lonNum
  rw [e1, Res.bind_ok]
  simp only [hy, if_true]
  exact ⟨_, rfl⟩

/-- C145, C143 with numerical Jacobians and solvers that return with as many numbers as they get: `solve` is
defined for every positive number of steps; so is the maximum lateral acceleration; the longitudinal ones
are rejected above it and defined up to it if it is not zero; the diagram is defined for every number of points
but one if it is not zero. -/
theorem C145_numeric (car : Car K I C D) (hp : car.Proper) (S : SolverNum K) (hS : SizedNum S) (v : K) :
    (∀ ax ay n f, 0 < n → ∃ s, solveNum car S v ax ay n none f = .ok s) ∧
    ∃ lat, maxLatNum car S v = .ok lat ∧
      (∀ ay, lat.ay < ay → maxLonNum car S v ay = .throw) ∧
      (∀ ay, ay ≤ lat.ay → lat.ay ≠ 0 → ∃ r, maxLonNum car S v ay = .ok r) ∧
      (∀ n, n ≠ 1 → lat.ay ≠ 0 → ∃ r, ggNum car S v n = .ok r) := by
  have hsolve := fun ax ay n f hn => solveNum_defined hp hS v ax ay n hn none (by simp) f
  obtain ⟨zero, hz⟩ := hsolve 0 0 1 true one_pos
  have hlat : ∃ lat, maxLatNum car S v = .ok lat := by
    obtain ⟨b, y, e1, e2⟩ := hS.2 (latProblem car (car.getX zero.inputs zero.controls v ++ [0, 0]) v (-2) 2 (-20) 20)
    have hy : y.length = car.nVars + 2 := e2.trans (by simp [latProblem, hp.getX])
    unfold maxLatNum
    rw [hz, Res.bind_ok, e1, Res.bind_ok]
    simp only [hy, if_true]
    exact ⟨_, rfl⟩
  obtain ⟨lat, hlat⟩ := hlat
  refine ⟨hsolve, lat, hlat, ?_, ?_, ?_⟩
  · intro ay hay
    unfold maxLonNum
    rw [hz, hlat]
    simp only [Res.bind_ok, if_pos hay]
  · intro ay hay hne
    unfold maxLonNum
    rw [hz, hlat]
    simp only [Res.bind_ok, if_neg (not_lt.2 hay), proportional, if_neg hne]
    obtain ⟨ss, hss⟩ := solveNum_defined hp hS v (lat.ax * ay / lat.ay) ay 1 one_pos
      (some (car.getX zero.inputs zero.controls v)) (by simp [hp.getX]) true
    rw [hss]
    simp only [Res.bind_ok]
    obtain ⟨r1, h1⟩ := lonNum_defined (car := car) hS .maxLast (car.getX ss.inputs ss.controls v ++ [ss.ax / car.units])
      (by simp [hp.getX]) v ay (-2) 10
    obtain ⟨r2, h2⟩ := lonNum_defined (car := car) hS .minLast (car.getX ss.inputs ss.controls v ++ [ss.ax / car.units])
      (by simp [hp.getX]) v ay (-10) 2
    rw [h1, h2]
    exact ⟨_, rfl⟩
  · intro n hn hne
    have hloop : ∀ (ays : List K) (ss : Solution K I C D),
        ∃ r, ggLoopNum car S v lat (car.getX zero.inputs zero.controls v) ss ays = .ok r := by
      intro ays
      induction ays with
      | nil => intro ss; exact ⟨_, rfl⟩
      | cons ay rest ih =>
        intro ss
        obtain ⟨cand, hc⟩ := solveNum_defined hp hS v (lat.ax * ay / lat.ay) ay 1 one_pos
          (some (car.getX zero.inputs zero.controls v)) (by simp [hp.getX]) false
        unfold ggLoopNum
        simp only [proportional, if_neg hne, Res.bind_ok, hc]
        generalize (if cand.solved then cand else ss) = s'
        obtain ⟨r1, h1⟩ := lonNum_defined (car := car) hS .maxLast (car.getX s'.inputs s'.controls v ++ [s'.ax])
          (by simp [hp.getX]) v ay (lat.ax - 1 / 2) 8
        obtain ⟨r2, h2⟩ := lonNum_defined (car := car) hS .minLast (car.getX s'.inputs s'.controls v ++ [s'.ax])
          (by simp [hp.getX]) v ay (-8) (lat.ax + 1 / 2)
        obtain ⟨r3, h3⟩ := ih s'
        rw [h1, h2, h3]
        exact ⟨_, rfl⟩
    unfold ggNum
    rw [hz, hlat]
    simp only [Res.bind_ok, if_neg hn]
    exact hloop _ _

/-- Solvers that meet the hypotheses: they stay where they start. -/
example : SizedNum (K := ℚ) ⟨fun _ p => .ok (false, p.x0), fun p => .ok (true, p.x0)⟩ :=
  ⟨fun _ _ => ⟨_, _, rfl, rfl⟩, fun _ => ⟨_, _, rfl, rfl⟩⟩

end

end Verif.Steady
