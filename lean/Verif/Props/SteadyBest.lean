import Verif.Props.SteadyRange

/-! Properties of the extreme accelerations with an optimiser that finds the optima (C208). -/

set_option autoImplicit false

namespace Verif.Steady

variable {K I C D : Type*}

section
variable [Field K] [LinearOrder K] [IsStrictOrderedRing K]

/-- The best point of a search of the longitudinal acceleration. -/
theorem lon_best {car : Car K I C D} {b : List K × List K} (hb : b.1.length = car.nVars ∧ b.2.length = car.nVars)
    (hu : 0 < car.units) {goal : Goal} {x0 : List K} {v ay l u : K} {y : List K}
    (hf : Feasible 0 (lonProblem car b goal x0 v (ay / car.units) l u) y)
    (hy : Best (lonProblem car b goal x0 v (ay / car.units) l u) y) (ax : K) (hl : l * car.units ≤ ax)
    (hx : ax ≤ u * car.units) (h : Holds car b v ax ay) :
    (goal = .maxLast → ax ≤ y.getD car.nVars 0 * car.units) ∧
    (goal = .minLast → y.getD car.nVars 0 * car.units ≤ ax) := by
  obtain ⟨x, w1, w2⟩ := h
  have hlen : x.length = car.nVars := by rw [← w1.1.length_eq, hb.1]
  have hfx : Feasible 0 (lonProblem car b goal x0 v (ay / car.units) l u) (x ++ [ax / car.units]) := by
    constructor
    · constructor
      · refine List.rel_append w1.1 ?_
        simp only [List.forall₂_cons, List.Forall₂.nil, and_true, sub_zero]
        exact (le_div_iff₀ hu).2 hl
      · refine List.rel_append w1.2 ?_
        simp only [List.forall₂_cons, List.Forall₂.nil, and_true, add_zero]
        exact (div_le_iff₀ hu).2 hx
    · have : (lonProblem car b goal x0 v (ay / car.units) l u).g (x ++ [ax / car.units])
          = (car.eqs x (ax / car.units) (ay / car.units) v).1 := by
        simp [lonProblem, ← hlen]
      rw [this]
      exact w2
  have hyl := (within_one hb.1 hb.2 hf.1).2.1
  have e1 : y.getLastD 0 = y.getD car.nVars 0 := by
    rw [List.getLastD_eq_getLast?, List.getLast?_eq_getElem?, hyl]
    simp [List.getD_eq_getElem?_getD]
  have e2 : (x ++ [ax / car.units]).getLastD 0 = ax / car.units := by
    rw [List.getLastD_eq_getLast?]; simp
  obtain ⟨m1, m2⟩ := hy _ hfx
  rw [e1, e2] at m1 m2
  exact ⟨fun hg => (div_le_iff₀ hu).1 (m1 hg), fun hg => (le_div_iff₀ hu).1 (m2 hg)⟩

/-- C208: with an optimiser that finds the optima, no steady state at the same speed and lateral acceleration has
more longitudinal acceleration than the maximum, among those between -2 and 10 m/s², nor less than
the minimum, among those up to 10 m/s² below that of the maximum lateral acceleration. -/
theorem C208_longitudinal (car : Car K I C D) (hp : car.Proper) (hu : 0 < car.units) (S : SolverAD K)
    (hS : Exact S) (v ay : K) (mx mn : Solution K I C D) (h : maxLonAD car S v ay = .ok (mx, mn)) :
    ∃ lat, maxLatAD car S v = .ok lat ∧
      (mx.solved = true → ∀ ax, -2 ≤ ax → ax ≤ 10 → Holds car car.boundsAcc v ax ay → ax ≤ mx.ax) ∧
      (mn.solved = true → ∀ ax, lat.ax - 10 ≤ ax → ax ≤ lat.ax → Holds car car.boundsBrake v ax ay → mn.ax ≤ ax) := by
  obtain ⟨lat, hlat, ⟨x0, l, u, x, e1, e2, e3, e4, _⟩, x0', l', x', f1, f2, f3⟩ :=
    C142_longitudinal_partial car hu S v ay mx mn h
  refine ⟨lat, hlat, fun hs ax a1 a2 ha => ?_, fun hs ax a1 a2 ha => ?_⟩
  · rw [hs] at e1
    rw [e2]
    refine (lon_best ⟨hp.a1, hp.a2⟩ hu (hS _ _ e1).1 (hS _ _ e1).2 ax ?_ ?_ ha).1 rfl
    · exact ((le_div_iff₀ hu).1 e3).trans a1
    · exact a2.trans ((div_le_iff₀ hu).1 e4)
  · rw [hs] at f1
    rw [f2]
    refine (lon_best ⟨hp.k1, hp.k2⟩ hu (hS _ _ f1).1 (hS _ _ f1).2 ax ?_ ?_ ha).2 rfl
    · exact ((le_div_iff₀ hu).1 f3).trans a1
    · rw [div_mul_cancel₀ _ hu.ne']; exact a2

/-- C208: the same of every point of the diagram but the last, among the accelerations from 0.5 m/s² below that of the
maximum lateral acceleration to 0.1 m/s² above the maximum on a straight, and from 0.1 m/s² below the minimum on a
straight to 0.1 m/s² above that of the maximum lateral acceleration. -/
theorem C208_diagram (car : Car K I C D) (hp : car.Proper) (hu : 0 < car.units) (S : SolverAD K)
    (hS : Exact S) (v : K) (n : Nat) (mx mn : List (Solution K I C D)) (h : ggAD car S v n = .ok (mx, mn)) :
    ∃ lat mx0 mn0, maxLatAD car S v = .ok lat ∧ maxLonAD car S v 0 = .ok (mx0, mn0) ∧
      ∀ (i : Nat) (a b : Solution K I C D), i + 1 < n → mx[i]? = some a → mn[i]? = some b →
        (a.solved = true → ∀ ax, lat.ax - 1 / 2 ≤ ax → ax ≤ mx0.ax + 1 / 10 → Holds car car.boundsAcc v ax a.ay →
          ax ≤ a.ax) ∧
        (b.solved = true → ∀ ax, mn0.ax - 1 / 10 ≤ ax → ax ≤ lat.ax + 1 / 10 → Holds car car.boundsBrake v ax b.ay →
          b.ax ≤ ax) := by
  obtain ⟨zero, lat, lon, r, h1, h2, h3, hn, h4, rfl, rfl⟩ := ggAD_parts h
  obtain ⟨l1, l2, l3⟩ := ggLoop_spec h4
  have hlen : ((Mesh.linspace lat.ay (n - 1)).take (n - 1)).length = n - 1 := by
    simp [Mesh.linspace]
  rw [hlen] at l1 l2
  refine ⟨lat, lon.1, lon.2, h2, h3, ?_⟩
  intro i a b hi ha hb
  obtain ⟨m, k, e1, e2, ss, prev, p, hpt, rfl, rfl⟩ := l3 i _ (ays_get lat.ay n i (by omega))
  rw [List.getElem?_append_left (by omega), e1] at ha
  rw [List.getElem?_append_left (by omega), e2] at hb
  obtain rfl := Option.some.inj ha
  obtain rfl := Option.some.inj hb
  unfold ggPoint at hpt
  obtain ⟨axSs, _, hpt⟩ := Res.bind_eq_ok.1 hpt
  obtain ⟨cand, _, hpt⟩ := Res.bind_eq_ok.1 hpt
  obtain ⟨e, he, hpt⟩ := Res.bind_eq_ok.1 hpt
  obtain rfl := Res.ok.inj hpt
  generalize (if cand.solved = true then cand else ss) = ss' at *
  unfold ggExtremes at he
  simp only at he
  split at he
  · obtain rfl := Res.ok.inj he
    have hne := hu.ne'
    constructor
    · intro hs ax a1 a2 hh
      have hex := hS _ _ (Prod.ext (show (ggRun car S car.boundsAcc .maxLast _ v _ _ _).1 = true from hs) rfl)
      refine (lon_best ⟨hp.a1, hp.a2⟩ hu hex.1 hex.2 ax ?_ ?_ hh).1 rfl
      · rw [← sub_div, div_mul_cancel₀ _ hne]; exact a1
      · rw [← add_div, div_mul_cancel₀ _ hne]; exact a2
    · intro hs ax a1 a2 hh
      have key : ∀ x0 : List K, ∀ y, y = ggRun car S car.boundsBrake .minLast x0 v
          (lat.ay * (i : K) / ((n - 1 : Nat) : K)) (lon.2.ax / car.units - 1 / 10 / car.units)
          (lat.ax / car.units + 1 / 10 / car.units) → y.1 = true → y.2.getD car.nVars 0 * car.units ≤ ax := by
        rintro x0 y rfl hy
        have hex := hS _ _ (Prod.ext hy rfl)
        refine (lon_best ⟨hp.k1, hp.k2⟩ hu hex.1 hex.2 ax ?_ ?_ hh).2 rfl
        · rw [← sub_div, div_mul_cancel₀ _ hne]; exact a1
        · rw [← add_div, div_mul_cancel₀ _ hne]; exact a2
      dsimp only [lonReport, report] at hs ⊢
      unfold ggMin at hs ⊢
      split at hs <;> exact key _ _ rfl hs
  · cases he

/-- C208 with numerical Jacobians, for vehicles whose unit of acceleration is 1 m/s² (the kart): the maximum
lateral acceleration is the largest among those between -20 and 20 m/s² with a longitudinal one between -2
and 2 m/s²; the longitudinal ones are the extremes between -2 and 10 m/s² and between -10 and 2 m/s²; those of the
diagram the extremes from 0.5 m/s² below that of the maximum lateral acceleration to 8 m/s², and from -8 m/s² to 0.5
m/s² above it. -/
theorem C208_numeric (car : Car K I C D) (hp : car.Proper) (hu : car.units = 1) (S : SolverNum K)
    (hS : ExactNum S) (v : K) :
    (∀ s, maxLatNum car S v = .ok s → s.solved = true → ∀ ax ay, -2 ≤ ax → ax ≤ 2 → -20 ≤ ay → ay ≤ 20 →
      Holds car car.bounds v ax ay → ay ≤ s.ay) ∧
    (∀ ay mx mn, maxLonNum car S v ay = .ok (mx, mn) →
      (mx.solved = true → ∀ ax, -2 ≤ ax → ax ≤ 10 → Holds car car.bounds v ax ay → ax ≤ mx.ax) ∧
      (mn.solved = true → ∀ ax, -10 ≤ ax → ax ≤ 2 → Holds car car.bounds v ax ay → mn.ax ≤ ax)) ∧
    (∀ n mx mn, ggNum car S v n = .ok (mx, mn) → ∃ lat, maxLatNum car S v = .ok lat ∧
      ∀ (i : Nat) (a b : Solution K I C D), mx[i]? = some a → mn[i]? = some b →
        (a.solved = true → ∀ ax, lat.ax - 1 / 2 ≤ ax → ax ≤ 8 → Holds car car.bounds v ax a.ay → ax ≤ a.ax) ∧
        (b.solved = true → ∀ ax, -8 ≤ ax → ax ≤ lat.ax + 1 / 2 → Holds car car.bounds v ax b.ay → b.ax ≤ ax)) := by
  have hpos : 0 < car.units := by rw [hu]; exact one_pos
  have hlon : ∀ goal x0 ay l u s, lonNum car S goal x0 v ay l u = .ok s → s.solved = true → ∀ ax, l ≤ ax → ax ≤ u →
      Holds car car.bounds v ax s.ay → (goal = .maxLast → ax ≤ s.ax) ∧ (goal = .minLast → s.ax ≤ ax) := by
    intro goal x0 ay l u s h hs ax h1 h2 hh
    unfold lonNum at h
    obtain ⟨r, hr, h⟩ := Res.bind_eq_ok.1 h
    split at h
    · obtain rfl := Res.ok.inj h
      have hex := hS _ r.2 (hr.trans (congrArg Res.ok (Prod.ext (show r.1 = true from hs) rfl)))
      have e : ay = ay / car.units := by rw [hu, div_one]
      rw [e] at hex
      have := lon_best ⟨hp.b1, hp.b2⟩ hpos hex.1 hex.2 ax (by rw [hu, mul_one]; exact h1) (by rw [hu, mul_one]; exact h2) hh
      rw [hu, mul_one] at this
      exact this
    · cases h
  refine ⟨?_, ?_, ?_⟩
  · intro s h hs ax ay h1 h2 h3 h4 hh
    unfold maxLatNum at h
    obtain ⟨z, _, h⟩ := Res.bind_eq_ok.1 h
    obtain ⟨r, hr, h⟩ := Res.bind_eq_ok.1 h
    split at h
    · rename_i hlen
      obtain rfl := Res.ok.inj h
      have hex := hS _ r.2 (hr.trans (congrArg Res.ok (Prod.ext (show r.1 = true from hs) rfl)))
      obtain ⟨x, w1, w2⟩ := hh
      rw [hu, div_one, div_one] at w2
      have hxl : x.length = car.nVars := by rw [← w1.1.length_eq, hp.b1]
      have hf : Feasible 0 (latProblem car (car.getX z.inputs z.controls v ++ [0, 0]) v (-2) 2 (-20) 20)
          (x ++ [ax, ay]) := by
        constructor
        · constructor
          · refine List.rel_append w1.1 ?_
            simp only [List.forall₂_cons, List.Forall₂.nil, and_true, sub_zero]
            exact ⟨h1, h3⟩
          · refine List.rel_append w1.2 ?_
            simp only [List.forall₂_cons, List.Forall₂.nil, and_true, add_zero]
            exact ⟨h2, h4⟩
        · have : (latProblem car (car.getX z.inputs z.controls v ++ [0, 0]) v (-2) 2 (-20) 20).g (x ++ [ax, ay])
              = (car.eqs x ax ay v).1 := by
            simp [latProblem, ← hxl]
          rw [this]
          exact w2
      have := (hex.2 _ hf).1 rfl
      have e1 : r.2.getLastD 0 = r.2.getD (car.nVars + 1) 0 := by
        rw [List.getLastD_eq_getLast?, List.getLast?_eq_getElem?, hlen]
        simp [List.getD_eq_getElem?_getD]
      have e2 : (x ++ [ax, ay]).getLastD 0 = ay := by
        rw [List.getLastD_eq_getLast?]; simp
      rw [e1, e2] at this
      exact this
    · cases h
  · intro ay mx mn h
    have hay := fun (goal : Goal) (x0 : List K) (l u : K) (s : Solution K I C D)
      (h : lonNum car S goal x0 v ay l u = .ok s) => show s.ay = ay by
        unfold lonNum at h
        obtain ⟨r, _, h⟩ := Res.bind_eq_ok.1 h
        split at h
        · obtain rfl := Res.ok.inj h; rfl
        · cases h
    unfold maxLonNum at h
    obtain ⟨z, _, h⟩ := Res.bind_eq_ok.1 h
    obtain ⟨lat, _, h⟩ := Res.bind_eq_ok.1 h
    split at h
    · cases h
    obtain ⟨axSs, _, h⟩ := Res.bind_eq_ok.1 h
    obtain ⟨ss, _, h⟩ := Res.bind_eq_ok.1 h
    obtain ⟨r1, hr1, h⟩ := Res.bind_eq_ok.1 h
    obtain ⟨r2, hr2, h⟩ := Res.bind_eq_ok.1 h
    obtain ⟨rfl, rfl⟩ := Prod.mk.inj (Res.ok.inj h)
    exact ⟨fun hs ax h1 h2 hh => (hlon _ _ _ _ _ _ hr1 hs ax h1 h2 (by rw [hay _ _ _ _ _ hr1]; exact hh)).1 rfl,
      fun hs ax h1 h2 hh => (hlon _ _ _ _ _ _ hr2 hs ax h1 h2 (by rw [hay _ _ _ _ _ hr2]; exact hh)).2 rfl⟩
  · intro n mx mn h
    unfold ggNum at h
    obtain ⟨z, _, h⟩ := Res.bind_eq_ok.1 h
    obtain ⟨lat, hlat, h⟩ := Res.bind_eq_ok.1 h
    split at h
    · cases h
    refine ⟨lat, hlat, ?_⟩
    have hloop : ∀ (ays : List K) (ss : Solution K I C D) (x0ss : List K)
        (r : List (Solution K I C D) × List (Solution K I C D)),
        ggLoopNum car S v lat x0ss ss ays = .ok r →
        ∀ (i : Nat) (a b : Solution K I C D), r.1[i]? = some a → r.2[i]? = some b →
          (a.solved = true → ∀ ax, lat.ax - 1 / 2 ≤ ax → ax ≤ 8 → Holds car car.bounds v ax a.ay → ax ≤ a.ax) ∧
          (b.solved = true → ∀ ax, -8 ≤ ax → ax ≤ lat.ax + 1 / 2 → Holds car car.bounds v ax b.ay → b.ax ≤ ax) := by
      intro ays
      induction ays with
      | nil =>
        intro ss x0ss r h i a b ha
        obtain rfl := Res.ok.inj h
        simp at ha
      | cons ay rest ih =>
        intro ss x0ss r h i a b ha hb
        unfold ggLoopNum at h
        obtain ⟨_, _, h⟩ := Res.bind_eq_ok.1 h
        obtain ⟨cand, _, h⟩ := Res.bind_eq_ok.1 h
        obtain ⟨m1, hm1, h⟩ := Res.bind_eq_ok.1 h
        obtain ⟨m2, hm2, h⟩ := Res.bind_eq_ok.1 h
        obtain ⟨q, hq, h⟩ := Res.bind_eq_ok.1 h
        obtain rfl := Res.ok.inj h
        cases i with
        | zero =>
          obtain rfl : m1 = a := by simpa using ha
          obtain rfl : m2 = b := by simpa using hb
          exact ⟨fun hs ax h1 h2 hh => (hlon _ _ _ _ _ _ hm1 hs ax h1 h2 hh).1 rfl,
            fun hs ax h1 h2 hh => (hlon _ _ _ _ _ _ hm2 hs ax h1 h2 hh).2 rfl⟩
        | succ i => exact ih _ _ _ hq i a b (by simpa using ha) (by simpa using hb)
    exact hloop _ _ _ _ h

end

/-! ### The limits of the small vehicle -/

/-- The best points of the small vehicle with a unit of 1 m/s². -/
def toyLimits (p : Nlp ℚ) : List ℚ :=
  match p.goal, p.xl.length with
  | .none, _ => [(p.g [0]).headD 0]
  | .maxLast, 3 => [0, 0, min (p.xu.getLastD 0) 5]
  | .maxLast, _ => [min (p.xu.getLastD 0) 3, min (p.xu.getLastD 0) 3]
  | .minLast, _ => [max (p.xl.getLastD 0) (-3), max (p.xl.getLastD 0) (-3)]

open Classical in
/-- A solver that proposes these points and says truthfully whether they are best. -/
noncomputable def truthful : SolverAD ℚ := fun p =>
  if Best p (toyLimits p) then proposes toyLimits p else (false, toyLimits p)

theorem truthful_exact : Exact truthful := by
  intro p x h
  unfold truthful at h
  split at h
  · rename_i hb
    obtain rfl := (Prod.mk.inj h).2
    exact ⟨proposes_accurate _ _ _ h, hb⟩
  · cases (Prod.mk.inj h).1

theorem truthful_trim (x0 : List ℚ) (v ax ay : ℚ) :
    truthful (trimProblem (toy 1) x0 v ax ay) = proposes toyLimits (trimProblem (toy 1) x0 v ax ay) :=
  if_pos fun _ _ => ⟨fun h => by simp [trimProblem] at h, fun h => by simp [trimProblem] at h⟩

theorem truthful_lat (x0 : List ℚ) (v lx ux ly uy : ℚ) :
    truthful (latProblem (toy 1) x0 v lx ux ly uy) = proposes toyLimits (latProblem (toy 1) x0 v lx ux ly uy) := by
  refine if_pos fun y hy => ⟨fun _ => ?_, fun h => by simp [latProblem] at h⟩
  obtain ⟨⟨_, hy1⟩, ⟨_, hy2⟩⟩ := hy
  have hyl := hy1.length_eq
  simp only [latProblem, toy, List.cons_append, List.nil_append, List.length_cons, List.length_nil] at hyl
  match y, hyl with
  | [f, ax, ay], _ =>
    simp only [latProblem, toy, List.cons_append, List.nil_append, List.forall₂_cons, List.Forall₂.nil, and_true] at hy1 hy2
    have h1 := hy1.2.2
    have h2 := hy2.2
    simp at h1 h2
    simpa [toyLimits, latProblem, toy] using ⟨h1, h2⟩

theorem truthful_lon (goal : Goal) (x0 : List ℚ) (v ay l u : ℚ) :
    truthful (lonProblem (toy 1) ([-3], [3]) goal x0 v ay l u) =
      proposes toyLimits (lonProblem (toy 1) ([-3], [3]) goal x0 v ay l u) := by
  refine if_pos fun y hy => ?_
  obtain ⟨⟨hy0, hy1⟩, ⟨hy3, hy2⟩⟩ := hy
  have hyl := hy1.length_eq
  simp only [lonProblem, List.cons_append, List.nil_append, List.length_cons, List.length_nil] at hyl
  match y, hyl with
  | [f, ax], _ =>
    simp only [lonProblem, toy, List.cons_append, List.nil_append, List.forall₂_cons, List.Forall₂.nil, and_true] at hy0 hy1 hy2 hy3
    obtain ⟨a1, a2⟩ := hy0
    obtain ⟨b1, b2⟩ := hy1
    have h2 := hy2.1
    have h3 := hy3.1
    simp at a1 a2 b1 b2 h2 h3
    constructor <;> intro hg <;> replace hg : goal = _ := hg <;> subst hg
    · simpa [toyLimits, lonProblem] using ⟨b2, by linarith⟩
    · simpa [toyLimits, lonProblem] using ⟨a2, by linarith⟩

/-- The hypotheses of `C208_longitudinal` and `C208_diagram`: the extremes and the diagram of the small vehicle. -/
example : Exact truthful ∧ (toy 1).Proper ∧
    maxLonAD (toy 1) truthful 10 4 = .ok (⟨true, 10, 3, 4, [3], (), [3]⟩, ⟨true, 10, -3, 4, [-3], (), [-3]⟩) ∧
    ggAD (toy 1) truthful 10 3 = .ok
      ([⟨true, 10, 3, 0, [3], (), [3]⟩, ⟨true, 10, 3, 5 / 2, [3], (), [3]⟩, ⟨true, 10, 0, 5, [0], (), [0]⟩],
       [⟨true, 10, -3, 0, [-3], (), [-3]⟩, ⟨true, 10, -3, 5 / 2, [-3], (), [-3]⟩, ⟨true, 10, 0, 5, [0], (), [0]⟩]) := by
  have hb : (toy 1).boundsAcc = ([-3], [3]) ∧ (toy 1).boundsBrake = ([-3], [3]) := ⟨rfl, rfl⟩
  have e1 (v ax ay : ℚ) (x0) : solveAD (toy 1) truthful v ax ay x0 = solveAD (toy 1) (proposes toyLimits) v ax ay x0 := by
    simp only [solveAD, truthful_trim]
  have e2 (v : ℚ) : maxLatAD (toy 1) truthful v = maxLatAD (toy 1) (proposes toyLimits) v := by
    simp only [maxLatAD, e1, truthful_lat]
  have e3 (v ay : ℚ) : maxLonAD (toy 1) truthful v ay = maxLonAD (toy 1) (proposes toyLimits) v ay := by
    simp only [maxLonAD, e1, e2, hb, truthful_lon]
  have e4 (v : ℚ) (lat mx0 mn0 : Solution ℚ (List ℚ) Unit (List ℚ)) (x0ss : List ℚ) : ∀ (ays : List ℚ) ss prev,
      ggLoop (toy 1) truthful v lat mx0 mn0 x0ss ss prev ays =
        ggLoop (toy 1) (proposes toyLimits) v lat mx0 mn0 x0ss ss prev ays := by
    intro ays
    induction ays with
    | nil => intro ss prev; rfl
    | cons a rest ih => intro ss prev; simp only [ggLoop, ggPoint, ggExtremes, ggMin, ggRun, e1, hb, truthful_lon, ih]
  refine ⟨truthful_exact, toy_proper 1, ?_, ?_⟩
  · rw [e3]; decide +kernel
  · simp only [ggAD, e1, e2, e3, e4]; decide +kernel

/-- Those of `C208_numeric`. -/
example : ExactNum ⟨fun _ p => .ok (truthful p), fun p => .ok (truthful p)⟩ ∧
    maxLonNum (toy 1) ⟨fun _ p => .ok (truthful p), fun p => .ok (truthful p)⟩ 10 4 =
      .ok (⟨true, 10, 3, 4, [3], (), [3]⟩, ⟨true, 10, -3, 4, [-3], (), [-3]⟩) := by
  refine ⟨fun p x h => truthful_exact p x (Res.ok.inj h), ?_⟩
  have hb : (toy 1).bounds = ([-3], [3]) := rfl
  have e1 (v ax ay : ℚ) (x0 f) : solveNum (toy 1) ⟨fun _ p => .ok (truthful p), fun p => .ok (truthful p)⟩ v ax ay 1 x0 f =
      solveNum (toy 1) ⟨fun _ p => .ok (proposes toyLimits p), fun p => .ok (proposes toyLimits p)⟩ v ax ay 1 x0 f := by
    simp only [solveNum, List.range_succ, List.range_zero, List.nil_append, List.map_cons, List.map_nil, continuation,
      truthful_trim]
  have e2 : maxLonNum (toy 1) ⟨fun _ p => .ok (truthful p), fun p => .ok (truthful p)⟩ 10 4 =
      maxLonNum (toy 1) ⟨fun _ p => .ok (proposes toyLimits p), fun p => .ok (proposes toyLimits p)⟩ 10 4 := by
    simp only [maxLonNum, maxLatNum, lonNum, e1, truthful_lat, hb, truthful_lon]
  rw [e2]
  decide +kernel

end Verif.Steady
