import Verif.Lemmas.SteadyState
import Mathlib.Tactic.NormNum
import Mathlib.Tactic.Positivity

/-! # Properties of steady states and of the g-g diagram -/

set_option autoImplicit false

namespace Verif.Steady

variable {K I C D : Type*}

/-! ## C140: a reported solution is a steady state -/

section
variable [Field K] [LinearOrder K]

theorem report_steady {tol : K} {car : Car K I C D} {b : List K × List K} {solved : Bool} {x : List K}
    {eax eay v ax ay : K} (hb : Within tol b.1 x b.2)
    (hc : Within tol car.cBounds.1 (car.eqs x eax eay v).1 car.cBounds.2)
    (h1 : eax = ax / car.units) (h2 : eay = ay / car.units) :
    IsSteady tol car b (report car solved x eax eay v ax ay) :=
  ⟨x, (car.eqs x eax eay v).1, hb, by subst h1 h2; rfl, hc, rfl⟩

/-- C140. A solution of `solve` with automatic differentiation reported as solved is a steady state at
the requested speed and accelerations. -/
theorem C140_solve (tol : K) (car : Car K I C D) (S : SolverAD K) (hS : Accurate tol S) (v ax ay : K)
    (x0 : Option (List K)) (s : Solution K I C D) (h : solveAD car S v ax ay x0 = .ok s) :
    s.v = v ∧ s.ax = ax ∧ s.ay = ay ∧ (s.solved = true → IsSteady tol car car.bounds s) := by
  unfold solveAD at h
  obtain ⟨x, _, h⟩ := Res.bind_eq_ok.1 h
  simp only at h
  split at h
  · obtain rfl := Res.ok.inj h
    refine ⟨rfl, rfl, rfl, fun hs => ?_⟩
    have hf := hS _ _ (Prod.ext hs rfl)
    exact report_steady hf.1 hf.2 rfl rfl
  · cases h

/-- C140. The same of the maximum lateral acceleration. -/
theorem C140_lateral (tol : K) (car : Car K I C D) (hp : car.Proper) (hu : car.units ≠ 0)
    (S : SolverAD K) (hS : Accurate tol S) (v : K) (s : Solution K I C D)
    (h : maxLatAD car S v = .ok s) :
    s.v = v ∧ (s.solved = true → IsSteady tol car car.bounds s) := by
  unfold maxLatAD at h
  obtain ⟨z, _, h⟩ := Res.bind_eq_ok.1 h
  obtain ⟨r, hr, h⟩ := Res.bind_eq_ok.1 h
  obtain rfl := Res.ok.inj h
  refine ⟨rfl, fun hs => ?_⟩
  obtain ⟨_, hrun, _⟩ := attempts_spec hr
  have hf := hS _ _ ((Prod.ext hs rfl : r.1 = (true, r.1.2)) ▸ hrun.symm)
  have hw := within_two hp.b1 hp.b2 hf.1
  exact report_steady hw.1 hf.2 (mul_div_cancel_right₀ _ hu).symm (mul_div_cancel_right₀ _ hu).symm

theorem lonReport_steady {tol : K} {car : Car K I C D} (hu : car.units ≠ 0) {b : List K × List K}
    (h1 : b.1.length = car.nVars) (h2 : b.2.length = car.nVars) {S : SolverAD K} (hS : Accurate tol S)
    {goal : Goal} {x0 : List K} {v ay l u : K} {r : Bool × List K}
    (hr : r = S (lonProblem car b goal x0 v (ay / car.units) l u))
    (hs : (lonReport car r v ay).solved = true) :
    IsSteady tol car b (lonReport car r v ay) ∧
      l - tol ≤ (lonReport car r v ay).ax / car.units ∧
      (lonReport car r v ay).ax / car.units ≤ u + tol := by
  have hf := hS _ _ ((Prod.ext hs rfl : r = (true, r.2)) ▸ hr.symm)
  have hw := within_one h1 h2 hf.1
  refine ⟨report_steady hw.1 hf.2 (mul_div_cancel_right₀ _ hu).symm rfl, ?_⟩
  have : (lonReport car r v ay).ax / car.units = r.2.getD car.nVars 0 :=
    mul_div_cancel_right₀ _ hu
  rw [this]
  exact hw.2.2

/-- C140. The same of the maximum and minimum longitudinal accelerations, at the requested lateral
acceleration. -/
theorem C140_longitudinal (tol : K) (car : Car K I C D) (hp : car.Proper) (hu : car.units ≠ 0)
    (S : SolverAD K) (hS : Accurate tol S) (v ay : K) (mx mn : Solution K I C D)
    (h : maxLonAD car S v ay = .ok (mx, mn)) :
    mx.v = v ∧ mx.ay = ay ∧ mn.v = v ∧ mn.ay = ay ∧
      (mx.solved = true → IsSteady tol car car.boundsAcc mx) ∧
      (mn.solved = true → IsSteady tol car car.boundsBrake mn) := by
  unfold maxLonAD at h
  obtain ⟨z, _, h⟩ := Res.bind_eq_ok.1 h
  obtain ⟨lat, _, h⟩ := Res.bind_eq_ok.1 h
  split at h
  · cases h
  obtain ⟨axSs, _, h⟩ := Res.bind_eq_ok.1 h
  obtain ⟨ss, _, h⟩ := Res.bind_eq_ok.1 h
  obtain ⟨r1, hr1, h⟩ := Res.bind_eq_ok.1 h
  obtain ⟨r2, hr2, h⟩ := Res.bind_eq_ok.1 h
  obtain ⟨rfl, rfl⟩ := Prod.mk.inj (Res.ok.inj h)
  obtain ⟨_, e1, _⟩ := attempts_spec hr1
  obtain ⟨_, e2, _⟩ := attempts_spec hr2
  exact ⟨rfl, rfl, rfl, rfl, fun hs => (lonReport_steady hu hp.a1 hp.a2 hS e1 hs).1,
    fun hs => (lonReport_steady hu hp.k1 hp.k2 hS e2 hs).1⟩

/-- C140, the part that holds with numerical Jacobians: for vehicles whose unit of acceleration is
1 m/s² (`lot2016kart`), whatever the number of steps. -/
theorem C140_numeric_partial (tol : K) (car : Car K I C D) (hp : car.Proper) (hu : car.units = 1)
    (S : SolverNum K) (hS : AccurateNum tol S) [CharZero K] (v : K) :
    (∀ ax ay n x0 f s, solveNum car S v ax ay n x0 f = .ok s →
      s.v = v ∧ s.ax = ax ∧ s.ay = ay ∧ (s.solved = true → IsSteady tol car car.bounds s)) ∧
    (∀ s, maxLatNum car S v = .ok s →
      s.v = v ∧ (s.solved = true → IsSteady tol car car.bounds s)) ∧
    (∀ ay mx mn, maxLonNum car S v ay = .ok (mx, mn) →
      (mx.v = v ∧ mx.ay = ay ∧ (mx.solved = true → IsSteady tol car car.bounds mx)) ∧
      (mn.v = v ∧ mn.ay = ay ∧ (mn.solved = true → IsSteady tol car car.bounds mn))) ∧
    (∀ n mx mn, ggNum car S v n = .ok (mx, mn) → ∃ lat, maxLatNum car S v = .ok lat ∧
      mx.length = n ∧ mn.length = n ∧
      ∀ (i : Nat) (a b : Solution K I C D), mx[i]? = some a → mn[i]? = some b →
        a.v = v ∧ b.v = v ∧ a.ay = lat.ay * (i : K) / ((n - 1 : Nat) : K) ∧ b.ay = a.ay ∧
        (a.solved = true → IsSteady tol car car.bounds a) ∧
        (b.solved = true → IsSteady tol car car.bounds b)) := by
  have hone : ∀ a : K, a = a / car.units := fun a => by rw [hu, div_one]
  have hlast : ∀ f ax ay (n : Nat) (is : List Nat) (x0 : List K) (r : Bool × List K),
      is.getLast? = some n → n ≠ 0 → continuation car S f v ax ay n is x0 = .ok r → r.1 = true →
      Within tol car.bounds.1 r.2 car.bounds.2 ∧
        Within tol car.cBounds.1 (car.eqs r.2 ax ay v).1 car.cBounds.2 := by
    intro f ax ay n is
    induction is with
    | nil => intro x0 r h _; simp at h
    | cons i is ih =>
      intro x0 r hl hn h hs
      cases is with
      | nil =>
        obtain rfl : i = n := by simpa using hl
        have hnn : (i : K) ≠ 0 := by exact_mod_cast hn
        unfold continuation at h
        rw [div_self hnn, one_mul, one_mul] at h
        have := hS.1 _ _ r.2 (h.trans (by rw [← hs]))
        exact this
      | cons j js =>
        unfold continuation at h
        obtain ⟨q, _, h⟩ := Res.bind_eq_ok.1 h
        exact ih q.2 r (by simpa using hl) hn h hs
  have hsolve : ∀ ax ay n x0 f s, solveNum car S v ax ay n x0 f = .ok s →
      s.v = v ∧ s.ax = ax ∧ s.ay = ay ∧ (s.solved = true → IsSteady tol car car.bounds s) := by
    intro ax ay n x0 f s h
    unfold solveNum at h
    obtain ⟨x, _, h⟩ := Res.bind_eq_ok.1 h
    obtain ⟨r, hr, h⟩ := Res.bind_eq_ok.1 h
    split at h
    · obtain rfl := Res.ok.inj h
      refine ⟨rfl, rfl, rfl, fun hs => ?_⟩
      cases n with
      | zero => simp [continuation] at hr
      | succ n =>
        obtain ⟨h1, h2⟩ := hlast f ax ay (n + 1) _ x r (by simp [List.getLast?_range]) (by omega) hr hs
        exact report_steady h1 h2 (hone _) (hone _)
    · cases h
  have hlon : ∀ goal x0 ay l u s, lonNum car S goal x0 v ay l u = .ok s →
      s.v = v ∧ s.ay = ay ∧ (s.solved = true → IsSteady tol car car.bounds s) := by
    intro goal x0 ay l u s h
    unfold lonNum at h
    obtain ⟨r, hr, h⟩ := Res.bind_eq_ok.1 h
    split at h
    · obtain rfl := Res.ok.inj h
      refine ⟨rfl, rfl, fun hs => ?_⟩
      have hf := hS.2 _ r.2 (hr.trans (congrArg Res.ok (Prod.ext (show r.1 = true from hs) rfl)))
      have hw := within_one hp.b1 hp.b2 hf.1
      exact report_steady hw.1 hf.2 (hone _) (hone _)
    · cases h
  refine ⟨hsolve, ?_, ?_, ?_⟩
  · intro s h
    unfold maxLatNum at h
    obtain ⟨z, _, h⟩ := Res.bind_eq_ok.1 h
    obtain ⟨r, hr, h⟩ := Res.bind_eq_ok.1 h
    split at h
    · obtain rfl := Res.ok.inj h
      refine ⟨rfl, fun hs => ?_⟩
      have hf := hS.2 _ r.2 (hr.trans (congrArg Res.ok (Prod.ext (show r.1 = true from hs) rfl)))
      have hw := within_two hp.b1 hp.b2 hf.1
      exact report_steady hw.1 hf.2 (hone _) (hone _)
    · cases h
  · intro ay mx mn h
    unfold maxLonNum at h
    obtain ⟨z, _, h⟩ := Res.bind_eq_ok.1 h
    obtain ⟨lat, _, h⟩ := Res.bind_eq_ok.1 h
    split at h
    · cases h
    obtain ⟨axSs, _, h⟩ := Res.bind_eq_ok.1 h
    obtain ⟨ss, _, h⟩ := Res.bind_eq_ok.1 h
    obtain ⟨r1, hr1, h⟩ := Res.bind_eq_ok.1 h
    obtain ⟨r2, hr2, h⟩ := Res.bind_eq_ok.1 h
    obtain ⟨rfl, rfl⟩ := Prod.mk.inj (Res.ok.inj h)
    exact ⟨hlon _ _ _ _ _ _ hr1, hlon _ _ _ _ _ _ hr2⟩
  · intro n mx mn h
    unfold ggNum at h
    obtain ⟨z, _, h⟩ := Res.bind_eq_ok.1 h
    obtain ⟨lat, hlat, h⟩ := Res.bind_eq_ok.1 h
    split at h
    · cases h
    rename_i hn1
    have hloop : ∀ (ays : List K) (ss : Solution K I C D) (x0ss : List K)
        (r : List (Solution K I C D) × List (Solution K I C D)),
        ggLoopNum car S v lat x0ss ss ays = .ok r →
        r.1.length = ays.length ∧ r.2.length = ays.length ∧
        ∀ (i : Nat) (a : K) (m k : Solution K I C D), ays[i]? = some a → r.1[i]? = some m →
          r.2[i]? = some k →
          (m.v = v ∧ m.ay = a ∧ (m.solved = true → IsSteady tol car car.bounds m)) ∧
          (k.v = v ∧ k.ay = a ∧ (k.solved = true → IsSteady tol car car.bounds k)) := by
      intro ays
      induction ays with
      | nil =>
        intro ss x0ss r h
        obtain rfl := Res.ok.inj h
        exact ⟨rfl, rfl, fun i a m k h => by simp at h⟩
      | cons ay rest ih =>
        intro ss x0ss r h
        unfold ggLoopNum at h
        obtain ⟨_, _, h⟩ := Res.bind_eq_ok.1 h
        obtain ⟨cand, _, h⟩ := Res.bind_eq_ok.1 h
        obtain ⟨m1, hm1, h⟩ := Res.bind_eq_ok.1 h
        obtain ⟨m2, hm2, h⟩ := Res.bind_eq_ok.1 h
        obtain ⟨q, hq, h⟩ := Res.bind_eq_ok.1 h
        obtain rfl := Res.ok.inj h
        obtain ⟨i1, i2, i3⟩ := ih _ _ _ hq
        refine ⟨by simp [i1], by simp [i2], fun i a m k ha hm hk => ?_⟩
        cases i with
        | zero =>
          obtain rfl : ay = a := by simpa using ha
          obtain rfl : m1 = m := by simpa using hm
          obtain rfl : m2 = k := by simpa using hk
          exact ⟨hlon _ _ _ _ _ _ hm1, hlon _ _ _ _ _ _ hm2⟩
        | succ i => exact i3 i a m k (by simpa using ha) (by simpa using hm) (by simpa using hk)
    obtain ⟨l1, l2, l3⟩ := hloop _ _ _ _ h
    have hlen : (if n = 0 then [] else Mesh.linspace lat.ay (n - 1)).length = n := by
      split
      · simp [*]
      · simp [Mesh.linspace]; omega
    rw [hlen] at l1 l2
    refine ⟨lat, hlat, l1, l2, fun i a b ha hb => ?_⟩
    have hi : i < n := by rw [← l1]; exact (List.getElem?_eq_some_iff.1 ha).1
    have hay : (if n = 0 then [] else Mesh.linspace lat.ay (n - 1))[i]?
        = some (lat.ay * (i : K) / ((n - 1 : Nat) : K)) := by
      rw [if_neg (by omega), Mesh.linspace, List.getElem?_map, List.getElem?_range (by omega)]
      rfl
    obtain ⟨c1, c2⟩ := l3 i _ a b hay ha hb
    exact ⟨c1.1, c2.1, c1.2.1, by rw [c1.2.1, c2.2.1], c1.2.2, c2.2.2⟩

omit [LinearOrder K] in
/-- C140. With no steps, `solve` with numerical Jacobian is undefined. -/
theorem C140_no_steps (car : Car K I C D) (S : SolverNum K) (v ax ay : K) (f : Bool) :
    solveNum car S v ax ay 0 none f = .ub := rfl

end

/-! ### A small vehicle -/

/-- A vehicle that accelerates with the force of its only variable, at most 3 in both directions, and
holds lateral accelerations up to 5; its unit of acceleration is `u`. -/
def toy (u : ℚ) : Car ℚ (List ℚ) Unit (List ℚ) where
  nVars := 1
  eqs x ax ay _ := ([ax * u - x.headD 0, ay * u], x, ())
  rate i _ := i
  getX i _ _ := (i.take 1).rightpad 1 0
  guess := [0]
  bounds := ([-3], [3])
  boundsAcc := ([-3], [3])
  boundsBrake := ([-3], [3])
  cBounds := ([0, -5], [0, 5])
  units := u

theorem toy_proper (u : ℚ) : (toy u).Proper := by
  constructor <;> intros <;> simp [toy]

instance (tol : ℚ) (lo x hi : List ℚ) : Decidable (Within tol lo x hi) := by
  unfold Within; infer_instance

instance (tol : ℚ) (p : Nlp ℚ) (x : List ℚ) : Decidable (Feasible tol p x) := by
  unfold Feasible; infer_instance

/-- A solver that proposes a point and says truthfully whether it satisfies the problem. -/
def proposes (f : Nlp ℚ → List ℚ) : SolverAD ℚ := fun p => (decide (Feasible 0 p (f p)), f p)

theorem proposes_accurate (f : Nlp ℚ → List ℚ) : Accurate 0 (proposes f) := by
  intro p x h
  obtain ⟨h1, h2⟩ := Prod.mk.inj h
  subst h2
  exact of_decide_eq_true h1

/-- The best points of the small vehicle: the force that balances the equations, the largest lateral
acceleration, the largest and smallest longitudinal accelerations. -/
def toyBest (u : ℚ) (p : Nlp ℚ) : List ℚ :=
  match p.goal, p.x0.length with
  | .none, _ => [(p.g [0]).headD 0]
  | .maxLast, 3 => [0, 0, min (p.xu.getLastD 0) (5 / u)]
  | .maxLast, _ => [min (p.xu.getLastD 0) (3 / u) * u, min (p.xu.getLastD 0) (3 / u)]
  | .minLast, _ => [max (p.xl.getLastD 0) (-3 / u) * u, max (p.xl.getLastD 0) (-3 / u)]

/-- The same with the interface of the numerical solvers. -/
def toyNum (u : ℚ) : SolverNum ℚ where
  find _ p := .ok (proposes (toyBest u) p)
  optimise p := .ok (proposes (toyBest u) p)

theorem toyNum_accurate (u : ℚ) : AccurateNum 0 (toyNum u) :=
  ⟨fun _ p x h => proposes_accurate _ p x (Res.ok.inj h),
    fun p x h => proposes_accurate _ p x (Res.ok.inj h)⟩

/-- With automatic differentiation the accelerations are those of the vehicle, in any unit. -/
example : solveAD (toy 2) (proposes (toyBest 2)) 10 1 4 none = .ok ⟨true, 10, 1, 4, [1], (), [1]⟩ ∧
    maxLatAD (toy 2) (proposes (toyBest 2)) 10 = .ok ⟨true, 10, 0, 5, [0], (), [0]⟩ ∧
    maxLonAD (toy 2) (proposes (toyBest 2)) 10 1
      = .ok (⟨true, 10, 3, 1, [3], (), [3]⟩, ⟨true, 10, -3, 1, [-3], (), [-3]⟩) := by
  decide +kernel

example : ggAD (toy 2) (proposes (toyBest 2)) 10 3
    = .ok ([⟨true, 10, 3, 0, [3], (), [3]⟩, ⟨true, 10, 3, 5 / 2, [3], (), [3]⟩,
        ⟨true, 10, 0, 5, [0], (), [0]⟩],
      [⟨true, 10, -3, 0, [-3], (), [-3]⟩, ⟨true, 10, -3, 5 / 2, [-3], (), [-3]⟩,
        ⟨true, 10, 0, 5, [0], (), [0]⟩]) := by
  decide +kernel

example : solveNum (toy 1) (toyNum 1) 10 1 4 5 none true = .ok ⟨true, 10, 1, 4, [1], (), [1]⟩ := by
  decide +kernel

/-- C140 is false with numerical Jacobians and another unit of acceleration (`limebeer2014f1`): asked for
1 m/s², `solve` reports a solution with 1 m/s², which is in fact one with one unit (2 m/s²). -/
theorem C140_false : ∃ s, solveNum (toy 2) (toyNum 2) 10 1 0 1 none true = .ok s ∧ s.solved = true ∧
    s.ax = 1 ∧ s.rate = [2] ∧ ¬ IsSteady 0 (toy 2) (toy 2).bounds s := by
  refine ⟨⟨true, 10, 1, 0, [2], (), [2]⟩, by decide +kernel, rfl, rfl, rfl, ?_⟩
  rintro ⟨x, c, _, h2, h3, _⟩
  simp only [toy, Prod.mk.injEq] at h2 h3
  obtain ⟨rfl, rfl, _⟩ := h2
  simp [Within] at h3

/-! ## C141: the g-g diagram -/

section
variable [Field K] [LinearOrder K]

/-- What is known of a point of the diagram. -/
theorem ggPoint_spec {tol : K} {car : Car K I C D} (hp : car.Proper) (hu : car.units ≠ 0)
    {S : SolverAD K} (hS : Accurate tol S) {v : K} {lat mx0 mn0 ss : Solution K I C D} {x0ss : List K}
    {prev : Option (Solution K I C D)} {ay : K}
    {p : Solution K I C D × Solution K I C D × Solution K I C D}
    (h : ggPoint car S v lat mx0 mn0 x0ss ss prev ay = .ok p) :
    p.2.1.v = v ∧ p.2.1.ay = ay ∧ p.2.2.v = v ∧ p.2.2.ay = ay ∧
    (p.2.1.solved = true → IsSteady tol car car.boundsAcc p.2.1 ∧
      (lat.ax / car.units - 1 / 2 / car.units) - tol ≤ p.2.1.ax / car.units ∧
      p.2.1.ax / car.units ≤ mx0.ax / car.units + 1 / 10 / car.units + tol) ∧
    (p.2.2.solved = true → IsSteady tol car car.boundsBrake p.2.2 ∧
      (mn0.ax / car.units - 1 / 10 / car.units) - tol ≤ p.2.2.ax / car.units ∧
      p.2.2.ax / car.units ≤ lat.ax / car.units + 1 / 10 / car.units + tol) := by
  unfold ggPoint at h
  obtain ⟨axSs, _, h⟩ := Res.bind_eq_ok.1 h
  obtain ⟨cand, _, h⟩ := Res.bind_eq_ok.1 h
  obtain ⟨e, he, h⟩ := Res.bind_eq_ok.1 h
  obtain rfl := Res.ok.inj h
  generalize (if cand.solved = true then cand else ss) = ss' at *
  unfold ggExtremes at he
  simp only at he
  split at he
  · obtain rfl := Res.ok.inj he
    refine ⟨rfl, rfl, rfl, rfl, fun hs => lonReport_steady hu hp.a1 hp.a2 hS rfl hs, fun hs => ?_⟩
    dsimp only at hs ⊢
    unfold ggMin at hs ⊢
    split at hs <;> exact lonReport_steady hu hp.k1 hp.k2 hS rfl hs
  · cases he

theorem ggLoop_spec {car : Car K I C D} {S : SolverAD K} {v : K} {lat mx0 mn0 : Solution K I C D} {x0ss : List K} :
    ∀ {ays : List K} {ss : Solution K I C D} {prev : Option (Solution K I C D)}
      {r : List (Solution K I C D) × List (Solution K I C D)},
    ggLoop car S v lat mx0 mn0 x0ss ss prev ays = .ok r →
    r.1.length = ays.length ∧ r.2.length = ays.length ∧
    ∀ (i : Nat) (a : K), ays[i]? = some a → ∃ m n, r.1[i]? = some m ∧ r.2[i]? = some n ∧
      ∃ ss prev p, ggPoint car S v lat mx0 mn0 x0ss ss prev a = .ok p ∧ m = p.2.1 ∧ n = p.2.2 := by
  intro ays
  induction ays with
  | nil =>
    intro ss prev r h
    obtain rfl := Res.ok.inj h
    exact ⟨rfl, rfl, fun i a h => by simp at h⟩
  | cons ay rest ih =>
    intro ss prev r h
    unfold ggLoop at h
    obtain ⟨p, hpt, h⟩ := Res.bind_eq_ok.1 h
    obtain ⟨q, hq, h⟩ := Res.bind_eq_ok.1 h
    obtain rfl := Res.ok.inj h
    obtain ⟨i1, i2, i3⟩ := ih hq
    refine ⟨by simp [i1], by simp [i2], fun i a ha => ?_⟩
    cases i with
    | zero =>
      obtain rfl : ay = a := by simpa using ha
      exact ⟨_, _, rfl, rfl, _, _, _, hpt, rfl, rfl⟩
    | succ i => exact i3 i a (by simpa using ha)

theorem ggAD_parts {car : Car K I C D} {S : SolverAD K} {v : K} {n : Nat}
    {mx mn : List (Solution K I C D)} (h : ggAD car S v n = .ok (mx, mn)) :
    ∃ zero lat lon r, solveAD car S v 0 0 none = .ok zero ∧ maxLatAD car S v = .ok lat ∧
      maxLonAD car S v 0 = .ok lon ∧ 0 < n ∧
      ggLoop car S v lat lon.1 lon.2 (car.getX zero.inputs zero.controls v) zero none
        ((Mesh.linspace lat.ay (n - 1)).take (n - 1)) = .ok r ∧ mx = r.1 ++ [lat] ∧ mn = r.2 ++ [lat] := by
  unfold ggAD at h
  obtain ⟨zero, h1, h⟩ := Res.bind_eq_ok.1 h
  obtain ⟨lat, h2, h⟩ := Res.bind_eq_ok.1 h
  obtain ⟨lon, h3, h⟩ := Res.bind_eq_ok.1 h
  split at h
  · cases h
  obtain ⟨r, h4, h⟩ := Res.bind_eq_ok.1 h
  obtain ⟨rfl, rfl⟩ := Prod.mk.inj (Res.ok.inj h)
  exact ⟨zero, lat, lon, r, h1, h2, h3, by omega, h4, rfl, rfl⟩

omit [LinearOrder K] in
theorem ays_get (L : K) (n i : Nat) (hi : i < n - 1) :
    ((Mesh.linspace L (n - 1)).take (n - 1))[i]? = some (L * (i : K) / ((n - 1 : Nat) : K)) := by
  rw [List.getElem?_take_of_lt hi, Mesh.linspace, List.getElem?_map, List.getElem?_range (by omega)]
  rfl

/-- C141. The diagram has the requested number of points on each branch, at the same lateral
accelerations, evenly spaced from zero to the maximum; every point reported as solved is a steady state;
both branches end at the steady state of maximum lateral acceleration. -/
theorem C141_diagram (tol : K) (car : Car K I C D) (hp : car.Proper) (hu : car.units ≠ 0)
    (S : SolverAD K) (hS : Accurate tol S) (v : K) (n : Nat) (mx mn : List (Solution K I C D))
    (h : ggAD car S v n = .ok (mx, mn)) :
    ∃ lat, maxLatAD car S v = .ok lat ∧ mx.length = n ∧ mn.length = n ∧
      mx.getLast? = some lat ∧ mn.getLast? = some lat ∧
      ∀ (i : Nat) (a b : Solution K I C D), i + 1 < n → mx[i]? = some a → mn[i]? = some b →
        a.v = v ∧ b.v = v ∧ a.ay = lat.ay * (i : K) / ((n - 1 : Nat) : K) ∧ b.ay = a.ay ∧
        (a.solved = true → IsSteady tol car car.boundsAcc a) ∧
        (b.solved = true → IsSteady tol car car.boundsBrake b) := by
  obtain ⟨zero, lat, lon, r, h1, h2, h3, hn, h4, rfl, rfl⟩ := ggAD_parts h
  obtain ⟨l1, l2, l3⟩ := ggLoop_spec h4
  have hlen : ((Mesh.linspace lat.ay (n - 1)).take (n - 1)).length = n - 1 := by
    simp [Mesh.linspace]
  rw [hlen] at l1 l2
  refine ⟨lat, h2, by simp [l1]; omega, by simp [l2]; omega, by simp, by simp, ?_⟩
  intro i a b hi ha hb
  obtain ⟨m, k, e1, e2, ss, prev, p, hpt, rfl, rfl⟩ := l3 i _ (ays_get lat.ay n i (by omega))
  rw [List.getElem?_append_left (by omega), e1] at ha
  rw [List.getElem?_append_left (by omega), e2] at hb
  obtain rfl := Option.some.inj ha
  obtain rfl := Option.some.inj hb
  obtain ⟨c1, c2, c3, c4, c5, c6⟩ := ggPoint_spec hp hu hS hpt
  exact ⟨c1, c3, c2, by rw [c4, c2], fun hs => (c5 hs).1, fun hs => (c6 hs).1⟩

/-- C141. A diagram without points is undefined. -/
theorem C141_no_points (car : Car K I C D) (S : SolverAD K) (v : K) (r) :
    ggAD car S v 0 ≠ .ok r := by
  intro h
  obtain ⟨_, _, _, _, _, _, _, hn, _⟩ := ggAD_parts (mx := r.1) (mn := r.2) h
  omega

/-- C141. Where a solved point can be: the upper branch from 0.5 m/s² below the point of maximum lateral
acceleration to 0.1 above the maximum on a straight; the lower branch from 0.1 below the minimum on a
straight to 0.1 above the point of maximum lateral acceleration. -/
theorem C141_range [IsStrictOrderedRing K] (tol : K) (car : Car K I C D) (hp : car.Proper)
    (hu : 0 < car.units) (S : SolverAD K) (hS : Accurate tol S) (v : K) (n : Nat)
    (mx mn : List (Solution K I C D)) (h : ggAD car S v n = .ok (mx, mn)) :
    ∃ lat straightMax straightMin, maxLatAD car S v = .ok lat ∧
      maxLonAD car S v 0 = .ok (straightMax, straightMin) ∧
      ∀ (i : Nat) (a b : Solution K I C D), i + 1 < n → mx[i]? = some a → mn[i]? = some b →
        (a.solved = true → lat.ax - 1 / 2 - tol * car.units ≤ a.ax ∧
          a.ax ≤ straightMax.ax + 1 / 10 + tol * car.units) ∧
        (b.solved = true → straightMin.ax - 1 / 10 - tol * car.units ≤ b.ax ∧
          b.ax ≤ lat.ax + 1 / 10 + tol * car.units) := by
  obtain ⟨zero, lat, lon, r, h1, h2, h3, hn, h4, rfl, rfl⟩ := ggAD_parts h
  obtain ⟨l1, l2, l3⟩ := ggLoop_spec h4
  have hlen : ((Mesh.linspace lat.ay (n - 1)).take (n - 1)).length = n - 1 := by
    simp [Mesh.linspace]
  rw [hlen] at l1 l2
  refine ⟨lat, lon.1, lon.2, h2, h3, ?_⟩
  intro i a b hi ha hb
  obtain ⟨m, k, e1, e2, ss, prev, p, hpt, rfl, rfl⟩ := l3 i _ (ays_get lat.ay n i (by omega))
  rw [List.getElem?_append_left (by omega), e1] at ha
  rw [List.getElem?_append_left (by omega), e2] at hb
  obtain rfl := Option.some.inj ha
  obtain rfl := Option.some.inj hb
  obtain ⟨_, _, _, _, c5, c6⟩ := ggPoint_spec hp hu.ne' hS hpt
  have low : ∀ x y z : K, x / car.units - y / car.units - tol ≤ z / car.units →
      x - y - tol * car.units ≤ z := by
    intro x y z hh
    rw [← sub_div, sub_le_iff_le_add, ← sub_le_iff_le_add', ← sub_div, div_le_iff₀ hu] at hh
    linarith
  have upp : ∀ x y z : K, z / car.units ≤ x / car.units + y / car.units + tol →
      z ≤ x + y + tol * car.units := by
    intro x y z hh
    rw [← add_div, ← sub_le_iff_le_add', ← sub_div, div_le_iff₀ hu] at hh
    linarith
  exact ⟨fun hs => ⟨low _ _ _ (c5 hs).2.1, upp _ _ _ (c5 hs).2.2⟩,
    fun hs => ⟨low _ _ _ (c6 hs).2.1, upp _ _ _ (c6 hs).2.2⟩⟩

/-- C141, the part that holds of the order of the branches: the upper branch is at most 0.6 m/s² below
the lower one. -/
theorem C141_order_partial [IsStrictOrderedRing K] (tol : K) (car : Car K I C D) (hp : car.Proper)
    (hu : 0 < car.units) (S : SolverAD K) (hS : Accurate tol S) (v : K) (n : Nat)
    (mx mn : List (Solution K I C D)) (h : ggAD car S v n = .ok (mx, mn)) (i : Nat)
    (a b : Solution K I C D) (hi : i + 1 < n) (ha : mx[i]? = some a) (hb : mn[i]? = some b)
    (sa : a.solved = true) (sb : b.solved = true) :
    b.ax - 3 / 5 - 2 * tol * car.units ≤ a.ax := by
  obtain ⟨lat, s1, s2, _, _, hh⟩ := C141_range tol car hp hu S hS v n mx mn h
  obtain ⟨c1, c2⟩ := hh i a b hi ha hb
  have := (c1 sa).1
  have := (c2 sb).2
  linarith

end

end Verif.Steady
