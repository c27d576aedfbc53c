import Verif.Lemmas.SteadyVehicles

/-! Properties of the steady states and of the g-g diagrams of the F1 car and of the kart (C196..C199). -/

set_option autoImplicit false

namespace Verif.SteadyVehicles

open Verif.Road Verif.Chassis Verif.LapVehicles Verif.Steady

/-! ## C196: steady states of the F1 car -/

section
variable {tol : ℝ} (c : F1.Car) (bias0 : ℝ) (junk : Nat → ℝ) (junkLimits : Nat → F1.Limits)

theorem f1_proper : (f1Steady c bias0 junk junkLimits).Proper :=
  ⟨rfl, fun _ _ _ => rfl, rfl, rfl, rfl, rfl, rfl, rfl⟩

theorem f1Range_eq : f1Range = f1Bounds.1.zip f1Bounds.2 := by
  norm_num [f1Range, f1Bounds]

theorem f1RangeBraking_eq : f1RangeBraking = f1BoundsBrake.1.zip f1BoundsBrake.2 := by
  norm_num [f1RangeBraking, f1BoundsBrake]

theorem f1_isSteady (hg : 0 < c.chassis.g0) (hm : 0 < c.chassis.mass) (hI : 0 < c.chassis.I.2.2.2.2)
    {b : List ℝ × List ℝ} (hb : b.1.length = 11) {s : State} (hv : 0 < s.v)
    (h : IsSteady tol (f1Steady c bias0 junk junkLimits) b s) :
    F1Held tol c s.inputs s.controls s.v s.ax s.ay ∧ F1Driven tol bias0 (b.1.zip b.2) s.inputs s.controls := by
  obtain ⟨x, e, hx, he, hw, -⟩ := h
  obtain ⟨rfl, h2⟩ := Prod.mk.inj he
  obtain ⟨h2, h3⟩ := Prod.mk.inj h2
  have hu : (f1Steady c bias0 junk junkLimits).units = c.chassis.g0 := rfl
  rw [hu] at h2 hw
  have := f1_held c bias0 junk junkLimits (arrayOf x) (s.ax / c.chassis.g0) (s.ay / c.chassis.g0) s.v hv hg hm hI hw
  rw [div_mul_cancel₀ _ hg.ne', div_mul_cancel₀ _ hg.ne'] at this
  rw [← h2, ← h3]
  exact ⟨this, f1_driven c bias0 junk junkLimits x _ _ b hb hx⟩

/-- C196. Every steady state of the F1 car that is reported as solved is one, up to the tolerance of the solver: `solve`
at the speed and accelerations asked for, the maximum lateral acceleration, the extreme longitudinal accelerations at a
lateral acceleration, and the points of the g-g diagram at its evenly spaced lateral accelerations. -/
theorem C196_f1 (hg : 0 < c.chassis.g0) (hm : 0 < c.chassis.mass) (hI : 0 < c.chassis.I.2.2.2.2)
    (S : SolverAD ℝ) (hS : Accurate tol S) (v : ℝ) (hv : 0 < v) :
    let car := f1Steady c bias0 junk junkLimits
    let ok := fun (range : List (ℝ × ℝ)) (s : State) => s.v = v ∧ (s.solved = true →
      F1Held tol c s.inputs s.controls v s.ax s.ay ∧ F1Driven tol bias0 range s.inputs s.controls)
    (∀ ax ay x0 s, solveAD car S v ax ay x0 = .ok s → s.ax = ax ∧ s.ay = ay ∧ ok f1Range s) ∧
    (∀ s, maxLatAD car S v = .ok s → ok f1Range s) ∧
    (∀ ay mx mn, maxLonAD car S v ay = .ok (mx, mn) →
      mx.ay = ay ∧ mn.ay = ay ∧ ok f1Range mx ∧ ok f1RangeBraking mn) ∧
    (∀ n mx mn, ggAD car S v n = .ok (mx, mn) → ∃ lat, maxLatAD car S v = .ok lat ∧ mx.length = n ∧ mn.length = n ∧
      mx.getLast? = some lat ∧ mn.getLast? = some lat ∧
      ∀ (i : Nat) (a b : State), i + 1 < n → mx[i]? = some a → mn[i]? = some b →
        a.ay = lat.ay * i / ((n - 1 : Nat) : ℝ) ∧ b.ay = a.ay ∧ ok f1Range a ∧ ok f1RangeBraking b) := by
  intro car ok
  have hp : car.Proper := f1_proper c bias0 junk junkLimits
  have hu : car.units ≠ 0 := hg.ne'
  have up {s : State} (hsv : s.v = v) (h : s.solved = true → IsSteady tol car f1Bounds s) : ok f1Range s := by
    refine ⟨hsv, fun hs => ?_⟩
    have := f1_isSteady c bias0 junk junkLimits hg hm hI rfl (hsv ▸ hv) (h hs)
    rw [hsv, ← f1Range_eq] at this
    exact this
  have down {s : State} (hsv : s.v = v) (h : s.solved = true → IsSteady tol car f1BoundsBrake s) :
      ok f1RangeBraking s := by
    refine ⟨hsv, fun hs => ?_⟩
    have := f1_isSteady c bias0 junk junkLimits hg hm hI rfl (hsv ▸ hv) (h hs)
    rw [hsv, ← f1RangeBraking_eq] at this
    exact this
  refine ⟨fun ax ay x0 s h => ?_, fun s h => ?_, fun ay mx mn h => ?_, fun n mx mn h => ?_⟩
  · obtain ⟨h1, h2, h3, h4⟩ := C140_solve tol car S hS v ax ay x0 s h
    exact ⟨h2, h3, up h1 h4⟩
  · obtain ⟨h1, h2⟩ := C140_lateral tol car hp hu S hS v s h
    exact up h1 h2
  · obtain ⟨h1, h2, h3, h4, h5, h6⟩ := C140_longitudinal tol car hp hu S hS v ay mx mn h
    exact ⟨h2, h4, up h1 h5, down h3 h6⟩
  · obtain ⟨lat, h1, h2, h3, h4, h5, h6⟩ := C141_diagram tol car hp hu S hS v n mx mn h
    refine ⟨lat, h1, h2, h3, h4, h5, fun i a b hi ha hb => ?_⟩
    obtain ⟨g1, g2, g3, g4, g5, g6⟩ := h6 i a b hi ha hb
    exact ⟨g3, g4, up g1 g5, down g2 g6⟩

end

/-! ## C197: steady states of the kart -/

section
variable {tol : ℝ} {solve : Vec3 × Vec3 × Vec3 → Vec3 → Vec3} (c : Kart.Vehicle) (junkQ junkU : Nat → ℝ)

theorem kart_proper : (kartSteady solve c junkQ junkU).Proper :=
  ⟨rfl, fun _ _ _ => rfl, rfl, rfl, rfl, rfl, rfl, rfl⟩

theorem kart_isSteady (hm : 0 < c.mass) {s : State} (hv : 0 < s.v)
    (h : IsSteady tol (kartSteady solve c junkQ junkU) Kart.steadyVariableBounds s) :
    KartHeld solve tol c s.inputs s.controls s.v s.ax s.ay ∧ KartDriven tol s.inputs s.controls s.v := by
  obtain ⟨x, e, hx, he, hw, -⟩ := h
  obtain ⟨rfl, h2⟩ := Prod.mk.inj he
  obtain ⟨h2, h3⟩ := Prod.mk.inj h2
  have hu : (kartSteady solve c junkQ junkU).units = 1 := rfl
  rw [hu, div_one] at h2 hw
  rw [div_one] at hw
  have := kart_held c junkQ junkU (arrayOf x) s.ax s.ay s.v hv hm hw
  rw [← h2, ← h3]
  exact ⟨this, kart_driven junkQ junkU x _ _ hv.ne' hx⟩

/-- C197. Every steady state of the kart that is reported as solved is one, up to the tolerance of the solver: `solve`
at the speed and accelerations asked for, the maximum lateral acceleration, the extreme longitudinal accelerations at a
lateral acceleration, and the points of the g-g diagram at its evenly spaced lateral accelerations. -/
theorem C197_kart (hm : 0 < c.mass) (S : SolverAD ℝ) (hS : Accurate tol S) (v : ℝ) (hv : 0 < v) :
    let car := kartSteady solve c junkQ junkU
    let ok := fun (s : State) => s.v = v ∧ (s.solved = true →
      KartHeld solve tol c s.inputs s.controls v s.ax s.ay ∧ KartDriven tol s.inputs s.controls v)
    (∀ ax ay x0 s, solveAD car S v ax ay x0 = .ok s → s.ax = ax ∧ s.ay = ay ∧ ok s) ∧
    (∀ s, maxLatAD car S v = .ok s → ok s) ∧
    (∀ ay mx mn, maxLonAD car S v ay = .ok (mx, mn) → mx.ay = ay ∧ mn.ay = ay ∧ ok mx ∧ ok mn) ∧
    (∀ n mx mn, ggAD car S v n = .ok (mx, mn) → ∃ lat, maxLatAD car S v = .ok lat ∧ mx.length = n ∧ mn.length = n ∧
      mx.getLast? = some lat ∧ mn.getLast? = some lat ∧
      ∀ (i : Nat) (a b : State), i + 1 < n → mx[i]? = some a → mn[i]? = some b →
        a.ay = lat.ay * i / ((n - 1 : Nat) : ℝ) ∧ b.ay = a.ay ∧ ok a ∧ ok b) := by
  intro car ok
  have hp : car.Proper := kart_proper c junkQ junkU
  have hu : car.units ≠ 0 := one_ne_zero
  have up {s : State} (hsv : s.v = v) (h : s.solved = true → IsSteady tol car Kart.steadyVariableBounds s) : ok s := by
    refine ⟨hsv, fun hs => ?_⟩
    have := kart_isSteady c junkQ junkU hm (hsv ▸ hv) (h hs)
    rw [hsv] at this
    exact this
  refine ⟨fun ax ay x0 s h => ?_, fun s h => ?_, fun ay mx mn h => ?_, fun n mx mn h => ?_⟩
  · obtain ⟨h1, h2, h3, h4⟩ := C140_solve tol car S hS v ax ay x0 s h
    exact ⟨h2, h3, up h1 h4⟩
  · obtain ⟨h1, h2⟩ := C140_lateral tol car hp hu S hS v s h
    exact up h1 h2
  · obtain ⟨h1, h2, h3, h4, h5, h6⟩ := C140_longitudinal tol car hp hu S hS v ay mx mn h
    exact ⟨h2, h4, up h1 h5, up h3 h6⟩
  · obtain ⟨lat, h1, h2, h3, h4, h5, h6⟩ := C141_diagram tol car hp hu S hS v n mx mn h
    refine ⟨lat, h1, h2, h3, h4, h5, fun i a b hi ha hb => ?_⟩
    obtain ⟨g1, g2, g3, g4, g5, g6⟩ := h6 i a b hi ha hb
    exact ⟨g3, g4, up g1 g5, up g2 g6⟩

/-- C197 with numerical derivatives. -/
theorem C197_numeric (hm : 0 < c.mass) (S : SolverNum ℝ) (hS : AccurateNum tol S) (v : ℝ) (hv : 0 < v) :
    let car := kartSteady solve c junkQ junkU
    let ok := fun (s : State) => s.v = v ∧ (s.solved = true →
      KartHeld solve tol c s.inputs s.controls v s.ax s.ay ∧ KartDriven tol s.inputs s.controls v)
    (∀ ax ay n x0 f s, solveNum car S v ax ay n x0 f = .ok s → s.ax = ax ∧ s.ay = ay ∧ ok s) ∧
    (∀ s, maxLatNum car S v = .ok s → ok s) ∧
    (∀ ay mx mn, maxLonNum car S v ay = .ok (mx, mn) → mx.ay = ay ∧ mn.ay = ay ∧ ok mx ∧ ok mn) ∧
    (∀ n mx mn, ggNum car S v n = .ok (mx, mn) → ∃ lat, maxLatNum car S v = .ok lat ∧ mx.length = n ∧ mn.length = n ∧
      ∀ (i : Nat) (a b : State), mx[i]? = some a → mn[i]? = some b →
        a.ay = lat.ay * i / ((n - 1 : Nat) : ℝ) ∧ b.ay = a.ay ∧ ok a ∧ ok b) := by
  intro car ok
  have hp : car.Proper := kart_proper c junkQ junkU
  have up {s : State} (hsv : s.v = v) (h : s.solved = true → IsSteady tol car Kart.steadyVariableBounds s) : ok s := by
    refine ⟨hsv, fun hs => ?_⟩
    have := kart_isSteady c junkQ junkU hm (hsv ▸ hv) (h hs)
    rw [hsv] at this
    exact this
  obtain ⟨n1, n2, n3, n4⟩ := C140_numeric_partial tol car hp rfl S hS v
  refine ⟨fun ax ay n x0 f s h => ?_, fun s h => ?_, fun ay mx mn h => ?_, fun n mx mn h => ?_⟩
  · obtain ⟨h1, h2, h3, h4⟩ := n1 ax ay n x0 f s h
    exact ⟨h2, h3, up h1 h4⟩
  · obtain ⟨h1, h2⟩ := n2 s h
    exact up h1 h2
  · obtain ⟨⟨h1, h2, h3⟩, h4, h5, h6⟩ := n3 ay mx mn h
    exact ⟨h2, h5, up h1 h3, up h4 h6⟩
  · obtain ⟨lat, h1, h2, h3, h6⟩ := n4 n mx mn h
    refine ⟨lat, h1, h2, h3, fun i a b ha hb => ?_⟩
    obtain ⟨g1, g2, g3, g4, g5, g6⟩ := h6 i a b ha hb
    exact ⟨g3, g4, up g1 g5, up g2 g6⟩

end

/-! ## C198: the command `steady_state` -/

section
variable {tol : ℝ} {S : SolverAD ℝ} {karts f1s : Name → Option Entry} {name : Name}

/-- C198, F1 car: when the command returns, the arrays of the caller hold a steady state at the speed and
accelerations asked for, and nothing behind it has changed. -/
theorem C198_f1_partial (c : F1.Car) (bias0 : ℝ) (junk : Nat → ℝ) (junkLimits : Nat → F1.Limits)
    (hk : karts name = none) (hf : f1s name = some (f1Entry c bias0 junk junkLimits))
    (hg : 0 < c.chassis.g0) (hm : 0 < c.chassis.mass) (hI : 0 < c.chassis.I.2.2.2.2) (hS : Accurate tol S)
    (v ax ay : ℝ) (hv : 0 < v) (mem : List ℝ × List ℝ)
    (h : (steadyState S karts f1s name v ax ay mem).result = .ok ()) :
    let r := (steadyState S karts f1s name v ax ay mem).mem
    (∃ q u, Holds r.1 14 q ∧ Holds r.2 4 u ∧ F1Held tol c q u v ax ay ∧ F1Driven tol bias0 f1Range q u) ∧
      r.1.length = mem.1.length ∧ r.2.length = mem.2.length ∧ r.1.drop 14 = mem.1.drop 14 ∧
      r.2.drop 4 = mem.2.drop 4 := by
  have hn : vehicleNamed karts f1s name = some (f1Entry c bias0 junk junkLimits) := by simp [vehicleNamed, hk, hf]
  simp only [steadyState, hn] at h ⊢
  obtain ⟨s, hs, hd⟩ := computeSteady_ok h
  rw [hd] at h ⊢
  obtain ⟨d1, d2, d3, d4, d5, d6, d7⟩ := deliver_ok h
  obtain ⟨rfl, rfl, -, hok⟩ := (C196_f1 c bias0 junk junkLimits hg hm hI S hS v hv).1 ax ay none s hs
  obtain ⟨k1, k2⟩ := hok d1
  exact ⟨⟨s.inputs, s.controls, d2, d3, k1, k2⟩, d4, d5, d6, d7⟩

/-- C198, kart. -/
theorem C198_kart_partial {solve : Vec3 × Vec3 × Vec3 → Vec3 → Vec3} (c : Kart.Vehicle) (junkQ junkU : Nat → ℝ)
    (hk : karts name = some (kartEntry solve c junkQ junkU)) (hm : 0 < c.mass) (hS : Accurate tol S)
    (v ax ay : ℝ) (hv : 0 < v) (mem : List ℝ × List ℝ)
    (h : (steadyState S karts f1s name v ax ay mem).result = .ok ()) :
    let r := (steadyState S karts f1s name v ax ay mem).mem
    (∃ q u, Holds r.1 13 q ∧ Holds r.2 2 u ∧ KartHeld solve tol c q u v ax ay ∧ KartDriven tol q u v) ∧
      r.1.length = mem.1.length ∧ r.2.length = mem.2.length ∧ r.1.drop 13 = mem.1.drop 13 ∧
      r.2.drop 2 = mem.2.drop 2 := by
  have hn : vehicleNamed karts f1s name = some (kartEntry solve c junkQ junkU) := by simp [vehicleNamed, hk]
  simp only [steadyState, hn] at h ⊢
  obtain ⟨s, hs, hd⟩ := computeSteady_ok h
  rw [hd] at h ⊢
  obtain ⟨d1, d2, d3, d4, d5, d6, d7⟩ := deliver_ok h
  obtain ⟨rfl, rfl, -, hok⟩ := (C197_kart c junkQ junkU hm S hS v hv).1 ax ay none s hs
  obtain ⟨k1, k2⟩ := hok d1
  exact ⟨⟨s.inputs, s.controls, d2, d3, k1, k2⟩, d4, d5, d6, d7⟩

/-- C198, failure: with arrays of the right size the command returns exactly when the solver succeeds; otherwise it
throws and the arrays are as before. -/
theorem C198_failure (e : Entry) (he : vehicleNamed karts f1s name = some e) (hp : e.car.Proper) (hS : Sized S)
    (v ax ay : ℝ) (mem : List ℝ × List ℝ) (h1 : e.nInputs ≤ mem.1.length) (h2 : e.nControls ≤ mem.2.length) :
    let success := (S (trimProblem e.car e.car.guess v (ax / e.car.units) (ay / e.car.units))).1
    (success = true → (steadyState S karts f1s name v ax ay mem).result = .ok ()) ∧
    (success = false → steadyState S karts f1s name v ax ay mem = ⟨mem, .throw⟩) := by
  intro success
  have hl : (S (trimProblem e.car e.car.guess v (ax / e.car.units) (ay / e.car.units))).2.length = e.car.nVars := by
    rw [hS]; exact hp.guess
  have hs : solveAD e.car S v ax ay none = .ok (report e.car success
      (S (trimProblem e.car e.car.guess v (ax / e.car.units) (ay / e.car.units))).2 (ax / e.car.units) (ay / e.car.units)
      v ax ay) := by
    simp only [solveAD, startPoint, Res.bind_ok, if_pos hl, success]
  simp only [steadyState, he, computeSteady, hs]
  constructor
  · intro hsucc
    simp [deliver, report, hsucc, copyTo, h1, h2]
  · intro hsucc
    simp [deliver, report, hsucc]

/-- C198, arrays that are too short: undefined as soon as a steady state is found. -/
theorem C198_short (e : Entry) (he : vehicleNamed karts f1s name = some e) (hp : e.car.Proper) (hS : Sized S)
    (v ax ay : ℝ) (mem : List ℝ × List ℝ) (hl : mem.1.length < e.nInputs ∨ mem.2.length < e.nControls)
    (h : (S (trimProblem e.car e.car.guess v (ax / e.car.units) (ay / e.car.units))).1 = true) :
    (steadyState S karts f1s name v ax ay mem).result = .ub := by
  have hlen : (S (trimProblem e.car e.car.guess v (ax / e.car.units) (ay / e.car.units))).2.length = e.car.nVars := by
    rw [hS]; exact hp.guess
  simp only [steadyState, he, computeSteady, solveAD, startPoint, Res.bind_ok, if_pos hlen]
  unfold deliver
  rw [if_neg (by simp [report, h])]
  unfold copyTo
  simp only [List.length_map, List.length_range]
  by_cases h1 : e.nInputs ≤ mem.1.length
  · rw [if_pos h1]
    have h2 : ¬ e.nControls ≤ mem.2.length := by omega
    simp only [if_neg h2]
  · simp only [if_neg h1]

/-- C198 is false for a name without a vehicle: the command returns as if it had found a steady state, and the
arrays hold what they held. -/
theorem C198_false (hk : karts name = none) (hf : f1s name = none) (v ax ay : ℝ) (mem : List ℝ × List ℝ) :
    steadyState S karts f1s name v ax ay mem = ⟨mem, .ok ()⟩ := by
  simp [steadyState, vehicleNamed, hk, hf]

end

/-! ## C199: the command `gg_diagram` -/

section
variable {tol : ℝ} {S : SolverAD ℝ} {karts f1s : Name → Option Entry} {name : Name}

/-- What the command leaves for any vehicle. -/
theorem diagram_written {e : Entry} (he : vehicleNamed karts f1s name = some e) {v : ℝ} {n : Nat}
    {mem : List ℝ × List ℝ × List ℝ} (h : (ggDiagram S karts f1s name v n mem).result = .ok ()) :
    let r := (ggDiagram S karts f1s name v n mem).mem
    ∃ mx mn, ggAD e.car S v n = .ok (mx, mn) ∧
      (∀ k, n ≤ k → r.1[k]? = mem.1[k]? ∧ r.2.1[k]? = mem.2.1[k]? ∧ r.2.2[k]? = mem.2.2[k]?) ∧
      ∀ k, k < n → ∃ a b, mx[k]? = some a ∧ mn[k]? = some b ∧ r.1[k]? = some a.ay ∧ r.2.1[k]? = some a.ax ∧
        r.2.2[k]? = some b.ax := by
  simp only [ggDiagram, he, computeDiagram] at h ⊢
  rcases hg : ggAD e.car S v n with r | _ | _
  · rw [hg] at h
    simp only at h ⊢
    obtain ⟨-, h2, h3⟩ := writePoints_ok h
    exact ⟨r.1, r.2, rfl, fun k hk => h2 k (by omega), fun k hk => h3 k (Nat.zero_le k) (by omega)⟩
  · rw [hg] at h; cases h
  · rw [hg] at h; cases h

/-- C199, F1 car, what holds: when the command returns, the lateral accelerations are evenly spaced from 0 to that of
the solution of maximum lateral acceleration, the other arrays hold the longitudinal accelerations of the two branches,
which meet at the last point, and what the solver reported as solved is a steady state with both accelerations. What is
missing: whether the solver succeeded is not checked, see `C199_false`. -/
theorem C199_f1_partial (c : F1.Car) (bias0 : ℝ) (junk : Nat → ℝ) (junkLimits : Nat → F1.Limits)
    (hk : karts name = none) (hf : f1s name = some (f1Entry c bias0 junk junkLimits))
    (hg : 0 < c.chassis.g0) (hm : 0 < c.chassis.mass) (hI : 0 < c.chassis.I.2.2.2.2) (hS : Accurate tol S)
    (v : ℝ) (hv : 0 < v) (n : Nat) (mem : List ℝ × List ℝ × List ℝ)
    (h : (ggDiagram S karts f1s name v n mem).result = .ok ()) :
    let car := f1Steady c bias0 junk junkLimits
    let r := (ggDiagram S karts f1s name v n mem).mem
    ∃ lat mx mn, maxLatAD car S v = .ok lat ∧ ggAD car S v n = .ok (mx, mn) ∧
      ∀ k, k < n → ∃ a b, mx[k]? = some a ∧ mn[k]? = some b ∧
        r.2.1[k]? = some a.ax ∧ r.2.2[k]? = some b.ax ∧
        (k + 1 < n → r.1[k]? = some (lat.ay * k / ((n - 1 : Nat) : ℝ)) ∧
          (a.solved = true → F1Held tol c a.inputs a.controls v a.ax (lat.ay * k / ((n - 1 : Nat) : ℝ))) ∧
          (b.solved = true → F1Held tol c b.inputs b.controls v b.ax (lat.ay * k / ((n - 1 : Nat) : ℝ)))) ∧
        (k + 1 = n → r.1[k]? = some lat.ay ∧ a = lat ∧ b = lat ∧
          (lat.solved = true → F1Held tol c lat.inputs lat.controls v lat.ax lat.ay)) := by
  intro car r
  have hn : vehicleNamed karts f1s name = some (f1Entry c bias0 junk junkLimits) := by simp [vehicleNamed, hk, hf]
  obtain ⟨mx, mn, hgg, -, hw⟩ := diagram_written hn h
  obtain ⟨-, hlat, -, hdia⟩ := C196_f1 c bias0 junk junkLimits hg hm hI S hS v hv
  obtain ⟨lat, l1, l2, l3, l4, l5, l6⟩ := hdia n mx mn hgg
  refine ⟨lat, mx, mn, l1, hgg, fun k hk => ?_⟩
  obtain ⟨a, b, ha, hb, r1, r2, r3⟩ := hw k hk
  refine ⟨a, b, ha, hb, r2, r3, fun hk1 => ?_, fun hk1 => ?_⟩
  · obtain ⟨g1, g2, g3, g4⟩ := l6 k a b hk1 ha hb
    rw [← g1]
    exact ⟨r1, fun ha => (g3.2 ha).1, fun hb => by have := (g4.2 hb).1; rw [g2] at this; exact this⟩
  · have ea : a = lat := by
      rw [List.getLast?_eq_getElem?, l2, ← hk1, Nat.add_sub_cancel, ha] at l4
      exact Option.some.inj l4
    have eb : b = lat := by
      rw [List.getLast?_eq_getElem?, l3, ← hk1, Nat.add_sub_cancel, hb] at l5
      exact Option.some.inj l5
    subst ea
    exact ⟨r1, rfl, eb, fun hs => ((hlat a l1).2 hs).1⟩

/-- C199, kart, what holds. -/
theorem C199_kart_partial {solve : Vec3 × Vec3 × Vec3 → Vec3 → Vec3} (c : Kart.Vehicle) (junkQ junkU : Nat → ℝ)
    (hk : karts name = some (kartEntry solve c junkQ junkU)) (hm : 0 < c.mass) (hS : Accurate tol S)
    (v : ℝ) (hv : 0 < v) (n : Nat) (mem : List ℝ × List ℝ × List ℝ)
    (h : (ggDiagram S karts f1s name v n mem).result = .ok ()) :
    let car := kartSteady solve c junkQ junkU
    let r := (ggDiagram S karts f1s name v n mem).mem
    ∃ lat mx mn, maxLatAD car S v = .ok lat ∧ ggAD car S v n = .ok (mx, mn) ∧
      ∀ k, k < n → ∃ a b, mx[k]? = some a ∧ mn[k]? = some b ∧
        r.2.1[k]? = some a.ax ∧ r.2.2[k]? = some b.ax ∧
        (k + 1 < n → r.1[k]? = some (lat.ay * k / ((n - 1 : Nat) : ℝ)) ∧
          (a.solved = true → KartHeld solve tol c a.inputs a.controls v a.ax (lat.ay * k / ((n - 1 : Nat) : ℝ))) ∧
          (b.solved = true → KartHeld solve tol c b.inputs b.controls v b.ax (lat.ay * k / ((n - 1 : Nat) : ℝ)))) ∧
        (k + 1 = n → r.1[k]? = some lat.ay ∧ a = lat ∧ b = lat ∧
          (lat.solved = true → KartHeld solve tol c lat.inputs lat.controls v lat.ax lat.ay)) := by
  intro car r
  have hn : vehicleNamed karts f1s name = some (kartEntry solve c junkQ junkU) := by simp [vehicleNamed, hk]
  obtain ⟨mx, mn, hgg, -, hw⟩ := diagram_written hn h
  obtain ⟨-, hlat, -, hdia⟩ := C197_kart c junkQ junkU hm S hS v hv
  obtain ⟨lat, l1, l2, l3, l4, l5, l6⟩ := hdia n mx mn hgg
  refine ⟨lat, mx, mn, l1, hgg, fun k hk => ?_⟩
  obtain ⟨a, b, ha, hb, r1, r2, r3⟩ := hw k hk
  refine ⟨a, b, ha, hb, r2, r3, fun hk1 => ?_, fun hk1 => ?_⟩
  · obtain ⟨g1, g2, g3, g4⟩ := l6 k a b hk1 ha hb
    rw [← g1]
    exact ⟨r1, fun ha => (g3.2 ha).1, fun hb => by have := (g4.2 hb).1; rw [g2] at this; exact this⟩
  · have ea : a = lat := by
      rw [List.getLast?_eq_getElem?, l2, ← hk1, Nat.add_sub_cancel, ha] at l4
      exact Option.some.inj l4
    have eb : b = lat := by
      rw [List.getLast?_eq_getElem?, l3, ← hk1, Nat.add_sub_cancel, hb] at l5
      exact Option.some.inj l5
    subst ea
    exact ⟨r1, rfl, eb, fun hs => ((hlat a l1).2 hs).1⟩

/-- The command leaves the arrays behind the points alone, and it returns for arrays of the right size and every
positive number of points if the maximum lateral acceleration is positive. -/
theorem C199_defined (e : Entry) (he : vehicleNamed karts f1s name = some e) (hp : e.car.Proper) (hS : Sized S)
    (v : ℝ) (n : Nat) (mem : List ℝ × List ℝ × List ℝ) (hn : 0 < n) (h1 : n ≤ mem.1.length) (h2 : n ≤ mem.2.1.length)
    (h3 : n ≤ mem.2.2.length) (lat : State) (hlat : maxLatAD e.car S v = .ok lat) (hpos : 0 < lat.ay) :
    (ggDiagram S karts f1s name v n mem).result = .ok () ∧
      let r := (ggDiagram S karts f1s name v n mem).mem
      ∀ k, n ≤ k → r.1[k]? = mem.1[k]? ∧ r.2.1[k]? = mem.2.1[k]? ∧ r.2.2[k]? = mem.2.2[k]? := by
  obtain ⟨-, lat', hl, -, hgg⟩ := C145_defined e.car hp S hS v
  rw [hlat] at hl
  obtain rfl := Res.ok.inj hl
  obtain ⟨⟨mx, mn⟩, hr⟩ := hgg n hn hpos
  have hlen : mx.length = n ∧ mn.length = n := by
    obtain ⟨zero, lat', lon, r, -, h2, -, -, h4, rfl, rfl⟩ := ggAD_parts hr
    obtain ⟨l1, l2, -⟩ := ggLoop_spec h4
    have hlen : ((Mesh.linspace lat'.ay (n - 1)).take (n - 1)).length = n - 1 := by simp [Mesh.linspace]
    rw [hlen] at l1 l2
    constructor
    · rw [List.length_append, l1, List.length_singleton]; omega
    · rw [List.length_append, l2, List.length_singleton]; omega
  have hok : (ggDiagram S karts f1s name v n mem).result = .ok () := by
    simp only [ggDiagram, he, computeDiagram, hr]
    exact writePoints_enough (by omega) (by omega) (by omega) (by omega) (by omega)
  obtain ⟨-, -, -, hw, -⟩ := diagram_written he hok
  exact ⟨hok, hw⟩

/-- A solver that never succeeds and returns ones. -/
noncomputable def hopeless : SolverAD ℝ := fun p => (false, p.x0.map fun _ => 1)

theorem hopeless_sized : Sized hopeless := fun p => by simp [hopeless]

/-- C199 is false: for every vehicle there is a solver that never succeeds, and the command returns with
accelerations of no steady state in the arrays; the last lateral acceleration is the unit of the vehicle. -/
theorem C199_false (e : Entry) (he : vehicleNamed karts f1s name = some e) (hp : e.car.Proper) (hu : 0 < e.car.units)
    (v : ℝ) (n : Nat) (mem : List ℝ × List ℝ × List ℝ) (hn : 0 < n) (h1 : n ≤ mem.1.length) (h2 : n ≤ mem.2.1.length)
    (h3 : n ≤ mem.2.2.length) :
    (∀ p, (hopeless p).1 = false) ∧ (ggDiagram hopeless karts f1s name v n mem).result = .ok () ∧
      (ggDiagram hopeless karts f1s name v n mem).mem.1[n - 1]? = some e.car.units ∧
      (ggDiagram hopeless karts f1s name v n mem).mem.2.1[n - 1]? = some e.car.units := by
  obtain ⟨-, lat, hlat, -, -⟩ := C145_defined e.car hp hopeless hopeless_sized v
  have hay : lat.ay = e.car.units ∧ lat.ax = e.car.units := by
    unfold maxLatAD at hlat
    obtain ⟨z, -, h⟩ := Res.bind_eq_ok.1 hlat
    obtain ⟨r, hr, h⟩ := Res.bind_eq_ok.1 h
    obtain rfl := Res.ok.inj h
    obtain ⟨hl, hrun, -⟩ := attempts_spec hr
    have e1 : r.1.2 = (r.2.x0.map fun _ => (1 : ℝ)) := by rw [hrun]; rfl
    have hlen : r.2.x0.length = e.car.nVars + 2 := by
      rw [e1, List.length_map] at hl
      exact hl
    simp only [report, e1]
    constructor <;> simp [hlen]
  obtain ⟨hok, -⟩ := C199_defined e he hp hopeless_sized v n mem hn h1 h2 h3 lat hlat (by rw [hay.1]; exact hu)
  obtain ⟨mx, mn, hgg, -, hw⟩ := diagram_written he hok
  obtain ⟨a, b, ha, hb, r1, r2, -⟩ := hw (n - 1) (by omega)
  have ea : a = lat := by
    obtain ⟨zero, lat', lon, r, -, g2, -, -, g4, rfl, rfl⟩ := ggAD_parts hgg
    rw [hlat] at g2
    obtain rfl := Res.ok.inj g2
    obtain ⟨l1, -, -⟩ := ggLoop_spec g4
    have hlen : ((Mesh.linspace lat.ay (n - 1)).take (n - 1)).length = n - 1 := by simp [Mesh.linspace]
    rw [hlen] at l1
    rw [List.getElem?_append_right (by omega), l1, Nat.sub_self] at ha
    exact (Option.some.inj ha).symm
  subst ea
  exact ⟨fun _ => rfl, hok, by rw [r1, hay.1], by rw [r2, hay.2]⟩

/-- C199 is false for a name without a vehicle: the command returns and the arrays hold what they held. -/
theorem C199_unknown_false (hk : karts name = none) (hf : f1s name = none) (v : ℝ) (n : Nat)
    (mem : List ℝ × List ℝ × List ℝ) : ggDiagram S karts f1s name v n mem = ⟨mem, .ok ()⟩ := by
  simp [ggDiagram, vehicleNamed, hk, hf]

end

/-! ## Examples -/

section ex

/-- A solver that offers `x`. -/
noncomputable def offers (x : List ℝ) : SolverAD ℝ := fun p =>
  (@decide (Feasible 0 p x) (Classical.propDecidable _), x)

theorem offers_accurate (x : List ℝ) : Accurate 0 (offers x) := fun p y h => by
  obtain ⟨h1, rfl⟩ := Prod.mk.inj h
  exact (@decide_eq_true_iff _ (Classical.propDecidable _)).1 h1

theorem solveAD_offers {car : Steady.Car ℝ (Nat → ℝ) (Nat → ℝ) (List ℝ)} {x : List ℝ} {v : ℝ} (hl : x.length = car.nVars)
    (hs : (offers x (trimProblem car car.guess v 0 0)).1 = true) :
    solveAD car (offers x) v 0 0 none = .ok (report car true x 0 0 v 0 0) := by
  have hl' : (offers x (trimProblem car car.guess v 0 0)).2.length = car.nVars := hl
  simp only [solveAD, startPoint, Res.bind_ok, zero_div]
  rw [if_pos hl', hs]
  rfl

theorem within_of {b : List ℝ × List ℝ} {x : List ℝ} (h : F1.Within b x) : Steady.Within 0 b.1 x b.2 := by
  obtain ⟨h1, h2, h3⟩ := h
  constructor
  · rw [List.forall₂_iff_get]
    refine ⟨h1, fun i hi hj => ?_⟩
    have := (h3 i hj).1
    simp only [List.getD_eq_getElem?_getD, List.getElem?_eq_getElem hi, List.getElem?_eq_getElem hj, Option.getD_some] at this
    simpa using this
  · rw [List.forall₂_iff_get]
    refine ⟨h2.symm, fun i hi hj => ?_⟩
    have := (h3 i hi).2
    simp only [List.getD_eq_getElem?_getD, List.getElem?_eq_getElem hi, List.getElem?_eq_getElem hj, Option.getD_some] at this
    simpa using this

/-- The variables of the F1 car that rolls straight ahead. -/
noncomputable def calmX : List ℝ := [0, 0, 0, 0, 0, -(1 / 4), -(1 / 4), -(1 / 4), -(1 / 4), 0, 0]

theorem calmX_array : arrayOf calmX = fun k => if 5 ≤ k ∧ k ≤ 8 then -(1 / 4) else 0 := by
  funext k
  match k with
  | 0 | 1 | 2 | 3 | 4 | 5 | 6 | 7 | 8 | 9 | 10 => simp [arrayOf, calmX]
  | k + 11 => simp [arrayOf, calmX]

theorem calm_success (junk : Nat → ℝ) (junkLimits : Nat → F1.Limits) :
    (offers calmX (trimProblem (f1Steady F1.calmCar (6 / 10) junk junkLimits) f1Guess 60 0 0)).1 = true := by
  refine (@decide_eq_true_iff _ (Classical.propDecidable _)).2 ⟨?_, ?_⟩
  · exact within_of ⟨rfl, rfl, fun k hk => by
      match k, hk with
      | 0, _ | 1, _ | 2, _ | 3, _ | 4, _ | 5, _ | 6, _ | 7, _ | 8, _ | 9, _ | 10, _ =>
        constructor <;> norm_num [trimProblem, f1Steady, f1Bounds, calmX]⟩
  · have := F1.calm_steady junk junkLimits
    rw [← calmX_array] at this
    exact within_of this

/-- The F1 car rolls straight ahead at 60 m/s: the command finds this steady state. -/
example (junk : Nat → ℝ) (junkLimits : Nat → F1.Limits) (mem : List ℝ × List ℝ) (h1 : mem.1.length = 20)
    (h2 : mem.2.length = 4) :
    let f1s : Name → Option Entry := fun n => if n = "car".toList then some (f1Entry F1.calmCar (6 / 10) junk junkLimits) else none
    let r := steadyState (offers calmX) (fun _ => none) f1s "car".toList 60 0 0 mem
    r.result = .ok () ∧ ∃ q u, Holds r.mem.1 14 q ∧ Holds r.mem.2 4 u ∧ F1Held 0 F1.calmCar q u 60 0 0 := by
  intro f1s r
  have hf : f1s "car".toList = some (f1Entry F1.calmCar (6 / 10) junk junkLimits) := if_pos rfl
  have hok : r.result = .ok () := by
    have hs := calm_success junk junkLimits
    have hsolve := solveAD_offers (car := f1Steady F1.calmCar (6 / 10) junk junkLimits) (by rfl) hs
    simp only [r, steadyState, vehicleNamed, hf, computeSteady]
    rw [show (f1Entry F1.calmCar (6 / 10) junk junkLimits).car = f1Steady F1.calmCar (6 / 10) junk junkLimits from rfl,
      hsolve]
    simp [deliver, report, f1Entry, copyTo, h1, h2, F1.nInputs, F1.nControls, F1.roadStart, F1.cBrakeBias, F1.cThrottle,
      F1.cBoost, F1.cSteering, F1.loadStart, F1.chassisStart, F1.rearStart, F1.frontStart]
  obtain ⟨⟨q, u, h3, h4, h5, -⟩, -⟩ := C198_f1_partial F1.calmCar (6 / 10) junk junkLimits rfl hf
    (by norm_num [F1.calmCar, F1.exCar]) (by norm_num [F1.calmCar, F1.exCar]) (by norm_num [F1.calmCar, F1.exCar])
    (offers_accurate calmX) 60 0 0 (by norm_num) mem hok
  exact ⟨hok, q, u, h3, h4, h5⟩

/-- A kart rolls straight ahead: the solution is found and is a steady state. -/
example (junkQ junkU : Nat → ℝ) : ∃ (c : Kart.Vehicle) (x : List ℝ) (V : ℝ) (s : State),
    solveAD (kartSteady Kart.cramer c junkQ junkU) (offers x) V 0 0 none = .ok s ∧ s.solved = true ∧
      KartHeld Kart.cramer 0 c s.inputs s.controls V 0 0 := by
  obtain ⟨c, y, V, hV, hm, -, hb, hw, -⟩ := Kart.C161_steady_held_false Kart.cramer_solver junkQ junkU
  have hy : Kart.steadyEquations Kart.cramer c junkQ junkU (arrayOf [y 0, y 1, y 2, y 3, y 4, y 5]) 0 0 V
      = Kart.steadyEquations Kart.cramer c junkQ junkU y 0 0 V := rfl
  have hs : (offers [y 0, y 1, y 2, y 3, y 4, y 5] (trimProblem (kartSteady Kart.cramer c junkQ junkU)
      Kart.steadyGuess V 0 0)).1 = true := by
    refine (@decide_eq_true_iff _ (Classical.propDecidable _)).2 ⟨within_of hb, ?_⟩
    rw [← hy] at hw
    exact within_of hw
  have hsolve := solveAD_offers (car := kartSteady Kart.cramer c junkQ junkU) (by rfl) hs
  obtain ⟨-, -, -, hok⟩ := (C197_kart (solve := Kart.cramer) c junkQ junkU hm _ (offers_accurate _) V hV).1 0 0 none _ hsolve
  exact ⟨c, _, V, _, hsolve, rfl, (hok rfl).1⟩

/-- The diagram of an F1 car by the solver that never succeeds. -/
example (junk : Nat → ℝ) (junkLimits : Nat → F1.Limits) :
    let f1s : Name → Option Entry := fun _ => some (f1Entry F1.calmCar (6 / 10) junk junkLimits)
    let r := ggDiagram hopeless (fun _ => none) f1s "car".toList 60 3 ([1, 2, 3], [4, 5, 6, 7], [8, 9, 10])
    r.result = .ok () ∧ r.mem.1[2]? = some 10 := by
  intro f1s r
  obtain ⟨-, h1, h2, -⟩ := C199_false (karts := fun _ => none) (f1s := f1s) (name := "car".toList)
    (f1Entry F1.calmCar (6 / 10) junk junkLimits) rfl (f1_proper _ _ _ _)
    (show 0 < F1.calmCar.chassis.g0 by norm_num [F1.calmCar, F1.exCar]) 60 3 ([1, 2, 3], [4, 5, 6, 7], [8, 9, 10])
    (by norm_num) (by simp) (by simp) (by simp)
  refine ⟨h1, h2.trans ?_⟩
  show some F1.calmCar.chassis.g0 = _
  norm_num [F1.calmCar, F1.exCar]

end ex

end Verif.SteadyVehicles
