import Verif.Props.Kart

/-! # Properties of the kart: layout of inputs, limits, steady-state variables, tracks and mirror symmetry -/

set_option autoImplicit false

namespace Verif.Kart

open Verif.Road Verif.Chassis Real
open Verif.F1 (RoadKind WheelOut DEG KMH Limits written)

variable {solve : Vec3 × Vec3 × Vec3 → Vec3 → Vec3} {c : Vehicle}

/-! ## C162: steady-state variables -/

/-- C162: the variables of a steady state are read back from the inputs and controls they give. -/
theorem C162_round_trip (junkQ junkU x : Nat → ℝ) (ay V : ℝ) (hV : V ≠ 0) :
    getX (written junkQ (steadyInputs x ay V)) (written junkU (steadyControls x)) V
      = (List.range 6).map x := by
  have h : ((x 0 + 1) * V / (139 / 1000) * (139 / 1000) - V) / V = x 0 := by field_simp; ring
  have e : getX (written junkQ (steadyInputs x ay V)) (written junkU (steadyControls x)) V
      = [((x 0 + 1) * V / (139 / 1000) * (139 / 1000) - V) / V, x 1, x 2, x 3, x 4, x 5] := rfl
  rw [e, h]
  rfl

/-- C162: all inputs and controls are set: nothing is left of what the arrays held before. -/
theorem C162_all_set (junkQ junkQ' junkU junkU' x : Nat → ℝ) (ay V : ℝ) :
    (∀ k, k < nInputs → written junkQ (steadyInputs x ay V) k = written junkQ' (steadyInputs x ay V) k) ∧
    (∀ k, k < nControls → written junkU (steadyControls x) k = written junkU' (steadyControls x) k) := by
  constructor <;> intro k hk <;> simp only [nInputs, nControls, iRoad, iBody, iChassis, iAxle, cTorque, cSteering] at hk
  · match k, hk with
    | 0, _ | 1, _ | 2, _ | 3, _ | 4, _ | 5, _ | 6, _ | 7, _ | 8, _ | 9, _ | 10, _ | 11, _ | 12, _ => rfl
  · match k, hk with
    | 0, _ | 1, _ => rfl

example : getX (written (fun _ => 7) (steadyInputs (fun k => k) 3 10))
    (written (fun _ => 7) (steadyControls fun k => k)) 10 = [0, 1, 2, 3, 4, 5] := by
  rw [C162_round_trip _ _ _ _ _ (by norm_num)]
  norm_num [List.range_succ]

/-! ## C163: names, defaults and limits -/

/-- C163: inputs and controls have the documented names, all different. -/
theorem C163_names (r : RoadKind) :
    (List.range nInputs).map (inputNames r) = documentedInputs r ∧
    (List.range nControls).map controlNames = documentedControls ∧
    (documentedInputs r ++ documentedControls).Nodup := by
  cases r <;> refine ⟨rfl, rfl, by decide⟩

/-- C163: the input or control with a name is what it says. -/
theorem C163_meaning (r : RoadKind) (q u : Nat → ℝ) :
    (∀ k, k < nInputs → meaning r (setState q u) (inputNames r k) = some (q k)) ∧
    (∀ k, k < nControls → meaning r (setState q u) (controlNames k) = some (u k)) := by
  constructor <;> intro k hk <;> simp only [nInputs, nControls, iRoad, iBody, iChassis, iAxle, cTorque, cSteering] at hk
  · match k, hk with
    | 0, _ | 1, _ | 2, _ | 3, _ | 4, _ | 5, _ | 6, _ | 7, _ | 8, _ | 9, _ | 10, _ | 11, _ | 12, _ => cases r <;> rfl
  · match k, hk with
    | 0, _ | 1, _ => cases r <;> rfl

/-- C163: every input and every control has a default within its bounds, whatever was in memory. -/
theorem C163_defaults (lowest highest : ℝ) (hl : lowest ≤ 0) (hh : 0 ≤ highest) (r : RoadKind) (junk : Nat → Limits) :
    (∀ k, k < nInputs → (inputLimits lowest highest r junk k).Inside) ∧
    (∀ k, k < nControls → (controlLimits junk k).Inside) := by
  have hp := pi_pos
  constructor <;> intro k hk <;> simp only [nInputs, nControls, iRoad, iBody, iChassis, iAxle, cTorque, cSteering] at hk
  · match k, hk with
    | 0, _ | 1, _ | 2, _ | 3, _ | 4, _ | 5, _ | 6, _ | 7, _ | 8, _ | 9, _ | 10, _ | 11, _ | 12, _ =>
      cases r <;> constructor <;>
        simp [inputLimits, written, iAxle, iChassis, iBody, iRoad, KMH, DEG, hl, hh] <;> norm_num <;> linarith
  · match k, hk with
    | 0, _ | 1, _ =>
      constructor <;> simp [controlLimits, written, cSteering, cTorque, DEG] <;> linarith

/-- C163: the first guess of a steady state is within its bounds. -/
theorem C163_guess : F1.Within steadyVariableBounds steadyGuess := by
  have hp := pi_pos
  refine ⟨rfl, rfl, fun k hk => ?_⟩
  simp only [steadyGuess, List.length_cons, List.length_nil] at hk
  match k, hk with
  | 0, _ | 1, _ | 2, _ | 3, _ | 4, _ | 5, _ =>
    constructor <;> norm_num [steadyVariableBounds, steadyGuess, DEG] <;> linarith

/-- C163: a steady state within its bounds has height, attitude and steering within the limits of the inputs and
controls. -/
theorem C163_steady_inside (lowest highest : ℝ) (r : RoadKind) (junk : Nat → Limits) (x : Nat → ℝ)
    (h : F1.Within steadyVariableBounds ((List.range 6).map x)) :
    (∀ k ∈ [4, 5, 6], (inputLimits lowest highest r junk k).lb ≤ x (k - 3) ∧
      x (k - 3) ≤ (inputLimits lowest highest r junk k).ub) ∧
    (controlLimits junk 0).lb ≤ x 5 ∧ x 5 ≤ (controlLimits junk 0).ub := by
  have hp := pi_pos
  have e : ∀ k, k < 6 → steadyVariableBounds.1.getD k 0 ≤ x k ∧ x k ≤ steadyVariableBounds.2.getD k 0 := by
    intro k hk
    have := h.2.2 k (by simpa using hk)
    simpa [List.getD_eq_getElem?_getD, hk] using this
  have e1 := e 1 (by norm_num)
  have e2 := e 2 (by norm_num)
  have e3 := e 3 (by norm_num)
  have e5 := e 5 (by norm_num)
  simp only [steadyVariableBounds, List.getD_cons_zero, List.getD_cons_succ, DEG] at e1 e2 e3 e5
  constructor
  · intro k hk
    simp only [List.mem_cons, List.not_mem_nil, or_false] at hk
    rcases hk with rfl | rfl | rfl <;> cases r <;>
      simp [inputLimits, written, iAxle, iChassis, iBody, iRoad, DEG] <;> constructor <;> linarith
  · simp [controlLimits, written, cSteering, cTorque, DEG]
    constructor <;> linarith

/-- C163: with direct torque the control of the rear axle is a torque that may change by thousands of newton metres,
but is limited like a throttle: the axle never has more than 1 N·m. -/
theorem C163_direct_torque_false (h : c.power.engine.directTorque = true) (junk : Nat → Limits) (T omega : ℝ)
    (hl : (controlLimits junk 1).lb ≤ T) (hu : T ≤ (controlLimits junk 1).ub) :
    |Power.kartTorque c.power T omega| ≤ 1 ∧ (rateBounds true).2.getD 1 0 = 4000 := by
  simp [controlLimits, written, cSteering, cTorque] at hl hu
  simp only [Power.kartTorque, h, if_true]
  exact ⟨abs_le.2 ⟨hl, hu⟩, rfl⟩

example (junk : Nat → Limits) : |Power.kartTorque exKart.power (1 / 2) 80| ≤ 1 :=
  (C163_direct_torque_false (c := exKart) rfl junk _ _
    (by norm_num [controlLimits, written, cSteering, cTorque])
    (by norm_num [controlLimits, written, cSteering, cTorque])).1

example : F1.Within steadyVariableBounds ((List.range 6).map fun k => ([1 / 10, 2 / 100] : List ℝ).getD k 0) := by
  have hp := pi_pos
  refine ⟨rfl, rfl, fun k hk => ?_⟩
  simp only [List.length_map, List.length_range] at hk
  match k, hk with
  | 0, _ | 1, _ | 2, _ | 3, _ | 4, _ | 5, _ =>
    constructor <;> norm_num [steadyVariableBounds, List.range_succ, DEG] <;> linarith

/-! ## C164: flat tracks only -/

/-- C164: the kart cannot be built on a track with elevation. -/
theorem C164_constructor {τ : Type} (hasElevation : τ → Bool) (track : τ) :
    construct hasElevation track = .throw ↔ hasElevation track = true := by
  simp only [construct]
  split_ifs with h <;> simp [h]

/-- C164: a change of track throws exactly for tracks with elevation. -/
theorem C164_change_track {τ : Type} (hasElevation : τ → Bool) (old new : τ) :
    ((changeTrack hasElevation old new).threw = true ↔ hasElevation new = true) ∧
    ((changeTrack hasElevation old new).threw = false → (changeTrack hasElevation old new).track = new) :=
  ⟨Iff.rfl, fun _ => rfl⟩

/-- C164 is false for a kart whose change of track threw: it does not keep its track, but has the one with
elevation. -/
theorem C164_kept_false {τ : Type} (hasElevation : τ → Bool) (old new : τ) (h : hasElevation new = true)
    (hne : old ≠ new) :
    (changeTrack hasElevation old new).threw = true ∧ (changeTrack hasElevation old new).track ≠ old ∧
    hasElevation (changeTrack hasElevation old new).track = true :=
  ⟨h, fun e => hne e.symm, h⟩

example : (changeTrack (fun b : Bool => b) false true).track = true := rfl

/-! ## C165: the acceleration of the kart -/

/-- C165: the reported acceleration of the kart is its absolute acceleration. Partial: only while it does not turn;
see `C165_acceleration_false`. -/
theorem C165_acceleration_partial {m : ℝ → Members} {t : ℝ} (h : Follows solve c m t) (ho : (m t).omega = 0) :
    HasDerivAt (fun s => world (m s).road3 ((m s).u, (m s).v, (m s).dz))
      (world (m t).road3 (getAcceleration c (m t) (m t).road3)) t := by
  have d := h.derivs
  refine (rotZ_deriv d.road3 (hasDerivAt_vec (f := fun s => ((m s).u, (m s).v, (m s).dz)) d.u d.v d.dz)).congr_deriv ?_
  simp only [world, getAcceleration, cartesian, ho]
  congr 1
  apply vec_ext <;> simp [cross]

/-- C165 is false: while the kart turns and moves, the reported acceleration is another one. -/
theorem C165_acceleration_false {m : ℝ → Members} {t : ℝ} (h : Follows solve c m t) (ho : (m t).omega ≠ 0)
    (hu : (m t).u ≠ 0) :
    ¬ HasDerivAt (fun s => world (m s).road3 ((m s).u, (m s).v, (m s).dz))
      (world (m t).road3 (getAcceleration c (m t) (m t).road3)) t := by
  have d := h.derivs
  intro h'
  have e := rotZ_inj (h'.unique
    (rotZ_deriv d.road3 (hasDerivAt_vec (f := fun s => ((m s).u, (m s).v, (m s).dz)) d.u d.v d.dz)))
  have e2 := congrArg (fun x : Vec3 => x.2.1) e
  simp only [getAcceleration, cartesian, cross, Prod.fst_add, Prod.snd_add, zero_mul, sub_zero] at e2
  exact mul_ne_zero ho hu (by linarith)

example : ∃ m : ℝ → Members, m 0 = exMembers ∧ ¬ HasDerivAt (fun s => world (m s).road3 ((m s).u, (m s).v, (m s).dz))
      (world (m 0).road3 (getAcceleration exKart (m 0) (m 0).road3)) 0 := by
  obtain ⟨m, h0, h, -⟩ := exists_follows cramer exKart exMembers (fun _ => 1 / 10) rfl
  exact ⟨m, h0, C165_acceleration_false h (by rw [h0]; norm_num [exMembers]) (by rw [h0]; norm_num [exMembers])⟩

example : ∃ m : ℝ → Members, (m 0).u = 10 ∧ HasDerivAt (fun s => world (m s).road3 ((m s).u, (m s).v, (m s).dz))
      (world (m 0).road3 (getAcceleration exKart (m 0) (m 0).road3)) 0 := by
  obtain ⟨m, h0, h, -⟩ := exists_follows cramer exKart { exMembers with omega := 0 } (fun _ => 1 / 10) rfl
  exact ⟨m, by rw [h0]; rfl, C165_acceleration_partial h (by rw [h0])⟩

/-! ## C166: states and inputs -/

/-- C166: the states of the kart are its inputs, in the same order, on both kinds of road; the derivatives of height,
roll and pitch are the velocities among the inputs. -/
theorem C166_states (f : TrackPoint) (q u : Nat → ℝ) :
    let m := setState q u
    (evaluate solve c m (roadCurvilinear f m)).states = (List.range nInputs).map q ∧
    (evaluate solve c m (roadCartesian m)).states = (List.range nInputs).map q ∧
    ∀ k ∈ [4, 5, 6], (evaluate solve c m (roadCartesian m)).dstates.getD k 0 = q (k + 3) := by
  refine ⟨rfl, rfl, fun k hk => ?_⟩
  simp only [List.mem_cons, List.not_mem_nil, or_false] at hk
  rcases hk with rfl | rfl | rfl <;> exact mul_one _

/-- C166: the inputs of a state are recovered from the state. -/
theorem C166_recovered (q : Nat → ℝ) : statesToInputs q = q := by
  funext k
  simp only [statesToInputs, written]
  split_ifs with h1 h2 <;> simp_all

example : (evaluate cramer exKart exMembers (roadCartesian exMembers)).states.length = 13 := rfl

/-! ## C167: steady states and optimal laps -/

/-- C167: a steady state meets the constraints on the slips of an optimal lap. -/
theorem C167_slips (junkQ junkU x : Nat → ℝ) (ax ay V : ℝ)
    (h : F1.Within steadyBounds (steadyEquations solve c junkQ junkU x ax ay V)) :
    F1.Within extraBounds (extraConstraints c
      (setState (written junkQ (steadyInputs x ay V)) (written junkU (steadyControls x)))) := by
  obtain ⟨-, -, hb⟩ := h
  have e : ∀ k, k < 12 → _ := fun k hk => hb k (by simpa [steadyEquations] using hk)
  have e6 := e 6 (by norm_num)
  have e7 := e 7 (by norm_num)
  have e8 := e 8 (by norm_num)
  have e9 := e 9 (by norm_num)
  have e10 := e 10 (by norm_num)
  have e11 := e 11 (by norm_num)
  simp only [steadyEquations, steadyBounds, List.getD_cons_zero, List.getD_cons_succ] at e6 e7 e8 e9 e10 e11
  refine ⟨rfl, rfl, fun k hk => ?_⟩
  simp only [extraConstraints, List.length_cons, List.length_nil] at hk
  simp only [extraConstraints, extraBounds]
  match k, hk with
  | 0, _ => exact e6
  | 1, _ => exact e7
  | 2, _ => simp only [List.getD_cons_zero, List.getD_cons_succ]; constructor <;> linarith
  | 3, _ => simp only [List.getD_cons_zero, List.getD_cons_succ]; constructor <;> linarith
  | 4, _ => simp only [List.getD_cons_zero, List.getD_cons_succ]; constructor <;> linarith
  | 5, _ => simp only [List.getD_cons_zero, List.getD_cons_succ]; constructor <;> linarith

example : ∃ (c : Vehicle) (x : Nat → ℝ) (V : ℝ), F1.Within extraBounds (extraConstraints c
    (setState (written (fun _ => 0) (steadyInputs x 0 V)) (written (fun _ => 0) (steadyControls x)))) := by
  obtain ⟨c, x, V, -, -, -, -, hw, -⟩ := C161_steady_held_false cramer_solver (fun _ => 0) (fun _ => 0)
  exact ⟨c, x, V, C167_slips _ _ _ _ _ _ hw⟩

end Verif.Kart
