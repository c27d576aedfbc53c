import Verif.Spec.LapRanges
import Verif.Props.LapVehicles
import Verif.Props.LapOptions
import Verif.Props.KartLayout
import Verif.Props.F1Layout

/-! Properties of the ranges of the variables of a lap (C259). -/

set_option autoImplicit false

namespace Verif.LapVehicles

open Verif.Road Verif.Chassis Verif.Control Verif.Transcription
open Verif.LapOptions (CarType Given Node entries Texts configure lapRequest Config)

/-- What the options leave as it is. -/
theorem unbounded_defaults {T : Texts ℝ} {car : CarType ℝ} {tables : String → Option (List ℝ)} {junkQ junkU : Row ℝ} {o : Given}
    {c : Config ℝ} (hn : (car.inputs ++ car.controls).Nodup) (h : configure T car tables junkQ junkU o = .ok c) :
    (∀ j name, car.inputs[j]? = some name → Unbounded o name → c.inputsLb j = car.inputsLb j ∧ c.inputsUb j = car.inputsUb j) ∧
    ∀ j name, car.controls[j]? = some name → Unbounded o name →
      c.controlsLb j = car.controlsLb j ∧ c.controlsUb j = car.controlsUb j := by
  cases o with
  | empty =>
    obtain rfl := Res.ok.inj h
    exact ⟨fun _ _ _ _ => ⟨rfl, rfl⟩, fun _ _ _ _ => ⟨rfl, rfl⟩⟩
  | malformed => cases h
  | doc d =>
    obtain ⟨h1, h2⟩ := LapOptions.C173_variable_bounds T car tables junkQ junkU d c hn h
    have key : ∀ side name (x y : ℝ), (∀ e ∈ entries d "variable_bounds", e.name ≠ name) →
        LapOptions.Latest (entries d "variable_bounds") (LapOptions.boundOf T side name) x y → y = x := by
      rintro side name x y hu (⟨-, e⟩ | ⟨b, e, a, hl, he, -⟩)
      · exact e
      · rw [LapOptions.boundOf, if_neg (hu e (by rw [hl]; simp))] at he
        cases he
    constructor <;> intro j name hj hu
    · obtain ⟨hlt, rfl⟩ := List.getElem?_eq_some_iff.1 hj
      exact ⟨key _ _ _ _ hu (h1 j hlt).1, key _ _ _ _ hu (h1 j hlt).2⟩
    · obtain ⟨hlt, rfl⟩ := List.getElem?_eq_some_iff.1 hj
      exact ⟨key _ _ _ _ hu (h2 j hlt).1, key _ _ _ _ hu (h2 j hlt).2⟩

/-- Ranges of the options of a vehicle. -/
def HasRanges (ranges controlRanges : List (String × ℝ × ℝ)) (car : CarType ℝ) (iTime : Nat) : Prop :=
  (∀ j name lo hi, car.inputs[j]? = some name → (name, lo, hi) ∈ ranges →
    j ≠ iTime ∧ j ≠ iTime + 1 ∧ car.inputsLb j = lo ∧ car.inputsUb j = hi) ∧
  ∀ j name lo hi, car.controls[j]? = some name → (name, lo, hi) ∈ controlRanges → car.controlsLb j = lo ∧ car.controlsUb j = hi

theorem in_ranges {v : Transcription.Vehicle ℝ} {ranges controlRanges : List (String × ℝ × ℝ)} {T : Texts ℝ} {car : CarType ℝ}
    (hr : HasRanges ranges controlRanges car v.iTime) (hin : car.inputs.length = v.nInputs)
    {tables : String → Option (List ℝ)} {junkQ junkU : Row ℝ} {o : Given}
    {c : Config ℝ} (hn : (car.inputs ++ car.controls).Nodup) (h : configure T car tables junkQ junkU o = .ok c)
    {nControls : Nat} {s : List ℝ} {q u : Row ℝ} {w : LapOptions.Warm ℝ} {r : Request ℝ}
    (hreq : lapRequest c nControls s q u w = .ok r) {lowest max tolB tolC : ℝ} {p : Problem ℝ} {ini : Initial ℝ} {nlp : Nlp ℝ}
    (hset : setUp lowest max v r = .ok (p, ini, nlp)) (hv : v.WellFormed r.controls.length) (hcov : HypermeshCovers p)
    {lap : Lap ℝ} {node : Nat → Transcription.Node ℝ} (hob : Obeys v p tolB tolC lap.inputs lap.controls node) :
    InRanges ranges controlRanges o p lap car.inputs car.controls tolB := by
  obtain ⟨e1, e2, e3, e4, -, -⟩ := LapOptions.C173_bounds_are_used c nControls s q u w r hreq
  obtain ⟨d1, d2⟩ := unbounded_defaults hn h
  obtain ⟨es, b, hb⟩ := setUp_ready hv hset hcov
  have ho : p.opts = r.opts := (prepare_ok hb.run.prepared).2.opts
  constructor
  · intro j name lo hi hj hm hu i row hi' hrow
    obtain ⟨n1, n2, n3, n4⟩ := hr.1 j name lo hi hj hm
    have hlt : j < v.nInputs := hin ▸ (List.getElem?_eq_some_iff.1 hj).1
    have := hob.inputs i j row hi' hlt n1 n2 hrow
    rwa [ho, e1, e2, (d1 j name hj hu).1, (d1 j name hj hu).2, n3, n4] at this
  · intro j name lo hi hj hm hu cv hcv
    obtain ⟨n3, n4⟩ := hr.2 j name lo hi hj hm
    constructor
    · intro hk i a hi' ha
      have := hob.full i j cv a hi' hcv hk ha
      rwa [ho, e3, e4, (d2 j name hj hu).1, (d2 j name hj hu).2, n3, n4] at this
    · intro hk i a ha
      have := hob.other j i cv a hcv hk ha
      rwa [ho, e3, e4, (d2 j name hj hu).1, (d2 j name hj hu).2, n3, n4] at this

theorem f1_inputs (o : List String) (a b c d : Row ℝ) : (LapOptions.f1Type o a b c d).inputs =
    ["front-axle.left-tire.kappa", "front-axle.right-tire.kappa", "rear-axle.left-tire.kappa", "rear-axle.right-tire.kappa",
     "chassis.velocity.x", "chassis.velocity.y", "chassis.omega.z", "chassis.force_z_fl_g", "chassis.force_z_fr_g",
     "chassis.force_z_rl_g", "chassis.force_z_rr_g", "time", "road.lateral-displacement", "road.track-heading-angle"] := by
  simp only [LapOptions.f1Type]
  decide

theorem f1_controls (o : List String) (a b c d : Row ℝ) : (LapOptions.f1Type o a b c d).controls =
    ["front-axle.steering-angle", "rear-axle.boost", "chassis.throttle", "chassis.brake-bias"] := by
  simp only [LapOptions.f1Type]
  decide

theorem kart_inputs (o : List String) (a b c d : Row ℝ) : (LapOptions.kartType o a b c d).inputs =
    ["rear-axle.omega", "chassis.velocity.x", "chassis.velocity.y", "chassis.omega.z", "chassis.position.z", "chassis.attitude.phi",
     "chassis.attitude.mu", "chassis.velocity.z", "chassis.omega.x", "chassis.omega.y", "time", "road.lateral-displacement",
     "road.track-heading-angle"] := by
  simp only [LapOptions.kartType]
  decide

theorem kart_controls (o : List String) (a b c d : Row ℝ) : (LapOptions.kartType o a b c d).controls =
    ["front-axle.steering-angle", "rear-axle.throttle"] := by
  simp only [LapOptions.kartType]
  decide

theorem f1_ranges (outputs : List String) (lowest max bias0 : ℝ) (junk junkU : Nat → F1.Limits) :
    HasRanges f1Ranges f1ControlRanges (f1InLaps outputs lowest max bias0 junk junkU) 11 := by
  constructor
  · intro j name lo hi hj hm
    rw [f1InLaps, f1_inputs] at hj
    obtain ⟨hlt, rfl⟩ := List.getElem?_eq_some_iff.1 hj
    simp only [List.length_cons, List.length_nil] at hlt
    simp only [f1Ranges] at hm
    interval_cases j <;> simp at hm
    all_goals
      obtain ⟨rfl, rfl⟩ := hm
      refine ⟨by norm_num, by norm_num, ?_, ?_⟩ <;>
      simp [f1InLaps, LapOptions.f1Type, F1.inputLimits, F1.chassis3InputLimits, F1.chassisInputLimits, F1.axleInputLimits,
        F1.roadInputLimits, F1.written, F1.frontStart, F1.rearStart, F1.chassisStart, F1.loadStart, F1.roadStart, F1.KMH, F1.DEG, kmh,
        degrees] <;> try ring
  · intro j name lo hi hj hm
    rw [f1InLaps, f1_controls] at hj
    obtain ⟨hlt, rfl⟩ := List.getElem?_eq_some_iff.1 hj
    simp only [List.length_cons, List.length_nil] at hlt
    simp only [f1ControlRanges] at hm
    interval_cases j <;> simp at hm
    all_goals
      obtain ⟨rfl, rfl⟩ := hm
      refine ⟨?_, ?_⟩ <;>
      simp [f1InLaps, LapOptions.f1Type, F1.controlLimits, F1.controlLimitWrites, F1.written, F1.cSteering, F1.cBoost, F1.cThrottle,
        F1.cBrakeBias, F1.DEG, degrees] <;> try ring

theorem kart_ranges (outputs : List String) (lowest max : ℝ) (junk junkU : Nat → F1.Limits) :
    HasRanges kartRanges kartControlRanges (kartInLaps outputs lowest max junk junkU) 10 := by
  constructor
  · intro j name lo hi hj hm
    rw [kartInLaps, kart_inputs] at hj
    obtain ⟨hlt, rfl⟩ := List.getElem?_eq_some_iff.1 hj
    simp only [List.length_cons, List.length_nil] at hlt
    simp only [kartRanges] at hm
    interval_cases j <;> simp at hm
    all_goals
      obtain ⟨rfl, rfl⟩ := hm
      refine ⟨by norm_num, by norm_num, ?_, ?_⟩ <;>
      simp [kartInLaps, LapOptions.kartType, Kart.inputLimits, F1.written, Kart.iAxle, Kart.iChassis, Kart.iBody, Kart.iRoad, F1.KMH,
        F1.DEG, kmh, degrees] <;> try (first | ring | norm_num)
  · intro j name lo hi hj hm
    rw [kartInLaps, kart_controls] at hj
    obtain ⟨hlt, rfl⟩ := List.getElem?_eq_some_iff.1 hj
    simp only [List.length_cons, List.length_nil] at hlt
    simp only [kartControlRanges] at hm
    interval_cases j <;> simp at hm
    all_goals
      obtain ⟨rfl, rfl⟩ := hm
      refine ⟨?_, ?_⟩ <;>
      simp [kartInLaps, LapOptions.kartType, Kart.controlLimits, F1.written, Kart.cSteering, Kart.cTorque, F1.DEG, degrees] <;> try ring

/-! ## C259 -/

/-- C259: in every lap of the F1 car the variables to which the options give no bounds are in their ranges. -/
theorem C259_f1 (T : Texts ℝ) (outputs : List String) (lo hi bias : ℝ) (junk junkU junkV : Nat → F1.Limits)
    (tables : String → Option (List ℝ)) (junkQ junkC : Row ℝ) (o : Given) (c : Config ℝ)
    (hc : configure T (f1InLaps outputs lo hi bias junk junkU) tables junkQ junkC o = .ok c)
    (s : List ℝ) (q u : Row ℝ) (w : LapOptions.Warm ℝ) (r : Request ℝ) (hreq : lapRequest c 4 s q u w = .ok r)
    (h4 : r.controls.length = 4) (car : ℝ → F1.Car) (power : ℝ) (ready tf : Bool) (t : Circuit) (lowest max : ℝ)
    (p : Problem ℝ) (ini : Initial ℝ) (nlp : Nlp ℝ)
    (hset : setUp lowest max (f1Vehicle car bias power junkV ready t) r = .ok (p, ini, nlp)) (hcov : HypermeshCovers p)
    (opt : Optimiser ℝ) (hopt : RightSizes opt) (tolB tolC : ℝ) (hrel : Reliable tolB tolC opt) (lap : Lap ℝ)
    (hlap : solveLap lowest max (f1Vehicle car bias power junkV ready t) tf opt r = .ok lap) (hsuc : lap.success = true) :
    InRanges f1Ranges f1ControlRanges o p lap (LapOptions.f1Type (K := ℝ) outputs 0 0 0 0).inputs
      (LapOptions.f1Type (K := ℝ) outputs 0 0 0 0).controls tolB := by
  have hv : (f1Vehicle car bias power junkV ready t).WellFormed r.controls.length := h4 ▸ f1_wf car bias power junkV ready t
  obtain ⟨node, t0, -, -, -, -, hn, -⟩ := C190_own_times lowest max _ r hv (f1_clockFree car bias power junkV ready t) p ini nlp hset
    hcov opt hopt tf lap hlap
  have hob := C190_lap_obeys lowest max _ r hv (f1_clockFree car bias power junkV ready t) p ini nlp hset hcov opt hopt tolB tolC hrel
    tf lap hlap hsuc node hn
  exact in_ranges (f1_ranges outputs lo hi bias junk junkU) rfl (LapOptions.f1Type_names _ _ _ _ _) hc hreq hset hv hcov hob

/-- An open lap with every control at its default, and other bounds for three of the controls. -/
def rangesDoc : LapOptions.Node := .mk "options" "" []
  [LapOptions.leaf "closed_simulation" "false",
   .mk "initial_condition" "" [] [.mk "q" "" [("from_table", "q0")] [], .mk "u" "" [("from_table", "u0")] []],
   .mk "control_variables" "" []
     [.mk "front-axle.steering-angle" "" [("optimal_control_type", "dont optimize")] [],
      .mk "chassis.throttle" "" [("optimal_control_type", "dont optimize")] []],
   .mk "variable_bounds" "" []
     [.mk "front-axle.steering-angle" "" [] [LapOptions.leaf "lower" "-1", LapOptions.leaf "upper" "1"],
      .mk "rear-axle.boost" "" [] [LapOptions.leaf "lower" "-1"],
      .mk "chassis.brake-bias" "" [] [LapOptions.leaf "lower" "-1"]]]

/-- How its texts are read. -/
noncomputable def rangesTexts : Texts ℝ where
  bool t := if t = "false" then .ok false else .throw
  int _ := .throw
  num t := if t = "1" then .ok 1 else if t = "-1" then .ok (-1) else .throw
  nums _ := .throw
  trim t := t

/-- The F1 car of the example. -/
noncomputable abbrev rangesCar : CarType ℝ :=
  f1InLaps [] (-1000) 1000 (6 / 10) (fun _ => ⟨0, -1000, 1000⟩) fun _ => ⟨0, -1, 1⟩

theorem ranges_config : configure rangesTexts rangesCar
    (fun n => if n = "q0" then some ((List.range 14).map F1.straightInputs) else some [0, 0, 0, 0]) (fun _ => 0) (fun _ => 0)
    (.doc rangesDoc) = .ok { LapOptions.defaults rangesCar (fun _ => 0) (fun _ => 0) with
      isClosed := false
      setInitial := true
      types := Function.update (Function.update rangesCar.types 0 "dont optimize") 2 "dont optimize"
      qStart := fun i => ((List.range 14).map F1.straightInputs).getD i 0
      uStart := fun i => [0, 0, 0, 0].getD i 0
      controlsLb := Function.update (Function.update (Function.update rangesCar.controlsLb 0 (-1)) 1 (-1)) 3 (-1)
      controlsUb := Function.update rangesCar.controlsUb 0 1 } := rfl

theorem ranges_request (c : Config ℝ) (hc : configure rangesTexts rangesCar
    (fun n => if n = "q0" then some ((List.range 14).map F1.straightInputs) else some [0, 0, 0, 0]) (fun _ => 0) (fun _ => 0)
    (.doc rangesDoc) = .ok c) :
    lapRequest c 4 [0, 50] F1.straightInputs (fun _ => 0) ⟨[], false, false, [], [], [], [], []⟩ =
      .ok (goWithin rangesCar.inputsLb rangesCar.inputsUb 4 F1.straightInputs F1.straightInputs) := by
  rw [ranges_config] at hc
  obtain rfl := Res.ok.inj hc
  have e1 : (fun i => ((List.range 14).map F1.straightInputs).getD i 0) = F1.straightInputs := by
    funext i
    by_cases hi : i < 14
    · interval_cases i <;> rfl
    · rw [List.getD_eq_getElem?_getD, List.getElem?_eq_none (by simpa using hi), Option.getD_none, F1.straightInputs, if_neg (by omega), if_neg (by omega)]
  have e2 : Function.update (Function.update (Function.update rangesCar.controlsLb 0 (-1)) 1 (-1)) 3 (-1) = fun _ => -1 := by
    funext i
    match i with
    | 0 | 1 | 2 | 3 => simp [rangesCar, f1InLaps, LapOptions.f1Type, F1.controlLimits, F1.controlLimitWrites, F1.written, F1.cSteering,
        F1.cBoost, F1.cThrottle, F1.cBrakeBias, Function.update]
    | i + 4 => simp [rangesCar, f1InLaps, LapOptions.f1Type, F1.controlLimits, F1.controlLimitWrites, F1.written, F1.cSteering,
        F1.cBoost, F1.cThrottle, F1.cBrakeBias, Function.update]
  have e3 : Function.update rangesCar.controlsUb 0 1 = fun _ => 1 := by
    funext i
    match i with
    | 0 | 1 | 2 | 3 => simp [rangesCar, f1InLaps, LapOptions.f1Type, F1.controlLimits, F1.controlLimitWrites, F1.written, F1.cSteering,
        F1.cBoost, F1.cThrottle, F1.cBrakeBias, Function.update]
    | i + 4 => simp [rangesCar, f1InLaps, LapOptions.f1Type, F1.controlLimits, F1.controlLimitWrites, F1.written, F1.cSteering,
        F1.cBoost, F1.cThrottle, F1.cBrakeBias, Function.update]
  simp only [e1, e2, e3]
  rfl

/-- C259 on a lap of `calmCar`: it keeps below 380 km/h. -/
example : ∃ (p : Problem ℝ) (lap : Lap ℝ), lap.success = true ∧
    ∀ (i : Nat) (row : Nat → ℝ), Optimised p i → lap.inputs[i]? = some row → kmh 50 ≤ row 4 ∧ row 4 ≤ kmh 380 := by
  have hids : idsOf (F1.classify false) = ([0, 1, 2, 3, 4, 5, 6, 12, 13], [7, 8, 9, 10]) := by decide
  have hti : calmLap.timeIds = [0, 1, 2, 3, 4, 5, 6, 12, 13] := congrArg Prod.fst hids
  have hai : calmLap.algIds = [7, 8, 9, 10] := congrArg Prod.snd hids
  have hd (k : Nat) (hk : k ≠ 11) (s : ℝ) : (calmLap.eval F1.straightInputs calmLap.controlsDef s).dstates k = 0 := by
    rw [(calm_eval s).2, F1.calm_dstates, if_neg hk]
  have hpi := Real.pi_pos
  obtain ⟨p, ini, nlp, lap, h1, h2, h3, h4, -⟩ := go_lap (v := calmLap) (n := 4) (row := F1.straightInputs)
    (row' := F1.straightInputs) (lb := rangesCar.inputsLb) (ub := rangesCar.inputsUb)
    (f1_wf _ _ _ _ _ _) (f1_clockFree _ _ _ _ _ _) rfl (by norm_num [calmLap, f1Vehicle, straightTrack]) rfl
    (by decide) (by norm_num [calmLap, f1Vehicle, straightTrack, F1.straightInputs, F1.roadStart, F1.loadStart, F1.chassisStart, F1.rearStart,
      F1.frontStart])
    (fun j => by
      by_cases hj : j < 14
      · interval_cases j <;>
        simp [rangesCar, f1InLaps, LapOptions.f1Type, F1.inputLimits, F1.chassis3InputLimits, F1.chassisInputLimits, F1.axleInputLimits,
          F1.roadInputLimits, F1.written, F1.frontStart, F1.rearStart, F1.chassisStart, F1.loadStart, F1.roadStart, F1.KMH, F1.DEG,
          F1.straightInputs] <;> norm_num <;> positivity
      · have e : rangesCar.inputsLb j = -1000 ∧ rangesCar.inputsUb j = 1000 := by
          obtain ⟨k, rfl⟩ := Nat.exists_eq_add_of_le' (not_lt.1 hj)
          simp [rangesCar, f1InLaps, LapOptions.f1Type, F1.inputLimits, F1.chassis3InputLimits, F1.chassisInputLimits,
            F1.axleInputLimits, F1.roadInputLimits, F1.written, F1.frontStart, F1.rearStart, F1.chassisStart, F1.loadStart,
            F1.roadStart]
        rw [e.1, e.2, F1.straightInputs, if_neg (by omega), if_neg (by omega)]
        norm_num)
    (fun k hk => ⟨by rw [(calm_eval 50).1, (calm_eval 0).1], by
      have : k ≠ 11 := by rintro rfl; rw [hti] at hk; simp at hk
      rw [hd k this, hd k this, add_zero]⟩)
    (fun k hk => hd k (by rintro rfl; rw [hai] at hk; simp at hk) 50) calm_extra
  have := C259_f1 rangesTexts [] (-1000) 1000 (6 / 10) (fun _ => ⟨0, -1000, 1000⟩) (fun _ => ⟨0, -1, 1⟩) (fun _ => ⟨0, 0, 0⟩) _ _ _ _ _
    ranges_config [0, 50] F1.straightInputs (fun _ => 0) ⟨[], false, false, [], [], [], [], []⟩ _ (ranges_request _ ranges_config) rfl
    (fun _ => F1.calmCar) 0 true true straightTrack (-10 ^ 9) (10 ^ 9) p ini nlp h1 h2 stayOpt stayOpt_sizes 0 0 stayOpt_reliable lap
    h3 h4
  refine ⟨p, lap, h4, fun i row hi hrow => ?_⟩
  have h := this.inputs 4 "chassis.velocity.x" (kmh 50) (kmh 380) (by rw [f1_inputs]; rfl) (by simp [f1Ranges])
    (by
      intro e he
      have hl : entries rangesDoc "variable_bounds" =
        [.mk "front-axle.steering-angle" "" [] [LapOptions.leaf "lower" "-1", LapOptions.leaf "upper" "1"],
         .mk "rear-axle.boost" "" [] [LapOptions.leaf "lower" "-1"],
         .mk "chassis.brake-bias" "" [] [LapOptions.leaf "lower" "-1"]] := rfl
      rw [hl] at he
      simp only [List.mem_cons, List.not_mem_nil, or_false] at he
      rcases he with rfl | rfl | rfl <;> simp [LapOptions.Node.name]) i row hi hrow
  rwa [sub_zero, add_zero] at h

/-- C259 for the kart. -/
theorem C259_kart (T : Texts ℝ) (outputs : List String) (lo hi : ℝ) (junk junkU junkV : Nat → F1.Limits)
    (tables : String → Option (List ℝ)) (junkQ junkC : Row ℝ) (o : Given) (c : Config ℝ)
    (hc : configure T (kartInLaps outputs lo hi junk junkU) tables junkQ junkC o = .ok c)
    (s : List ℝ) (q u : Row ℝ) (w : LapOptions.Warm ℝ) (r : Request ℝ) (hreq : lapRequest c 2 s q u w = .ok r)
    (h2 : r.controls.length = 2) (solve : Vec3 × Vec3 × Vec3 → Vec3 → Vec3) (kart : ℝ → Kart.Vehicle) (direct ready tf : Bool)
    (t : Circuit) (lowest max : ℝ) (p : Problem ℝ) (ini : Initial ℝ) (nlp : Nlp ℝ)
    (hset : setUp lowest max (kartVehicle solve kart direct junkV ready t) r = .ok (p, ini, nlp)) (hcov : HypermeshCovers p)
    (opt : Optimiser ℝ) (hopt : RightSizes opt) (tolB tolC : ℝ) (hrel : Reliable tolB tolC opt) (lap : Lap ℝ)
    (hlap : solveLap lowest max (kartVehicle solve kart direct junkV ready t) tf opt r = .ok lap) (hsuc : lap.success = true) :
    InRanges kartRanges kartControlRanges o p lap (LapOptions.kartType (K := ℝ) outputs 0 0 0 0).inputs
      (LapOptions.kartType (K := ℝ) outputs 0 0 0 0).controls tolB := by
  have hv : (kartVehicle solve kart direct junkV ready t).WellFormed r.controls.length :=
    h2 ▸ kart_wf junkV ready t solve kart direct
  obtain ⟨node, t0, -, -, -, -, hn, -⟩ := C190_own_times lowest max _ r hv (kart_clockFree junkV ready t solve kart direct) p ini nlp
    hset hcov opt hopt tf lap hlap
  have hob := C190_lap_obeys lowest max _ r hv (kart_clockFree junkV ready t solve kart direct) p ini nlp hset hcov opt hopt tolB tolC
    hrel tf lap hlap hsuc node hn
  exact in_ranges (kart_ranges outputs lo hi junk junkU) rfl (LapOptions.kartType_names _ _ _ _ _) hc hreq hset hv hcov hob

/-- What C259 says of the kart comes from its request: without options a lap may reach 200 km/h. -/
example (T : Texts ℝ) (junk junkU : Nat → F1.Limits) : ∃ (c : Config ℝ) (r : Request ℝ),
    configure T (kartInLaps [] (-1000) 1000 junk junkU) (fun _ => none) (fun _ => 0) (fun _ => 0) .empty = .ok c ∧
    lapRequest c 2 [0, 50] rollInputs (fun _ => 0) ⟨[], false, false, [], [], [], [], []⟩ = .ok r ∧ r.controls.length = 2 ∧
    r.opts.inputsUb 1 = kmh 200 := by
  refine ⟨_, _, rfl, rfl, rfl, ?_⟩
  exact ((kart_ranges [] (-1000) 1000 junk junkU).1 1 "chassis.velocity.x" (kmh 10) (kmh 200) (by rw [kartInLaps, kart_inputs]; rfl)
    (by simp [kartRanges])).2.2.2

end Verif.LapVehicles
