import Verif.Lemmas.LapCommand
import Verif.Props.Control
import Verif.Props.LapOptions

/-!
# The command of an optimal lap (C176-C180)
-/

set_option autoImplicit false

namespace Verif.LapOptions

open Verif.Control Verif.Transcription

variable {K : Type*}

/-! ### C176: the control variables are as configured -/

/-- Each control variable has the configured type, and starts from the steady state `u`: one value for a constant, one
per point of the hypermesh, one per point of the lap for a full mesh with the configured dissipation (and zero
derivatives if the derivatives are the controls). -/
theorem C176_as_configured [Zero K] (c : Config K) (nControls n : Nat) (u : Row K) (j : Nat) (hj : j < nControls) :
    ∃ cv, (controlVariables c nControls n u)[j]? = some cv ∧
      (c.types j = "dont optimize" → cv.kind = .dontOptimize) ∧
      (c.types j = "constant" → cv.kind = .constant ∧ cv.controls = [u j]) ∧
      (c.types j = "hypermesh" → cv.kind = .hypermesh ∧ cv.sHypermesh = c.hypermeshes j ∧
        cv.controls = List.replicate (c.hypermeshes j).length (u j)) ∧
      (c.types j = "full-mesh" → cv.kind = .fullMesh ∧ cv.controls = List.replicate n (u j) ∧
        cv.dissipation = c.dissipations j ∧
        cv.dcontrolsDt = if c.isDirect then [] else List.replicate n 0) := by
  refine ⟨controlVariable c n (u j) j, by simp [controlVariables, hj], ?_, ?_, ?_, ?_⟩
  · intro h
    simp [controlVariable, h, createDontOptimize]
  · intro h
    simp [controlVariable, h, createConstant]
  · intro h
    simp [controlVariable, h, createHypermesh]
  · intro h
    cases hd : c.isDirect <;> simp [controlVariable, h, hd, createFullMesh, createFullMeshD]

/-- The control variables pass the checks of the lap exactly when no full-mesh dissipation is negative. -/
theorem C176_checks_pass_iff [Zero K] [LinearOrder K] (c : Config K) (nControls n : Nat) (u : Row K)
    (ht : ∀ j < nControls, c.types j ∈ controlTypes) :
    (∃ cs st, check (controlVariables c nControls n u) = .ok (cs, st) ∧ checkControls c.isDirect n cs = .ok ()) ↔
      ∀ j < nControls, c.types j = "full-mesh" → 0 ≤ c.dissipations j := by
  have hall : (∀ cv ∈ controlVariables c nControls n u, Consistent cv) ↔
      ∀ j < nControls, c.types j = "full-mesh" → 0 ≤ c.dissipations j := by
    simp only [controlVariables, List.mem_map, List.mem_range, forall_exists_index, and_imp,
      forall_apply_eq_imp_iff₂]
    exact forall₂_congr fun j hj => controlVariable_consistent c n (u j) j (ht j hj)
  rw [← hall]
  constructor
  · rintro ⟨cs, st, h, -⟩
    by_contra hn
    rw [(C19_validation_accepts_iff _).2 hn] at h
    exact absurd h (by simp)
  · intro h
    obtain ⟨st, hc⟩ := (C19_validation_accepts_iff _).1 h
    refine ⟨_, st, hc, checkControls_ok _ _ _ ?_⟩
    intro cv hcv hk
    obtain ⟨cv0, h0, rfl⟩ := List.mem_map.1 hcv
    simp only [controlVariables, List.mem_map, List.mem_range] at h0
    obtain ⟨j, hj, rfl⟩ := h0
    have hkind : (meaningful (controlVariable c n (u j) j)).kind = (controlVariable c n (u j) j).kind := by
      unfold meaningful
      split <;> rfl
    have hlen : (meaningful (controlVariable c n (u j) j)).controls = (controlVariable c n (u j) j).controls ∧
        (meaningful (controlVariable c n (u j) j)).dcontrolsDt = (controlVariable c n (u j) j).dcontrolsDt := by
      unfold meaningful
      split <;> exact ⟨rfl, rfl⟩
    rw [hkind, controlVariable_kind] at hk
    have ht' : c.types j = "full-mesh" := by
      have := ht j hj
      simp only [controlTypes, List.mem_cons, List.not_mem_nil, or_false] at this
      rcases this with h1 | h1 | h1 | h1
      · simp [kindOf, h1] at hk
      · simp [kindOf, h1] at hk
      · simp [kindOf, h1] at hk
      · exact h1
    obtain ⟨cv, hcv, -, -, -, h4⟩ := C176_as_configured c nControls n u j hj
    obtain rfl : controlVariable c n (u j) j = cv := by simpa [controlVariables, hj] using hcv
    obtain ⟨-, h5, -, h6⟩ := h4 ht'
    rw [hlen.1, hlen.2, h5, h6]
    refine ⟨by simp, ?_⟩
    cases c.isDirect <;> simp

/-- Before the lap is optimised every control has, at every point where it has a value, the value of the steady state
(zero for the second control of the kart); a control that is not optimised has the vehicle's default. -/
theorem C176_starts_from_steady_state [Zero K] [LinearOrder K] (c : Config K) (nControls n : Nat) (isKart : Bool)
    (u : Row K) (dflt us : List K) (i : Nat) (s : K) (ht : ∀ j < nControls, c.types j ∈ controlTypes)
    (hd : dflt.length = nControls)
    (h : controlArrayAtS (controlVariables c nControls n (startingControls isKart u)) dflt i s = .ok us) (j : Nat)
    (hj : j < nControls) :
    us[j]? = some (if c.types j = "dont optimize" then dflt[j]
      else if isKart = true ∧ j = 1 then 0 else u j) := by
  have hlen : (controlVariables c nControls n (startingControls isKart u)).length = nControls := by
    simp [controlVariables]
  obtain ⟨h1, h2⟩ := controlArrayAtS_ok _ _ _ _ _ (by rw [hlen, hd]) h
  have hj' : j < us.length := by rw [h1, hlen]; exact hj
  have h3 := h2 j (by rw [hlen]; exact hj) (by rw [hd]; exact hj) hj'
  have h4 : (controlVariables c nControls n (startingControls isKart u))[j]'(by rw [hlen]; exact hj) =
      controlVariable c n (startingControls isKart u j) j := by simp [controlVariables]
  rw [h4] at h3
  have h5 := controlVariable_value c n _ _ j i s _ (ht j hj) h3
  rw [List.getElem?_eq_getElem hj', h5]
  congr 2
  unfold startingControls
  cases isKart
  · simp
  · by_cases hj1 : j = 1
    · simp [hj1]
    · simp [hj1]

/-- The configuration of the examples. -/
def sampleConfig : Config ℚ :=
  { defaults sampleCar (fun _ => 0) (fun _ => 0) with
    types := fun j => ["full-mesh", "constant", "hypermesh", "dont optimize"].getD j ""
    hypermeshes := fun _ => [0, 100] }

theorem sampleConfig_types : ∀ j < 4, sampleConfig.types j ∈ controlTypes := by
  intro j hj
  rcases j with _ | _ | _ | _ | j <;> first | omega | simp [sampleConfig, controlTypes]

example : ∃ cv, (controlVariables sampleConfig 4 3 (fun j => (j : ℚ)))[2]? = some cv ∧ cv.controls = [2, 2] := by
  obtain ⟨cv, h, -, -, h3, -⟩ := C176_as_configured sampleConfig 4 3 (fun j => (j : ℚ)) 2 (by decide)
  obtain ⟨-, -, h4⟩ := h3 rfl
  exact ⟨cv, h, h4⟩

example : ∃ cs st, check (controlVariables sampleConfig 4 3 (fun j => (j : ℚ))) = .ok (cs, st) ∧
    checkControls sampleConfig.isDirect 3 cs = .ok () :=
  (C176_checks_pass_iff sampleConfig 4 3 _ sampleConfig_types).2 (by
    intro j hj h
    rcases j with _ | _ | _ | _ | j
    · show (0 : ℚ) ≤ 50
      norm_num
    · exact absurd h (by decide)
    · exact absurd h (by decide)
    · exact absurd h (by decide)
    · omega)

example : ∃ us, controlArrayAtS (controlVariables sampleConfig 4 3 (startingControls false fun j => (j : ℚ)))
    [9, 9, 9, 9] 1 (150 : ℚ) = .ok us ∧ us[2]? = some 2 ∧ us[3]? = some 9 := by
  obtain ⟨us, h⟩ : ∃ us, controlArrayAtS (controlVariables sampleConfig 4 3 (startingControls false fun j => (j : ℚ)))
    [9, 9, 9, 9] 1 (150 : ℚ) = .ok us := ⟨[0, 1, 2, 9], by decide +kernel⟩
  refine ⟨us, h, ?_, ?_⟩
  · exact C176_starts_from_steady_state _ _ _ _ _ _ _ _ _ sampleConfig_types rfl h 2 (by decide)
  · exact C176_starts_from_steady_state _ _ _ _ _ _ _ _ _ sampleConfig_types rfl h 3 (by decide)

/-! ### C177: where an open lap starts -/

/-- Without warm start the lap is computed on the given points, closed or open as configured. A closed lap starts from the
steady state everywhere; an open lap has the given inputs, and the given value of every full-mesh control, at its first point
and the steady state at the others. Missing: the given values of the other controls. -/
theorem C177_open_start_partial [Zero K] (c : Config K) (nControls : Nat) (s : List K) (q u : Row K) (w : Warm K)
    (r : Request K) (hw : c.warmStart = false) (h : lapRequest c nControls s q u w = .ok r) :
    r.s = s ∧ r.isClosed = c.isClosed ∧ r.isDirect = c.isDirect ∧ r.warm = none ∧
    (c.setInitial = false → r.inputs = List.replicate s.length q ∧
      r.controls = controlVariables c nControls s.length u) ∧
    (c.setInitial = true → s ≠ [] ∧ r.inputs = c.qStart :: List.replicate (s.length - 1) q ∧
      r.controls.length = nControls ∧
      ∀ j < nControls, ∃ cv cv', (controlVariables c nControls s.length u)[j]? = some cv ∧ r.controls[j]? = some cv' ∧
        (cv.kind = .fullMesh → cv' = { cv with controls := c.uStart j :: cv.controls.tail }) ∧
        (cv.kind ≠ .fullMesh → cv' = cv)) := by
  unfold lapRequest at h
  rw [if_neg (by simp [hw])] at h
  obtain ⟨p, hp, h⟩ := Res.bind_eq_ok.1 h
  obtain rfl := Res.ok.inj h
  refine ⟨rfl, rfl, rfl, rfl, fun hi => ?_, fun hi => ?_⟩
  · rw [if_neg (by simp [hi])] at hp
    obtain rfl := Res.ok.inj hp
    exact ⟨rfl, rfl⟩
  · rw [if_pos hi] at hp
    rcases s with _ | ⟨s0, s⟩
    · exact absurd hp (by simp)
    · rw [show List.replicate (s0 :: s).length q = q :: List.replicate s.length q by
        simp [List.replicate_succ]] at hp
      obtain ⟨cs, hcs, hp⟩ := Res.bind_eq_ok.1 hp
      obtain rfl := Res.ok.inj hp
      obtain ⟨h1, h2⟩ := startControls_ok _ _ _ hcs
      have hl : (controlVariables c nControls (s0 :: s).length u).length = nControls := by simp [controlVariables]
      refine ⟨by simp, by simp, h1.trans hl, fun j hj => ?_⟩
      have h3 := h2 j (by rw [hl]; exact hj) (by rw [h1, hl]; exact hj)
      refine ⟨_, _, List.getElem?_eq_getElem (by rw [hl]; exact hj),
        List.getElem?_eq_getElem (by rw [h1, hl]; exact hj), fun hk => ?_, fun hk => ?_⟩
      · unfold startControl at h3
        rw [if_pos hk, Nat.zero_add] at h3
        rcases hcc : ((controlVariables c nControls (s0 :: s).length u)[j]'(by rw [hl]; exact hj)).controls with
          _ | ⟨a, l⟩
        · rw [hcc] at h3
          exact absurd h3 (by simp)
        · rw [hcc] at h3
          exact (Res.ok.inj h3).symm
      · unfold startControl at h3
        rw [if_neg hk] at h3
        exact (Res.ok.inj h3).symm

/-- The configuration of an open lap starting with all controls equal to 7. -/
def openConfig : Config ℚ := { sampleConfig with isClosed := false, setInitial := true, uStart := fun _ => 7 }

/-- A request of an open lap. -/
theorem openConfig_request : ∃ r, lapRequest openConfig 4 [0, 1, 2] (fun _ => 5) (fun _ => 6) ⟨[], false, false, [], [], [], [], []⟩ =
    .ok r := ⟨_, rfl⟩

example : ∃ r, lapRequest openConfig 4 [0, 1, 2] (fun _ => 5) (fun _ => 6) ⟨[], false, false, [], [], [], [], []⟩ = .ok r ∧
    ∃ cv, r.controls[0]? = some cv ∧ cv.controls = [7, 6, 6] := by
  obtain ⟨r, h⟩ := openConfig_request
  refine ⟨r, h, ?_⟩
  obtain ⟨-, -, -, -, -, h1⟩ := C177_open_start_partial _ _ _ _ _ _ _ rfl h
  obtain ⟨-, -, -, h2⟩ := h1 rfl
  obtain ⟨cv, cv', h3, h4, h5, -⟩ := h2 0 (by decide)
  obtain rfl := Option.some.inj h3
  exact ⟨cv', h4, by rw [h5 rfl]; rfl⟩

/-- The given value of a constant or hypermesh control is ignored: the lap starts from 6, the steady state, although 7 was
given. -/
theorem C177_open_start_false : ∃ r, lapRequest openConfig 4 [0, 1, 2] (fun _ => 5) (fun _ => 6)
      ⟨[], false, false, [], [], [], [], []⟩ = .ok r ∧ openConfig.uStart 1 = 7 ∧ openConfig.uStart 2 = 7 ∧
    controlArrayAtS r.controls [9, 9, 9, 9] 0 0 = .ok [7, 6, 6, 9] := ⟨_, rfl, rfl, rfl, by decide +kernel⟩

/-- An open lap without points is undefined behaviour. -/
theorem C177_no_points_undefined [Zero K] (c : Config K) (nControls : Nat) (q u : Row K) (w : Warm K)
    (hw : c.warmStart = false) (hi : c.setInitial = true) : lapRequest c nControls [] q u w = .ub := by
  simp [lapRequest, hw, hi]

example : lapRequest openConfig 4 [] (fun _ => 5) (fun _ => 6) ⟨[], false, false, [], [], [], [], []⟩ = .ub :=
  C177_no_points_undefined _ _ _ _ _ rfl rfl

/-! ### C178: the returned vectors -/

/-- Each requested variable is returned as a vector with one entry per given point: the given arclength for the key, the value of
the lap for an input or a control, the output of the vehicle at the lap's inputs and controls otherwise. -/
theorem C178_vectors [LinearOrder K] [Zero K] (car : CarType K) (dflt : List K)
    (eval : Row K → List K → K → String → Option K) (s : List K) (inputs : List (Row K)) (controls : List (CV K))
    (vars : List String) (data : List (List K)) (hn : (car.inputs ++ car.controls).Nodup)
    (hk : car.key ∉ car.inputs ++ car.controls)
    (h : lapData car dflt eval s inputs controls vars = .ok data) :
    data.length = vars.length ∧ ∀ v vec, (v, vec) ∈ vars.zip data → vec.length = s.length ∧
      ∀ i (hi : i < s.length) (hv : i < vec.length), ∃ q u, inputs[i]? = some q ∧
        controlArrayAtS controls dflt i s[i] = .ok u ∧
        (v = car.key → vec[i] = s[i]) ∧
        (∀ j : Nat, car.inputs[j]? = some v → vec[i] = q j) ∧
        (∀ j : Nat, car.controls[j]? = some v → u[j]? = some vec[i]) ∧
        (v ≠ car.key → v ∉ car.inputs → v ∉ car.controls → eval q u s[i] v = some vec[i]) := by
  unfold lapData at h
  rcases hr : lapRows car dflt eval inputs controls vars 0 s with rows | _ | _
  · rw [hr] at h
    obtain rfl := Res.ok.inj h
    obtain ⟨h1, h2⟩ := lapRows_ok _ _ _ hr
    refine ⟨by simp, fun v vec hm => ?_⟩
    obtain ⟨k, hk', hkv⟩ := List.mem_iff_getElem.1 hm
    have hkl : k < vars.length := by
      have := hk'
      simp only [List.length_zip, lt_min_iff] at this
      exact this.1
    rw [List.getElem_zip] at hkv
    obtain ⟨hv1, hv2⟩ := Prod.mk.inj hkv
    simp only [List.getElem_map, List.getElem_range] at hv2
    subst hv1 hv2
    refine ⟨by simp [h1], fun i hi hv => ?_⟩
    have hir : i < rows.length := by simpa using hv
    have h3 := h2 i hi hir
    rw [Nat.zero_add] at h3
    obtain ⟨u, q, h4, h5, h6, h7⟩ := pointData_ok h3
    have h8 := h7 k hkl (by rw [h6]; exact hkl)
    have hd := List.nodup_append.1 hn
    refine ⟨q, u, h5, h4, ?_⟩
    have hval : (rows.map fun r => r.getD k 0)[i]'hv = rows[i][k]'(by rw [h6]; exact hkl) := by
      simp [h6, hkl]
    rw [hval]
    generalize rows[i][k]'(by rw [h6]; exact hkl) = x at h8
    generalize vars[k] = v at h8
    unfold valueAt at h8
    by_cases hkey : v = car.key
    · rw [if_pos hkey] at h8
      obtain rfl := Res.ok.inj h8
      refine ⟨fun _ => rfl, fun j hj => ?_, fun j hj => ?_, fun h0 => absurd hkey h0⟩
      · exact absurd (List.mem_append_left _ (hkey ▸ List.mem_of_getElem? hj)) hk
      · exact absurd (List.mem_append_right _ (hkey ▸ List.mem_of_getElem? hj)) hk
    · rw [if_neg hkey] at h8
      refine ⟨fun h0 => absurd h0 hkey, ?_⟩
      rcases hp : position car.inputs v with _ | j
      · rw [hp] at h8
        have hni := position_eq_none.1 hp
        refine ⟨fun j hj => absurd (List.mem_of_getElem? hj) hni, ?_⟩
        rcases hq : position car.controls v with _ | j
        · rw [hq] at h8
          have hnc := position_eq_none.1 hq
          exact ⟨fun j hj => absurd (List.mem_of_getElem? hj) hnc, fun _ _ _ => orThrow_eq_ok.1 h8⟩
        · rw [hq] at h8
          refine ⟨fun j' hj => ?_, fun _ _ hc => absurd (position_mem hq) hc⟩
          rw [← position_eq_some hd.2.1, hq] at hj
          obtain rfl := Option.some.inj hj
          exact idx_eq_ok.1 h8
      · rw [hp] at h8
        refine ⟨fun j' hj => ?_, fun j' hj => ?_, fun _ hi' => absurd (position_mem hp) hi'⟩
        · rw [← position_eq_some hd.1, hp] at hj
          obtain rfl := Option.some.inj hj
          exact (Res.ok.inj h8).symm
        · exact absurd rfl (hd.2.2 _ (position_mem hp) _ (List.mem_of_getElem? hj))
  · rw [hr] at h
    exact absurd h (by simp)
  · rw [hr] at h
    exact absurd h (by simp)

/-- A request for a variable the vehicle does not have is refused. -/
theorem C178_unknown_refused [LinearOrder K] [Zero K] (car : CarType K) (dflt : List K)
    (eval : Row K → List K → K → String → Option K) (s : List K) (inputs : List (Row K)) (controls : List (CV K))
    (vars : List String) (v : String) (hs : s ≠ []) (hv : v ∈ vars) (hk : v ≠ car.key) (hi : v ∉ car.inputs)
    (hc : v ∉ car.controls) (ho : ∀ q u x, eval q u x v = none) :
    ∀ data, lapData car dflt eval s inputs controls vars ≠ .ok data := by
  intro data h
  unfold lapData at h
  rcases hr : lapRows car dflt eval inputs controls vars 0 s with rows | _ | _
  · obtain ⟨h1, h2⟩ := lapRows_ok _ _ _ hr
    have hpos : 0 < s.length := List.length_pos_iff.2 hs
    obtain ⟨u, q, -, -, h6, h7⟩ := pointData_ok (h2 0 hpos (by rw [h1]; exact hpos))
    obtain ⟨k, hkl, rfl⟩ := List.mem_iff_getElem.1 hv
    have h8 := h7 k hkl (by rw [h6]; exact hkl)
    unfold valueAt at h8
    rw [if_neg hk, position_eq_none.2 hi, position_eq_none.2 hc] at h8
    exact absurd (orThrow_eq_ok.1 h8) (by simp [ho])
  · rw [hr] at h
    exact absurd h (by simp)
  · rw [hr] at h
    exact absurd h (by simp)

/-- The key of both vehicles is neither an input nor a control. -/
theorem key_not_variable [Field K] (o : List String) (a b c d : Row K) :
    (f1Type o a b c d).key ∉ (f1Type o a b c d).inputs ++ (f1Type o a b c d).controls ∧
    (kartType o a b c d).key ∉ (kartType o a b c d).inputs ++ (kartType o a b c d).controls := by
  have h1 : (f1Type o a b c d).inputs ++ (f1Type o a b c d).controls =
    (List.range F1.nInputs).map (F1.inputNames .curvilinear) ++ (List.range F1.nControls).map F1.controlNames := rfl
  have h2 : (kartType o a b c d).inputs ++ (kartType o a b c d).controls =
    (List.range Kart.nInputs).map (Kart.inputNames .curvilinear) ++
      (List.range Kart.nControls).map Kart.controlNames := rfl
  have h3 : (f1Type o a b c d).key = F1.keyName .curvilinear := rfl
  have h4 : (kartType o a b c d).key = F1.keyName .curvilinear := rfl
  rw [h1, h2, h3, h4]
  constructor <;> decide +kernel

/-- A lap of two points for the examples. -/
def sampleControls : List (CV ℚ) :=
  [createFullMesh [1, 2] 0, createDontOptimize, createFullMesh [3, 4] 0, createDontOptimize]

example : ∃ data, lapData sampleCar [0, 0, 0, 1] (fun _ _ s v => if v = "gamma" then some (s + 1) else none) [0, 10]
    [fun _ => 5, fun _ => 6] sampleControls ["road.arclength", "chassis.throttle", "gamma"] = .ok data ∧
    data = [[0, 10], [3, 4], [1, 11]] := ⟨_, rfl, by decide +kernel⟩

example : ∀ data, lapData sampleCar [0, 0, 0, 1] (fun _ _ s v => if v = "gamma" then some (s + 1) else none) [0, 10]
    [fun _ => 5, fun _ => 6] sampleControls ["u"] ≠ .ok data :=
  C178_unknown_refused _ _ _ _ _ _ _ "u" (by simp) (by simp) (by decide) (by decide +kernel) (by decide +kernel)
    (by simp)

example : ∃ (data : List (List ℚ)) (vec : List ℚ), ("chassis.throttle", vec) ∈
      ["road.arclength", "chassis.throttle"].zip data ∧ vec.length = 2 := by
  obtain ⟨data, h⟩ : ∃ data, lapData sampleCar [0, 0, 0, 1] (fun _ _ _ _ => none) [0, 10] [fun _ => 5, fun _ => 6]
    sampleControls ["road.arclength", "chassis.throttle"] = .ok data := ⟨_, rfl⟩
  obtain ⟨h1, h2⟩ := C178_vectors _ _ _ _ _ _ _ data (f1Type_names _ _ _ _ _) (key_not_variable _ _ _ _ _).1 h
  rcases data with _ | ⟨a, _ | ⟨b, _ | ⟨c, l⟩⟩⟩
  · simp at h1
  · simp at h1
  · exact ⟨[a, b], b, by simp, (h2 "chassis.throttle" b (by simp)).1⟩
  · simp at h1

/-! ### C179: warm starts -/

/-- A warm start continues the saved lap: its points, kind, inputs, controls and multipliers, with the new bounds, integral
constraints and scheme. Missing: the points, the control variables and the kind of lap asked for. -/
theorem C179_warm_start_partial [Zero K] (c : Config K) (nControls : Nat) (s : List K) (q u : Row K) (w : Warm K)
    (hw : c.warmStart = true) :
    ∃ r, lapRequest c nControls s q u w = .ok r ∧ r.s = w.s ∧ r.isClosed = w.isClosed ∧ r.isDirect = w.isDirect ∧
      r.inputs = w.inputs ∧ r.controls = w.controls ∧ r.warm = some (w.zl, w.zu, w.lambda) ∧
      r.opts.inputsLb = c.inputsLb ∧ r.opts.inputsUb = c.inputsUb ∧ r.opts.controlsLb = c.controlsLb ∧
      r.opts.controlsUb = c.controlsUb ∧ r.opts.sigma = c.sigma := by
  unfold lapRequest
  rw [if_pos hw]
  exact ⟨_, rfl, rfl, rfl, rfl, rfl, rfl, rfl, rfl, rfl, rfl, rfl, rfl⟩

example : ∃ r, lapRequest { sampleConfig with warmStart := true } 4 [0, 1, 2] (fun _ => 5) (fun _ => 6)
    ⟨[0, 4], true, true, [fun _ => 1, fun _ => 1], sampleControls, [], [], []⟩ = .ok r ∧ r.s = [0, 4] := by
  obtain ⟨r, h, h1, -⟩ := C179_warm_start_partial { sampleConfig with warmStart := true } 4 [0, 1, 2] (fun _ => 5) (fun _ => 6)
    ⟨[0, 4], true, true, [fun _ => 1, fun _ => 1], sampleControls, [], [], []⟩ rfl
  exact ⟨r, h, h1⟩

/-- The first warm start, when no lap was saved, is refused. -/
theorem C179_needs_saved_lap [Field K] [LinearOrder K] (lowest max : K) (v : Vehicle K) (c : Config K)
    (nControls : Nat) (s : List K) (q u : Row K) (w : Warm K) (hw : c.warmStart = true) (h0 : w.s = []) (r : Request K)
    (h : lapRequest c nControls s q u w = .ok r) : prepare lowest max v r = .throw := by
  obtain ⟨r', h', hs, -⟩ := C179_warm_start_partial c nControls s q u w hw
  obtain rfl := Res.ok.inj (h.symm.trans h')
  unfold prepare
  by_cases hc : ∀ cv ∈ r.controls, Consistent cv
  · obtain ⟨st, h1⟩ := (C19_validation_accepts_iff r.controls).1 hc
    rw [h1]
    simp [Transcription.checkInputs, hs, h0]
  · rw [(C19_validation_accepts_iff r.controls).2 hc]
    rfl

/-- The points asked for are ignored but returned as the arclength of the result: the returned arclength is 0, 1 whereas the
lap is at 0, 4. -/
theorem C179_arclength_false :
    ∃ (c : Config ℚ) (w : Warm ℚ) (r : Request ℚ), c.warmStart = true ∧
      lapRequest c 4 [0, 1] (fun _ => 5) (fun _ => 6) w = .ok r ∧ r.s = [0, 4] ∧
      lapData sampleCar [0, 0, 0, 1] (fun _ _ _ _ => none) [0, 1] r.inputs r.controls ["road.arclength"] = .ok [[0, 1]] :=
  ⟨{ sampleConfig with warmStart := true }, ⟨[0, 4], true, true, [fun _ => 1, fun _ => 1], sampleControls, [], [], []⟩, _,
    rfl, rfl, rfl, by decide +kernel⟩

/-- More points than the lap has are read past its end: no result is defined. -/
theorem C179_more_points [LinearOrder K] [Zero K] (car : CarType K) (dflt : List K)
    (eval : Row K → List K → K → String → Option K) (s : List K) (inputs : List (Row K)) (controls : List (CV K))
    (vars : List String) (hl : inputs.length < s.length) :
    ∀ data, lapData car dflt eval s inputs controls vars ≠ .ok data := by
  intro data h
  unfold lapData at h
  rcases hr : lapRows car dflt eval inputs controls vars 0 s with rows | _ | _
  · obtain ⟨h1, h2⟩ := lapRows_ok _ _ _ hr
    obtain ⟨u, q, -, h5, -⟩ := pointData_ok (h2 inputs.length hl (by rw [h1]; exact hl))
    simp at h5
  · rw [hr] at h
    exact absurd h (by simp)
  · rw [hr] at h
    exact absurd h (by simp)

example : lapData sampleCar [0, 0, 0, 1] (fun _ _ _ _ => none) [0, 1, 2] [fun _ => 5, fun _ => 6]
    sampleControls ["road.arclength"] = .ub := by decide +kernel

example : ∀ data, lapData sampleCar [0, 0, 0, 1] (fun _ _ _ _ => none) [0, 1, 2] [fun _ => 5, fun _ => 6]
    sampleControls ["road.arclength"] ≠ .ok data := C179_more_points _ _ _ _ _ _ _ (by decide)

/-! ### C180: the returned sensitivities -/

/-- The derivatives of the velocity and of the time are those of the lap: one vector per parameter, one entry per point. Missing:
the derivatives of every other variable. -/
theorem C180_sensitivity_partial [Zero K] (iVelocity iTime n : Nat) (dq : Nat → Nat → Row K) (nParameters : Nat)
    (p i : Nat) (hp : p < nParameters) (hi : i < n) :
    ((lapSensitivity iVelocity iTime n dq nParameters "chassis.velocity.x")[p]?.bind (·[i]?)) =
      some (dq p i iVelocity) ∧
    ((lapSensitivity iVelocity iTime n dq nParameters "time")[p]?.bind (·[i]?)) = some (dq p i iTime) := by
  simp [lapSensitivity, hp, hi]

example : ((lapSensitivity 4 11 2 (fun p i j => (p + i + j : ℚ)) 3 "time")[2]?.bind (·[1]?)) = some 14 := by
  rw [(C180_sensitivity_partial 4 11 2 (fun p i j => (p + i + j : ℚ)) 3 2 1 (by decide) (by decide)).2]
  norm_num

/-- Every other variable is returned with derivative zero, whatever the derivative of the lap is. -/
theorem C180_sensitivity_false [Zero K] (iVelocity iTime n : Nat) (dq : Nat → Nat → Row K) (nParameters : Nat)
    (v : String) (h1 : v ≠ "chassis.velocity.x") (h2 : v ≠ "time") :
    ∀ vec ∈ lapSensitivity iVelocity iTime n dq nParameters v, ∀ x ∈ vec, x = 0 := by
  intro vec hv x hx
  simp only [lapSensitivity, List.mem_map, List.mem_range, h1, h2, if_false] at hv
  obtain ⟨p, -, rfl⟩ := hv
  obtain ⟨i, -, rfl⟩ := List.mem_map.1 hx
  rfl

example : ∀ vec ∈ lapSensitivity 4 11 2 (fun _ _ _ => (1 : ℚ)) 1 "road.lateral-displacement", ∀ x ∈ vec, x = 0 :=
  C180_sensitivity_false _ _ _ _ _ _ (by decide) (by decide)

end Verif.LapOptions
