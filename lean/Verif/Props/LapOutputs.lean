import Verif.Model.LapOutputs
import Verif.Props.LapCommand
import Verif.Props.Outputs
import Verif.Props.KartLayout

/-! Property theorem C246: the vectors saved by `optimal_laptime` and `vehicle_get_output`. -/

set_option autoImplicit false

namespace Verif.LapOutputs

open Verif.Road Verif.Outputs Verif.Transcription Verif.LapOptions Verif.Control

/-- The list `x` has what was saved at the point `i` under each of the names. -/
def Saved (vars : List String) (data : List (List ℝ)) (i : Nat) (names : List String) (x : List ℝ) : Prop :=
  x.length = names.length ∧ ∀ (j : Nat) (n : String), names[j]? = some n →
    ∃ vec : List ℝ, (n, vec) ∈ vars.zip data ∧ vec[i]? = x[j]?

theorem lookUp_eq {m : List (String × ℝ)} {v : String} {x : ℝ} (h : find m v.toList = .ok x) : lookUp m v = some x := by
  unfold lookUp
  rw [h]

theorem lookUp_values (s : State) {v : String} (hv : v ∈ VehicleNames.outputNames) :
    lookUp (values s) v = some (value (values s) v) := lookUp_eq ((find_values s v.toList).1 v hv rfl)

/-- What is saved under the names of inputs and controls is what the vehicle was evaluated with. -/
theorem evaluated (car : CarType ℝ) (dflt : List ℝ) (eval : Row ℝ → List ℝ → ℝ → String → Option ℝ) (s : List ℝ)
    (inputs : List (Row ℝ)) (controls : List (CV ℝ)) (vars : List String) (data : List (List ℝ))
    (hn : (car.inputs ++ car.controls).Nodup) (hk : car.key ∉ car.inputs ++ car.controls)
    (h : lapData car dflt eval s inputs controls vars = .ok data) (i : Nat) (hi : i < s.length) {qs us : List ℝ}
    (hq : Saved vars data i car.inputs qs) (hu : Saved vars data i car.controls us) {v : String} {vec : List ℝ}
    (hm : (v, vec) ∈ vars.zip data) (hv : v ≠ car.key ∧ v ∉ car.inputs ∧ v ∉ car.controls) :
    ∃ q u x, (∀ j, j < car.inputs.length → q j = qs.getD j 0) ∧
      (∀ j, j < car.controls.length → u.getD j 0 = us.getD j 0) ∧ vec[i]? = some x ∧ eval q u s[i] v = some x := by
  obtain ⟨-, hd⟩ := C178_vectors car dflt eval s inputs controls vars data hn hk h
  obtain ⟨hl, hv'⟩ := hd v vec hm
  obtain ⟨q, u, h1, h2, -, -, -, h3⟩ := hv' i hi (hl ▸ hi)
  refine ⟨q, u, vec[i]'(hl ▸ hi), fun j hj => ?_, fun j hj => ?_, List.getElem?_eq_getElem _, h3 hv.1 hv.2.1 hv.2.2⟩
  · obtain ⟨w, hw, he⟩ := hq.2 j _ (List.getElem?_eq_getElem hj)
    obtain ⟨hl', hw'⟩ := hd _ _ hw
    obtain ⟨q', u', k1, k2, -, k3, -⟩ := hw' i hi (hl' ▸ hi)
    obtain rfl : q = q' := by rw [h1] at k1; exact Option.some.inj k1
    rw [List.getD_eq_getElem?_getD, ← he, List.getElem?_eq_getElem (hl' ▸ hi), Option.getD_some]
    exact (k3 j (List.getElem?_eq_getElem hj)).symm
  · obtain ⟨w, hw, he⟩ := hu.2 j _ (List.getElem?_eq_getElem hj)
    obtain ⟨hl', hw'⟩ := hd _ _ hw
    obtain ⟨q', u', k1, k2, -, -, k3, -⟩ := hw' i hi (hl' ▸ hi)
    obtain rfl : u = u' := by rw [h2] at k2; exact Res.ok.inj k2
    rw [List.getD_eq_getElem?_getD, List.getD_eq_getElem?_getD, ← he, k3 j (List.getElem?_eq_getElem hj)]
    rw [List.getElem?_eq_getElem (l := w) (hl' ▸ hi)]

/-- No output has the name of the arclength, of an input or of a control. -/
theorem outputs_apart : ∀ v ∈ VehicleNames.outputNames, v ≠ F1.keyName .curvilinear ∧
    v ∉ F1.documentedInputs .curvilinear ++ F1.documentedControls ∧
    v ∉ Kart.documentedInputs .curvilinear ++ Kart.documentedControls := by
  rw [outputNames_eq]
  simp only [rawNames, VehicleNames.chassisOutputs, VehicleNames.tyreOutputs, String.reduceAppend, List.cons_append,
    List.nil_append]
  decide

/-- The names of the inputs and controls of a vehicle are different, and those of the outputs are others. -/
def Apart (car : CarType ℝ) : Prop :=
  (car.inputs ++ car.controls).Nodup ∧ car.key ∉ car.inputs ++ car.controls ∧
    ∀ v ∈ VehicleNames.outputNames, v ≠ car.key ∧ v ∉ car.inputs ∧ v ∉ car.controls

theorem f1_names (outputs : List String) (ql qu ul uu : Row ℝ) : Apart (f1Type outputs ql qu ul uu) := by
  have h := List.nodup_cons.1 (F1.C104_distinct .curvilinear)
  refine ⟨h.2, h.1, fun v hv => ?_⟩
  obtain ⟨h1, h2, -⟩ := outputs_apart v hv
  rw [← F1.C104_input_names, ← F1.C104_control_names, List.mem_append, not_or] at h2
  exact ⟨h1, h2⟩

theorem kart_names (outputs : List String) (ql qu ul uu : Row ℝ) : Apart (kartType outputs ql qu ul uu) := by
  obtain ⟨e1, e2, h⟩ := Kart.C163_names .curvilinear
  have hk : F1.keyName .curvilinear ∉ Kart.documentedInputs .curvilinear ++ Kart.documentedControls := by decide
  rw [← e1, ← e2] at h hk
  refine ⟨h, hk, fun v hv => ?_⟩
  obtain ⟨h1, -, h2⟩ := outputs_apart v hv
  rw [← e1, ← e2, List.mem_append, not_or] at h2
  exact ⟨h1, h2⟩

theorem f1_reads (c : F1.Car) {q q' u u' : Nat → ℝ} (hq : ∀ j, j < 14 → q j = q' j) (hu : ∀ j, j < 4 → u j = u' j) :
    F1.setState c q u = F1.setState c q' u' := by
  simp (disch := decide) only [F1.setState, hq, hu]

theorem kart_reads {q q' u u' : Nat → ℝ} (hq : ∀ j, j < 13 → q j = q' j) (hu : ∀ j, j < 2 → u j = u' j) :
    Kart.setState q u = Kart.setState q' u' := by
  simp (disch := decide) only [Kart.setState, hq, hu]

/-- C246, F1 cars: whatever lap was computed, `vehicle_get_output` with the inputs and controls saved for a point of the
lap returns what was saved for that point. -/
theorem C246_f1 (l : Library) (vehicle : Name) (c : ℝ → F1.Car) (t : ℝ → TrackPoint) (hk : l.kart vehicle = none)
    (hv : l.f1 vehicle = some (c, t)) (outputs : List String) (ql qu ul uu : Row ℝ) (dflt s : List ℝ)
    (inputs : List (Row ℝ)) (controls : List (CV ℝ)) (vars : List String) (data : List (List ℝ))
    (h : lapData (f1Type outputs ql qu ul uu) dflt (f1Outputs c t) s inputs controls vars = .ok data)
    (i : Nat) (hi : i < s.length) (q u : List ℝ)
    (hq : Saved vars data i (f1Type (K := ℝ) outputs ql qu ul uu).inputs q)
    (hu : Saved vars data i (f1Type (K := ℝ) outputs ql qu ul uu).controls u) (v : String) (vec : List ℝ)
    (hm : (v, vec) ∈ vars.zip data) (ho : v ∈ VehicleNames.outputNames) :
    ∃ x, vec[i]? = some x ∧ getOutput l vehicle q u s[i] v.toList = .ok x := by
  obtain ⟨n1, n2, n3⟩ := f1_names outputs ql qu ul uu
  obtain ⟨q', u', x, e1, e2, e3, e4⟩ := evaluated (f1Type outputs ql qu ul uu) dflt (f1Outputs c t) s inputs controls vars
    data n1 n2 h i hi hq hu hm (n3 v ho)
  refine ⟨x, e3, ?_⟩
  have lq : (f1Type (K := ℝ) outputs ql qu ul uu).inputs.length = 14 := rfl
  have lu : (f1Type (K := ℝ) outputs ql qu ul uu).controls.length = 4 := rfl
  rw [(C222_f1 l vehicle c t hk hv q u (hq.1.trans lq).ge (hu.1.trans lu).ge s[i] v.toList).1 v ho rfl]
  simp only [f1Outputs] at e4
  rw [lookUp_values _ ho] at e4
  have e : F1.setState (c s[i]) q' (fun k => u'.getD k 0) = F1.setState (c s[i]) (entries q) (entries u) :=
    f1_reads _ e1 e2
  have e' : f1Track (c s[i]) (t s[i]) q' (fun k => u'.getD k 0) = f1Track (c s[i]) (t s[i]) (entries q) (entries u) := by
    simp only [f1Track, e]
  rw [← e', Option.some.inj e4]

/-- C246, karts. -/
theorem C246_kart (l : Library) (vehicle : Name) (c : ℝ → Kart.Vehicle) (t : ℝ → TrackPoint)
    (hv : l.kart vehicle = some (c, t)) (outputs : List String) (ql qu ul uu : Row ℝ) (dflt s : List ℝ)
    (inputs : List (Row ℝ)) (controls : List (CV ℝ)) (vars : List String) (data : List (List ℝ))
    (h : lapData (kartType outputs ql qu ul uu) dflt (kartOutputs l.solve c t) s inputs controls vars = .ok data)
    (i : Nat) (hi : i < s.length) (q u : List ℝ)
    (hq : Saved vars data i (kartType (K := ℝ) outputs ql qu ul uu).inputs q)
    (hu : Saved vars data i (kartType (K := ℝ) outputs ql qu ul uu).controls u) (v : String) (vec : List ℝ)
    (hm : (v, vec) ∈ vars.zip data) (ho : v ∈ VehicleNames.outputNames) :
    ∃ x, vec[i]? = some x ∧ getOutput l vehicle q u s[i] v.toList = .ok x := by
  obtain ⟨n1, n2, n3⟩ := kart_names outputs ql qu ul uu
  obtain ⟨q', u', x, e1, e2, e3, e4⟩ := evaluated (kartType outputs ql qu ul uu) dflt (kartOutputs l.solve c t) s inputs
    controls vars data n1 n2 h i hi hq hu hm (n3 v ho)
  refine ⟨x, e3, ?_⟩
  have lq : (kartType (K := ℝ) outputs ql qu ul uu).inputs.length = 13 := rfl
  have lu : (kartType (K := ℝ) outputs ql qu ul uu).controls.length = 2 := rfl
  rw [(C222_kart l vehicle c t hv q u (hq.1.trans lq).ge (hu.1.trans lu).ge s[i] v.toList).1 v ho rfl]
  simp only [kartOutputs] at e4
  rw [lookUp_values _ ho] at e4
  have e : Kart.setState q' (fun k => u'.getD k 0) = Kart.setState (entries q) (entries u) :=
    kart_reads e1 e2
  have e' : kartTrack l.solve (c s[i]) (t s[i]) q' (fun k => u'.getD k 0)
      = kartTrack l.solve (c s[i]) (t s[i]) (entries q) (entries u) := by
    simp only [kartTrack, e]
  rw [← e', Option.some.inj e4]

/-- A lap of one point. -/
theorem one_point (car : CarType ℝ) (dflt : List ℝ) (eval : Row ℝ → List ℝ → ℝ → String → Option ℝ) (s : ℝ) (q : Row ℝ)
    (controls : List (CV ℝ)) (u : List ℝ) (hu : controlArrayAtS controls dflt 0 s = .ok u) (vars : List String)
    (g : String → ℝ) (hg : ∀ v ∈ vars, valueAt car s q u (eval q u s) v = .ok (g v)) :
    lapData car dflt eval [s] [q] controls vars = .ok (vars.map fun v => [g v]) := by
  have h : mapRes (valueAt car s q u (eval q u s)) vars = .ok (vars.map g) := mapRes_map _ hg
  simp only [lapData, lapRows, pointData, hu, idx, List.getElem?_cons_zero, Res.bind_ok, h, Res.map, List.map_cons,
    List.map_nil]
  congr 1
  refine List.ext_getElem (by simp) fun k h1 h2 => ?_
  simp at h1
  simp [h1]

theorem one_point_saved (vars names : List String) (g : String → ℝ) (hs : ∀ n ∈ names, n ∈ vars) :
    Saved vars (vars.map fun v => [g v]) 0 names (names.map g) := by
  refine ⟨by simp, fun j n hj => ⟨[g n], ?_, by simp [hj]⟩⟩
  have := hs n (List.mem_of_getElem? hj)
  rw [List.mem_iff_getElem] at this ⊢
  obtain ⟨k, hk, rfl⟩ := this
  exact ⟨k, by simpa using hk, by simp⟩

/-- C246: a lap of one point of any F1 car, with all inputs, controls and the longitudinal force saved. -/
example (c : ℝ → F1.Car) (t : ℝ → TrackPoint) (q : Row ℝ) :
    let car := f1Type (K := ℝ) [] 0 0 0 0
    let vars := car.inputs ++ car.controls ++ ["chassis.force.x"]
    ∃ data q' u' vec, lapData car [1 / 10, 0, 1, 6 / 10] (f1Outputs c t) [5] [q] (List.replicate 4 createDontOptimize) vars
        = .ok data ∧
      Saved vars data 0 car.inputs q' ∧ Saved vars data 0 car.controls u' ∧ ("chassis.force.x", vec) ∈ vars.zip data ∧
      "chassis.force.x" ∈ VehicleNames.outputNames := by
  intro car vars
  obtain ⟨n1, n2, n3⟩ := f1_names [] 0 0 0 0
  have ho : "chassis.force.x" ∈ VehicleNames.outputNames := by
    rw [outputNames_eq]; exact List.mem_of_getElem? (i := 2) rfl
  have hu : controlArrayAtS (List.replicate 4 (createDontOptimize (K := ℝ))) [1 / 10, 0, 1, 6 / 10] 0 5
      = .ok [1 / 10, 0, 1, 6 / 10] := rfl
  have hg : ∀ v : String, ∃ x, v ∈ vars → valueAt car 5 q [1 / 10, 0, 1, 6 / 10]
      (f1Outputs c t q [1 / 10, 0, 1, 6 / 10] 5) v = .ok x := by
    intro v
    by_cases hv : v ∈ vars
    · have hk : v ≠ car.key := by
        rintro rfl
        rcases List.mem_append.1 hv with hv | hv
        · exact n2 hv
        · rw [List.mem_singleton] at hv
          exact (n3 _ ho).1 hv.symm
      simp only [valueAt, if_neg hk]
      rcases hp : position car.inputs v with _ | j
      · rcases hp' : position car.controls v with _ | j
        · have : v = "chassis.force.x" := by
            rcases List.mem_append.1 hv with hv | hv
            · rcases List.mem_append.1 hv with hv | hv
              · exact absurd hv (position_eq_none.1 hp)
              · exact absurd hv (position_eq_none.1 hp')
            · exact List.mem_singleton.1 hv
          subst this
          simp only [f1Outputs, lookUp_values _ ho, orThrow]
          exact ⟨_, fun _ => rfl⟩
        · have hj : j < 4 := (List.getElem?_eq_some_iff.1 ((position_eq_some (List.nodup_append.1 n1).2.1).1 hp')).1
          simp only [idx_of_lt (show j < [(1 / 10 : ℝ), 0, 1, 6 / 10].length from hj)]
          exact ⟨_, fun _ => rfl⟩
      · exact ⟨_, fun _ => rfl⟩
    · exact ⟨0, fun h => absurd h hv⟩
  choose g hg using hg
  refine ⟨_, _, _, [g "chassis.force.x"], one_point car _ _ 5 q _ _ hu vars g fun v hv => hg v hv,
    one_point_saved _ _ g fun n hn => ?_, one_point_saved _ _ g fun n hn => ?_, ?_, ho⟩
  · exact List.mem_append_left _ (List.mem_append_left _ hn)
  · exact List.mem_append_left _ (List.mem_append_right _ hn)
  · have : "chassis.force.x" ∈ vars := List.mem_append_right _ (List.mem_singleton.2 rfl)
    rw [List.mem_iff_getElem] at this ⊢
    obtain ⟨k, hk, e⟩ := this
    exact ⟨k, by simpa using hk, by simp [e]⟩

end Verif.LapOutputs
