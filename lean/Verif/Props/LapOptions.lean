import Verif.Lemmas.LapOptions

/-!
# The options of an optimal lap (C170-C175)

Document lookups (`find?`, `child?`, `attr`) stand for what the XML library returns. The names of the inputs and
controls of a vehicle are all different (`Nodup`): it is so for both vehicles (`f1Type_names`, `kartType_names`).
-/

set_option autoImplicit false

namespace Verif.LapOptions

open Verif.Control Verif.Transcription

variable {K : Type*} [Field K]

/-! ### The two vehicles meet the hypotheses -/

theorem f1Type_names (o : List String) (a b c d : Row K) :
    ((f1Type o a b c d).inputs ++ (f1Type o a b c d).controls).Nodup := by
  have : (f1Type o a b c d).inputs ++ (f1Type o a b c d).controls =
      (List.range F1.nInputs).map (F1.inputNames .curvilinear) ++ (List.range F1.nControls).map F1.controlNames := rfl
  rw [this]
  decide +kernel

theorem kartType_names (o : List String) (a b c d : Row K) :
    ((kartType o a b c d).inputs ++ (kartType o a b c d).controls).Nodup := by
  have : (kartType o a b c d).inputs ++ (kartType o a b c d).controls =
      (List.range Kart.nInputs).map (Kart.inputNames .curvilinear) ++
        (List.range Kart.nControls).map Kart.controlNames := rfl
  rw [this]
  decide +kernel

/-- A way of reading texts, for the examples. -/
def sampleTexts : Texts ℚ where
  bool t := if t = "true" then .ok true else if t = "false" then .ok false else .throw
  int t := if t = "5" then .ok 5 else .throw
  num t := if t = "1" then .ok 1 else if t = "0.25" then .ok (1 / 4) else if t = "100" then .ok 100 else .throw
  nums t := if t = "0 100" then .ok [0, 100] else if t = "" then .ok [] else .throw
  trim t := t

/-- An element without attributes and children. -/
def leaf (name text : String) : Node := .mk name text [] []

/-- The Formula 1 car with all bounds zero, for the examples. -/
def sampleCar : CarType ℚ := f1Type ["gamma"] (fun _ => 0) (fun _ => 0) (fun _ => 0) (fun _ => 0)

/-! ### C170: each option takes its value, the others keep their defaults -/

/-- In an accepted document every given option has the value its text reads as, and every option that is not
given has its default; whatever the other options are. -/
theorem C170_options_take_their_value (T : Texts K) (car : CarType K) (tables : String → Option (List K))
    (junkQ junkU : Row K) (d : Node) (c : Config K) (hn : (car.inputs ++ car.controls).Nodup)
    (h : configure T car tables junkQ junkU (.doc d) = .ok c) :
    Reads (find? d ["warm_start"]) T.bool false c.warmStart ∧
    Reads (find? d ["save_warm_start"]) T.bool false c.saveWarmStart ∧
    Reads (find? d ["write_xml"]) T.bool false c.writeXml ∧
    Reads (find? d ["print_level"]) T.int 0 c.printLevel ∧
    Reads (find? d ["closed_simulation"]) T.bool true c.isClosed ∧
    Reads (find? d ["sigma"]) T.num (1 / 2) c.sigma ∧
    Reads (find? d ["compute_sensitivity"]) T.bool false c.sensitivity ∧
    c.isDirect = car.isDirect := by
  have k := configure_known hn h
  exact ⟨k.warm, k.save, k.write, k.print, k.closed, k.sigma, k.sensitivity, k.direct⟩

/-- The file name is the one given when the file is to be written. The output variables have the given prefix and
the given names; without a list of names they are all the variables of the vehicle, the lap time and the integral
quantities; without the option nothing is saved. -/
theorem C170_outputs (T : Texts K) (car : CarType K) (tables : String → Option (List K)) (junkQ junkU : Row K)
    (d : Node) (c : Config K) (hn : (car.inputs ++ car.controls).Nodup)
    (h : configure T car tables junkQ junkU (.doc d) = .ok c) :
    (c.writeXml = true → ∃ e, find? d ["xml_file_name"] = some e ∧ c.xmlFile = e.text) ∧
    (find? d ["output_variables"] = none → c.vars = []) ∧
    (find? d ["output_variables"] ≠ none →
      (∃ e, find? d ["output_variables", "prefix"] = some e ∧ c.pre = T.trim e.text) ∧
      (∀ v, find? d ["output_variables", "variables"] = some v → c.vars = v.children.map Node.name) ∧
      (find? d ["output_variables", "variables"] = none → ∀ v, v ∈ c.vars ↔
        v = car.key ∨ v ∈ car.inputs ∨ v ∈ car.controls ∨ v ∈ car.outputs ∨ v = "laptime" ∨
          ∃ q ∈ car.quantities, v = "integral_quantities." ++ q)) := by
  have k := configure_known hn h
  refine ⟨k.file.1, fun h0 => (k.noOutput h0).2, fun h0 => ⟨(k.output h0).1, (k.output h0).2.1, fun h1 v => ?_⟩⟩
  rw [(k.output h0).2.2 h1]
  simp only [allVariables, List.mem_append, List.mem_map, List.mem_cons, List.not_mem_nil, or_false]
  constructor
  · rintro (((((h | h) | h) | h) | h) | ⟨q, hq, rfl⟩)
    · exact .inl h
    · exact .inr (.inl h)
    · exact .inr (.inr (.inl h))
    · exact .inr (.inr (.inr (.inl h)))
    · exact .inr (.inr (.inr (.inr (.inl h))))
    · exact .inr (.inr (.inr (.inr (.inr ⟨q, hq, rfl⟩))))
  · rintro (h | h | h | h | h | ⟨q, hq, rfl⟩)
    · exact .inl (.inl (.inl (.inl (.inl h))))
    · exact .inl (.inl (.inl (.inl (.inr h))))
    · exact .inl (.inl (.inl (.inr h)))
    · exact .inl (.inl (.inr h))
    · exact .inl (.inr h)
    · exact .inr ⟨q, hq, rfl⟩

/-- Without options everything has its default. -/
theorem C170_no_options (T : Texts K) (car : CarType K) (tables : String → Option (List K))
    (junkQ junkU : Row K) :
    ∃ c, configure T car tables junkQ junkU .empty = .ok c ∧ c.warmStart = false ∧ c.saveWarmStart = false ∧
      c.writeXml = false ∧ c.printLevel = 0 ∧ c.speed = 50 ∧ c.isClosed = true ∧ c.sigma = 1 / 2 ∧
      c.sensitivity = false ∧ c.setInitial = false ∧ c.vars = [] ∧ c.integral = [] ∧ c.types = car.types ∧
      c.dissipations = car.dissipations ∧ c.inputsLb = car.inputsLb ∧ c.inputsUb = car.inputsUb ∧
      c.controlsLb = car.controlsLb ∧ c.controlsUb = car.controlsUb ∧ c.isDirect = car.isDirect :=
  ⟨_, rfl, rfl, rfl, rfl, rfl, rfl, rfl, rfl, rfl, rfl, rfl, rfl, rfl, rfl, rfl, rfl, rfl, rfl, rfl⟩

/-- A document with several options. -/
def sampleDoc : Node := .mk "options" "" []
  [leaf "sigma" "0.25", leaf "print_level" "5", leaf "write_xml" "true", leaf "xml_file_name" "lap.xml",
   .mk "output_variables" "" [] [leaf "prefix" "best/"],
   .mk "control_variables" "" []
     [.mk "chassis.brake-bias" "" [("optimal_control_type", "hypermesh")] [leaf "hypermesh" "0 100"],
      .mk "rear-axle.boost" "" [("optimal_control_type", "full-mesh")] [leaf "dissipation" "1"],
      .mk "rear-axle.boost" "" [("optimal_control_type", "constant")] []],
   .mk "integral_constraints" "" [] [.mk "engine-energy" "" [] [leaf "lower_bound" "1", leaf "upper_bound" "100"]],
   .mk "variable_bounds" "" []
     [.mk "chassis.throttle" "" [] [leaf "upper" "1"],
      .mk "chassis.velocity.x" "" [] [leaf "upper" "100", leaf "lower" "1"],
      .mk "chassis.throttle" "" [] [leaf "lower" "0.25"]]]

theorem sampleDoc_accepted : ∃ c, configure sampleTexts sampleCar (fun _ => none) (fun _ => 0) (fun _ => 0)
    (.doc sampleDoc) = .ok c := ⟨_, rfl⟩

example : ∃ c, configure sampleTexts sampleCar (fun _ => none) (fun _ => 0) (fun _ => 0) (.doc sampleDoc) = .ok c ∧
    c.sigma = 1 / 4 ∧ c.printLevel = 5 ∧ c.isClosed = true := by
  obtain ⟨c, h⟩ := sampleDoc_accepted
  obtain ⟨-, -, -, h4, h5, h6, -, -⟩ :=
    C170_options_take_their_value _ _ _ _ _ _ c (f1Type_names _ _ _ _ _) h
  exact ⟨c, h, (Res.ok.inj h6).symm, (Res.ok.inj h4).symm, h5⟩

example : ∃ c, configure sampleTexts sampleCar (fun _ => none) (fun _ => 0) (fun _ => 0) (.doc sampleDoc) = .ok c ∧
    c.xmlFile = "lap.xml" ∧ c.pre = "best/" ∧ "integral_quantities.engine-energy" ∈ c.vars := by
  obtain ⟨c, h⟩ := sampleDoc_accepted
  obtain ⟨h1, -, h2⟩ := C170_outputs _ _ _ _ _ _ c (f1Type_names _ _ _ _ _) h
  have hw : c.writeXml = true := by
    have := (C170_options_take_their_value _ _ _ _ _ _ c (f1Type_names _ _ _ _ _) h).2.2.1
    exact (Res.ok.inj this).symm
  obtain ⟨e, he, hx⟩ := h1 hw
  obtain rfl : leaf "xml_file_name" "lap.xml" = e := Option.some.inj he
  obtain ⟨⟨e, he, hp⟩, -, h4⟩ := h2 (by simp [sampleDoc, find?, descend, child?, Node.children, Node.name, leaf])
  obtain rfl : leaf "prefix" "best/" = e := Option.some.inj he
  exact ⟨c, h, hx, hp, (h4 rfl _).2 (.inr (.inr (.inr (.inr (.inr ⟨"engine-energy", by decide +kernel, rfl⟩)))))⟩

/-! ### C171: the initial speed -/

/-- The speed is that of `initial_speed` when `steady_state_speed` is given too, and the default of 50 km/h
otherwise. Missing: that `initial_speed` is used when it is given. -/
theorem C171_initial_speed_partial (T : Texts K) (car : CarType K) (tables : String → Option (List K))
    (junkQ junkU : Row K) (d : Node) (c : Config K) (hn : (car.inputs ++ car.controls).Nodup)
    (h : configure T car tables junkQ junkU (.doc d) = .ok c) :
    (find? d ["steady_state_speed"] ≠ none →
      ∃ e, find? d ["initial_speed"] = some e ∧ T.num e.text = .ok c.speed) ∧
    (find? d ["steady_state_speed"] = none → c.speed = 50) := by
  have k := configure_known hn h
  exact ⟨k.speed, k.noSpeed⟩

example : ∃ c, configure sampleTexts sampleCar (fun _ => none) (fun _ => 0) (fun _ => 0)
    (.doc (.mk "options" "" [] [leaf "steady_state_speed" "", leaf "initial_speed" "100"])) = .ok c ∧
    c.speed = 100 := by
  obtain ⟨c, h⟩ : ∃ c, configure sampleTexts sampleCar (fun _ => none) (fun _ => 0) (fun _ => 0)
    (.doc (.mk "options" "" [] [leaf "steady_state_speed" "", leaf "initial_speed" "100"])) = .ok c := ⟨_, rfl⟩
  obtain ⟨e, he, hx⟩ := (C171_initial_speed_partial _ _ _ _ _ _ c (f1Type_names _ _ _ _ _) h).1
    (by simp [find?, descend, child?, Node.children, Node.name, leaf])
  obtain rfl : leaf "initial_speed" "100" = e := Option.some.inj he
  exact ⟨c, h, (Res.ok.inj hx).symm⟩

/-- The documented option `initial_speed` is ignored: whatever speed it gives, the speed is 50 km/h. -/
theorem C171_initial_speed_false (T : Texts K) (car : CarType K) (tables : String → Option (List K))
    (junkQ junkU : Row K) (t : String) :
    ∃ c, configure T car tables junkQ junkU (.doc (.mk "options" "" [] [leaf "initial_speed" t])) = .ok c ∧
      c.speed = 50 := ⟨_, rfl, rfl⟩

/-- Asking for a speed with `steady_state_speed` alone is refused. -/
theorem C171_steady_state_speed_refused (T : Texts K) (car : CarType K) (tables : String → Option (List K))
    (junkQ junkU : Row K) (t : String) :
    configure T car tables junkQ junkU (.doc (.mk "options" "" [] [leaf "steady_state_speed" t])) = .throw := rfl

/-! ### C172: the control variables -/

/-- The type, the dissipation and the mesh of each control are those of the last entry for it that gives one, and the
defaults of the vehicle if there is none. -/
theorem C172_control_variables (T : Texts K) (car : CarType K) (tables : String → Option (List K))
    (junkQ junkU : Row K) (d : Node) (c : Config K) (hn : (car.inputs ++ car.controls).Nodup)
    (h : configure T car tables junkQ junkU (.doc d) = .ok c) (j : Nat) (hj : j < car.controls.length) :
    Latest (entries d "control_variables") (typeOf car.controls[j]) (car.types j) (c.types j) ∧
    Latest (entries d "control_variables") (dissipationOf T car.controls[j]) (car.dissipations j)
      (c.dissipations j) ∧
    Latest (entries d "control_variables") (hypermeshOf T car.controls[j]) [] (c.hypermeshes j) :=
  (configure_known hn h).controls j hj

/-- Every control has one of the four types. -/
theorem C172_known_types (T : Texts K) (car : CarType K) (tables : String → Option (List K))
    (junkQ junkU : Row K) (d : Node) (c : Config K) (hn : (car.inputs ++ car.controls).Nodup)
    (ht : ∀ j < car.controls.length, car.types j ∈ controlTypes)
    (h : configure T car tables junkQ junkU (.doc d) = .ok c) (j : Nat) (hj : j < car.controls.length) :
    c.types j ∈ controlTypes := by
  have k := configure_known hn h
  rcases (k.controls j hj).1 with ⟨-, he⟩ | ⟨bef, e, aft, hl, hg, -⟩
  · rw [he]
    exact ht j hj
  · have hm : e ∈ entries d "control_variables" := by simp [hl]
    have hty : attr e "optimal_control_type" = .ok (c.types j) := by
      unfold typeOf at hg
      by_cases hnm : e.name = car.controls[j]
      · rw [if_pos hnm] at hg
        exact Option.some.inj hg
      · rw [if_neg hnm] at hg
        exact absurd hg (by simp)
    obtain ⟨-, h1⟩ := k.controlEntries e hm
    simp only [hty, Res.ok.injEq] at h1
    unfold controlTypes
    rcases h1 with h1 | h1 | ⟨h1, -⟩ | ⟨h1, -⟩ <;> simp [h1]

/-- An entry for an unknown control, or of an unknown type, is refused. -/
theorem C172_unknown_refused (T : Texts K) (car : CarType K) (tables : String → Option (List K))
    (junkQ junkU : Row K) (d e : Node) (hn : (car.inputs ++ car.controls).Nodup)
    (he : e ∈ entries d "control_variables")
    (hu : e.name ∉ car.controls ∨ ∀ t, attr e "optimal_control_type" = .ok t → t ∉ controlTypes) :
    ∀ c, configure T car tables junkQ junkU (.doc d) ≠ .ok c := by
  intro c h
  obtain ⟨h1, h2⟩ := (configure_known hn h).controlEntries e he
  rcases hu with hu | hu
  · exact hu h1
  · rcases h2 with h2 | h2 | ⟨h2, -⟩ | ⟨h2, -⟩ <;> exact hu _ h2 (by simp [controlTypes])

example : ∃ c, configure sampleTexts sampleCar (fun _ => none) (fun _ => 0) (fun _ => 0) (.doc sampleDoc) = .ok c ∧
    c.types 1 = "constant" := by
  obtain ⟨c, h⟩ := sampleDoc_accepted
  refine ⟨c, h, ?_⟩
  rcases (C172_control_variables _ _ _ _ _ _ c (f1Type_names _ _ _ _ _) h 1 (by decide +kernel)).1 with
    ⟨h1, -⟩ | ⟨bef, e, aft, h1, h2, h3⟩
  · exact absurd (h1 _ (List.mem_cons_of_mem _ (List.mem_cons_self))) (by
      show typeOf "rear-axle.boost" _ ≠ none
      simp [typeOf, Node.name])
  · have hl : ∀ x ∈ (bef ++ e :: aft).getLast?, typeOf "rear-axle.boost" x ≠ none := by
      rw [← h1]
      intro x hx
      obtain rfl := Option.some.inj hx
      simp [typeOf, Node.name]
    have ha : aft = [] := by
      rcases aft.eq_nil_or_concat with rfl | ⟨l, x, rfl⟩
      · rfl
      · exact absurd (h3 x (by simp)) (hl x (by
          rw [show bef ++ e :: l.concat x = (bef ++ e :: l) ++ [x] by simp, List.getLast?_concat]
          rfl))
    subst ha
    have : (entries sampleDoc "control_variables").getLast? = some e := by
      rw [h1, List.getLast?_concat]
    obtain rfl := Option.some.inj this
    have h2 : some (Res.ok "constant") = some (Res.ok (c.types 1)) := h2
    exact (Res.ok.inj (Option.some.inj h2)).symm

/-- C172: without options the lap of the F1 car is optimised in direct form over the steering and the throttle, both
given at every node; boost and brake bias are left alone. -/
theorem C172_f1_defaults (T : Texts K) (o : List String) (a b cl cu : Row K) (tables : String → Option (List K))
    (junkQ junkU : Row K) :
    (f1Type o a b cl cu).controls =
      ["front-axle.steering-angle", "rear-axle.boost", "chassis.throttle", "chassis.brake-bias"] ∧
    ∃ c, configure T (f1Type o a b cl cu) tables junkQ junkU .empty = .ok c ∧ c.isDirect = true ∧
      ∀ (n : Nat) (u : Row K), controlVariables c 4 n u =
        [createFullMesh (List.replicate n (u 0)) 50, createDontOptimize,
         createFullMesh (List.replicate n (u 2)) (20 * (8 / 10 ^ 4)), createDontOptimize] := by
  refine ⟨by simp [f1Type, List.range_succ, F1.controlNames]; decide, _, rfl, rfl, fun n u => ?_⟩
  simp [controlVariables, controlVariable, defaults, f1Type, List.range_succ]

/-- C172: without options the lap of the kart is optimised in derivative form over the steering and the torque, both
given at every node. -/
theorem C172_kart_defaults (T : Texts K) (o : List String) (a b cl cu : Row K) (tables : String → Option (List K))
    (junkQ junkU : Row K) :
    (kartType o a b cl cu).controls = ["front-axle.steering-angle", "rear-axle.throttle"] ∧
    ∃ c, configure T (kartType o a b cl cu) tables junkQ junkU .empty = .ok c ∧ c.isDirect = false ∧
      ∀ (n : Nat) (u : Row K), controlVariables c 2 n u =
        [createFullMeshD (List.replicate n (u 0)) (List.replicate n 0) (1 / 10 ^ 2),
         createFullMeshD (List.replicate n (u 1)) (List.replicate n 0) (200 * 200 * (1 / 10 ^ 10))] := by
  refine ⟨by simp [kartType, List.range_succ, Kart.controlNames]; decide, _, rfl, rfl, fun n u => ?_⟩
  simp [controlVariables, controlVariable, defaults, kartType, List.range_succ]

/-- The default types of both vehicles are among the four. -/
theorem defaultTypes (o : List String) (a b c d : Row K) :
    (∀ j < (f1Type o a b c d).controls.length, (f1Type o a b c d).types j ∈ controlTypes) ∧
    (∀ j < (kartType o a b c d).controls.length, (kartType o a b c d).types j ∈ controlTypes) := by
  constructor
  · intro j hj
    have hj : j < 4 := by simpa [f1Type] using hj
    rcases j with _ | _ | _ | _ | j <;> first | omega | simp [f1Type, controlTypes]
  · intro j hj
    have hj : j < 2 := by simpa [kartType] using hj
    rcases j with _ | _ | j <;> first | omega | simp [kartType, controlTypes]

example : ∃ c, configure sampleTexts sampleCar (fun _ => none) (fun _ => 0) (fun _ => 0) (.doc sampleDoc) = .ok c ∧
    c.types 3 ∈ controlTypes := by
  obtain ⟨c, h⟩ := sampleDoc_accepted
  exact ⟨c, h, C172_known_types _ _ _ _ _ _ c (f1Type_names _ _ _ _ _) (defaultTypes _ _ _ _ _).1 h 3
    (by decide +kernel)⟩

example : ∀ c, configure sampleTexts sampleCar (fun _ => none) (fun _ => 0) (fun _ => 0)
    (.doc (.mk "options" "" [] [.mk "control_variables" "" []
      [.mk "delta" "" [("optimal_control_type", "full-mesh")] []]])) ≠ .ok c :=
  C172_unknown_refused _ _ _ _ _ _ (.mk "delta" "" [("optimal_control_type", "full-mesh")] [])
    (f1Type_names _ _ _ _ _) (List.mem_singleton.2 rfl) (.inl (by decide +kernel))

/-! ### C173: the bounds of the variables and of the integral quantities -/

/-- The lower and upper bounds of each input and control are those of the last entry for it that gives one, and the
bounds of the vehicle if there is none. -/
theorem C173_variable_bounds (T : Texts K) (car : CarType K) (tables : String → Option (List K))
    (junkQ junkU : Row K) (d : Node) (c : Config K) (hn : (car.inputs ++ car.controls).Nodup)
    (h : configure T car tables junkQ junkU (.doc d) = .ok c) :
    (∀ j (hj : j < car.inputs.length),
      Latest (entries d "variable_bounds") (boundOf T "lower" car.inputs[j]) (car.inputsLb j) (c.inputsLb j) ∧
      Latest (entries d "variable_bounds") (boundOf T "upper" car.inputs[j]) (car.inputsUb j) (c.inputsUb j)) ∧
    (∀ j (hj : j < car.controls.length),
      Latest (entries d "variable_bounds") (boundOf T "lower" car.controls[j]) (car.controlsLb j)
        (c.controlsLb j) ∧
      Latest (entries d "variable_bounds") (boundOf T "upper" car.controls[j]) (car.controlsUb j)
        (c.controlsUb j)) :=
  ⟨(configure_known hn h).inputBounds, (configure_known hn h).controlBounds⟩

/-- The integral constraints are the entries, in order, with their names and both bounds. -/
theorem C173_integral_constraints (T : Texts K) (car : CarType K) (tables : String → Option (List K))
    (junkQ junkU : Row K) (d : Node) (c : Config K) (hn : (car.inputs ++ car.controls).Nodup)
    (h : configure T car tables junkQ junkU (.doc d) = .ok c) :
    List.Forall₂ (fun e q => q.1 = e.name ∧
        (∃ b, child? e "lower_bound" = some b ∧ T.num b.text = .ok q.2.1) ∧
        ∃ b, child? e "upper_bound" = some b ∧ T.num b.text = .ok q.2.2)
      (entries d "integral_constraints") c.integral :=
  (configure_known hn h).integral

/-- The bounds and the integral constraints are those of the problem that is solved. -/
theorem C173_bounds_are_used (c : Config K) (nControls : Nat) (s : List K) (q u : Row K) (w : Warm K)
    (r : Request K) (h : lapRequest c nControls s q u w = .ok r) :
    r.opts.inputsLb = c.inputsLb ∧ r.opts.inputsUb = c.inputsUb ∧ r.opts.controlsLb = c.controlsLb ∧
    r.opts.controlsUb = c.controlsUb ∧ r.opts.sigma = c.sigma ∧
    r.opts.integral = c.integral.map fun q => (q.1.toList, q.2.1, q.2.2) := by
  have : r.opts = lapSettings c := by
    unfold lapRequest at h
    by_cases hw : c.warmStart = true
    · rw [if_pos hw] at h
      obtain rfl := Res.ok.inj h
      rfl
    · rw [if_neg hw] at h
      obtain ⟨p, -, h⟩ := Res.bind_eq_ok.1 h
      obtain rfl := Res.ok.inj h
      rfl
  rw [this]
  exact ⟨rfl, rfl, rfl, rfl, rfl, rfl⟩

example : ∃ c r, configure sampleTexts sampleCar (fun _ => none) (fun _ => 0) (fun _ => 0) (.doc sampleDoc) = .ok c ∧
    lapRequest c 4 [0, 1] (fun _ => 0) (fun _ => 0) ⟨[], false, false, [], [], [], [], []⟩ = .ok r ∧
    r.opts.sigma = c.sigma := by
  obtain ⟨c, h⟩ := sampleDoc_accepted
  obtain ⟨r, hr⟩ : ∃ r, lapRequest c 4 [0, 1] (fun _ => 0) (fun _ => 0) ⟨[], false, false, [], [], [], [], []⟩ = .ok r := by
    obtain rfl := Res.ok.inj h
    exact ⟨_, rfl⟩
  exact ⟨c, r, h, hr, (C173_bounds_are_used _ _ _ _ _ _ _ hr).2.2.2.2.1⟩

example : ∃ c, configure sampleTexts sampleCar (fun _ => none) (fun _ => 0) (fun _ => 0) (.doc sampleDoc) = .ok c ∧
    c.integral = [("engine-energy", 1, 100)] := by
  obtain ⟨c, h⟩ := sampleDoc_accepted
  have h1 := C173_integral_constraints _ _ _ _ _ _ c (f1Type_names _ _ _ _ _) h
  refine ⟨c, h, ?_⟩
  have he : entries sampleDoc "integral_constraints" =
    [.mk "engine-energy" "" [] [leaf "lower_bound" "1", leaf "upper_bound" "100"]] := rfl
  rw [he] at h1
  obtain ⟨q, l, ⟨h2, ⟨b, h3, h4⟩, ⟨b', h5, h6⟩⟩, h7, h8⟩ := List.forall₂_cons_left_iff.1 h1
  rw [h8, List.forall₂_nil_left_iff.1 h7]
  obtain rfl : leaf "lower_bound" "1" = b := Option.some.inj h3
  obtain rfl : leaf "upper_bound" "100" = b' := Option.some.inj h5
  have h4 : (1 : ℚ) = q.2.1 := Res.ok.inj h4
  have h6 : (100 : ℚ) = q.2.2 := Res.ok.inj h6
  rw [h4, h6]
  exact congrArg (fun x => [(x, q.2.1, q.2.2)]) h2

example : ∃ c, configure sampleTexts sampleCar (fun _ => none) (fun _ => 0) (fun _ => 0) (.doc sampleDoc) = .ok c ∧
    Latest (entries sampleDoc "variable_bounds") (boundOf sampleTexts "upper" "chassis.throttle") 0
      (c.controlsUb 2) := by
  obtain ⟨c, h⟩ := sampleDoc_accepted
  exact ⟨c, h, ((C173_variable_bounds _ _ _ _ _ _ c (f1Type_names _ _ _ _ _) h).2 2 (by decide +kernel)).2⟩

/-! ### C174: which documents are accepted -/

/-- The documents that are accepted are exactly the well-formed ones. Missing: the documented form of the bounds and
of the initial speed (`C174_documented_false`, `C171_initial_speed_false`). -/
theorem C174_accepted_iff_partial (T : Texts K) (car : CarType K) (tables : String → Option (List K))
    (junkQ junkU : Row K) (d : Node) (hn : (car.inputs ++ car.controls).Nodup) :
    (∃ c, configure T car tables junkQ junkU (.doc d) = .ok c) ↔ Acceptable T car tables d :=
  configure_accepts junkQ junkU hn

example : Acceptable sampleTexts sampleCar (fun _ => none) sampleDoc :=
  (C174_accepted_iff_partial _ _ _ (fun _ => 0) (fun _ => 0) _ (f1Type_names _ _ _ _ _)).1 sampleDoc_accepted

/-- Bounds written as documented, with children `lower_bound` and `upper_bound`, are refused for every variable of every
vehicle. -/
theorem C174_documented_false (T : Texts K) (car : CarType K) (tables : String → Option (List K))
    (junkQ junkU : Row K) (name lo up : String) :
    configure T car tables junkQ junkU (.doc (.mk "options" "" [] [.mk "variable_bounds" "" []
      [.mk name "" [] [leaf "lower_bound" lo, leaf "upper_bound" up]]])) = .throw := rfl

/-! ### C175: the initial condition of an open lap -/

/-- An open lap is only accepted with an initial condition taken from the table of vectors, at most as long as the inputs
and controls; its entries are the first ones of the starting inputs and controls. Missing: that it gives all of them. -/
theorem C175_initial_condition_partial (T : Texts K) (car : CarType K) (tables : String → Option (List K))
    (junkQ junkU : Row K) (d : Node) (c : Config K) (hn : (car.inputs ++ car.controls).Nodup)
    (h : configure T car tables junkQ junkU (.doc d) = .ok c) :
    (c.isClosed = true → c.setInitial = false) ∧
    (c.isClosed = false → c.setInitial = true ∧
      (∃ v, TableVector tables (find? d ["initial_condition", "q"]) v ∧ v.length ≤ car.inputs.length ∧
        Filled v junkQ c.qStart) ∧
      (∃ v, TableVector tables (find? d ["initial_condition", "u"]) v ∧ v.length ≤ car.controls.length ∧
        Filled v junkU c.uStart)) := by
  have k := configure_known hn h
  exact ⟨fun h0 => (k.noInitial h0).1, fun h0 => ⟨(k.initial h0).1, (k.initial h0).2.2⟩⟩

/-- A document for an open lap. -/
def openDoc : Node := .mk "options" "" []
  [leaf "closed_simulation" "false",
   .mk "initial_condition" "" [] [.mk "q" "" [("from_table", "q0")] [], .mk "u" "" [("from_table", "u0")] []]]

example : ∃ c, configure sampleTexts sampleCar (fun _ => some [7, 8, 9]) (fun _ => 0) (fun _ => 0) (.doc openDoc) = .ok c ∧
    c.uStart 2 = 9 := by
  obtain ⟨c, h⟩ : ∃ c, configure sampleTexts sampleCar (fun _ => some [7, 8, 9]) (fun _ => 0) (fun _ => 0)
    (.doc openDoc) = .ok c := ⟨_, rfl⟩
  have hc : c.isClosed = false :=
    (Res.ok.inj (C170_options_take_their_value _ _ _ _ _ _ c (f1Type_names _ _ _ _ _) h).2.2.2.2.1).symm
  obtain ⟨-, -, ⟨v, ⟨_, _, -, -, hv⟩, -, hf⟩⟩ :=
    (C175_initial_condition_partial _ _ _ _ _ _ c (f1Type_names _ _ _ _ _) h).2 hc
  obtain rfl := Option.some.inj hv
  exact ⟨c, h, hf.1 2 (by decide)⟩

/-- Vectors shorter than the inputs are accepted: the missing entries are whatever was in memory. -/
theorem C175_short_false (junkQ junkU : Row ℚ) :
    ∃ c, configure sampleTexts sampleCar (fun _ => some [7]) junkQ junkU (.doc openDoc) = .ok c ∧
      c.setInitial = true ∧ c.qStart 4 = junkQ 4 := ⟨_, rfl, rfl, rfl⟩

/-- Vectors longer than the inputs are written past the end of the array. -/
theorem C175_long_undefined (junkQ junkU : Row ℚ) :
    configure sampleTexts sampleCar (fun _ => some (List.replicate 15 7)) junkQ junkU (.doc openDoc) = .ub := rfl

/-- An open lap without an initial condition is refused. -/
theorem C175_required (T : Texts K) (car : CarType K) (tables : String → Option (List K))
    (junkQ junkU : Row K) (d e : Node) (hn : (car.inputs ++ car.controls).Nodup)
    (he : find? d ["closed_simulation"] = some e) (ht : T.bool e.text = .ok false)
    (hi : find? d ["initial_condition"] = none) :
    ∀ c, configure T car tables junkQ junkU (.doc d) ≠ .ok c := by
  intro c h
  have k := configure_known hn h
  have hc := k.closed
  rw [he] at hc
  exact (k.initial (Res.ok.inj (hc.symm.trans ht))).2.1 hi

example : ∀ c, configure sampleTexts sampleCar (fun _ => none) (fun _ => 0) (fun _ => 0)
    (.doc (.mk "options" "" [] [leaf "closed_simulation" "false"])) ≠ .ok c :=
  C175_required _ _ _ _ _ _ (leaf "closed_simulation" "false") (f1Type_names _ _ _ _ _) rfl rfl rfl

end Verif.LapOptions
