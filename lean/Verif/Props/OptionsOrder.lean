import Verif.Lemmas.OptionsOrder
import Verif.Props.LapOptions
import Verif.Props.CircuitOptions
import Verif.Props.Propagation

/-! Properties of the order and the names of the options (C262, C263). -/

set_option autoImplicit false

namespace Verif.LapOptions

open Spec Transcription

variable {K : Type*}

/-! ## The documents (C170, C172) -/

/-- C170: an option is read from the first element of its name. -/
theorem C170_first (e : Node) (n : String) (c : Node) :
    child? e n = some c ↔ ∃ l l', e.children = l ++ c :: l' ∧ c.name = n ∧ ∀ x ∈ l, x.name ≠ n := by
  unfold child?
  rw [List.find?_eq_some_iff_append]
  simp only [decide_eq_true_eq, Bool.not_eq_eq_eq_not, Bool.not_true, decide_eq_false_iff_not]
  constructor
  · rintro ⟨h1, l, l', h2, h3⟩
    exact ⟨l, l', h2, h1, h3⟩
  · rintro ⟨l, l', h2, h1, h3⟩
    exact ⟨h1, l, l', h2, h3⟩

/-- C172: the type of a control is the value of its attribute. -/
theorem C172_attribute (e : Node) (n v : String) :
    attr e n = .ok v ↔ ∃ l l', e.attrs = l ++ (n, v) :: l' ∧ ∀ x ∈ l, x.1 ≠ n := by
  unfold attr
  rw [orThrow_eq_ok, Option.map_eq_some_iff]
  constructor
  · rintro ⟨⟨m, w⟩, h, rfl⟩
    rw [List.find?_eq_some_iff_append] at h
    obtain ⟨h1, l, l', h2, h3⟩ := h
    obtain rfl : m = n := of_decide_eq_true h1
    exact ⟨l, l', h2, fun x hx => by simpa using h3 x hx⟩
  · rintro ⟨l, l', h, h3⟩
    exact ⟨(n, v), List.find?_eq_some_iff_append.2 ⟨by simp, l, l', h, fun x hx => by simpa using h3 x hx⟩, rfl⟩

example : attr (.mk "rear-axle.boost" "" [("unit", "-"), ("optimal_control_type", "constant")] []) "optimal_control_type" =
    .ok "constant" := (C172_attribute _ _ _).2 ⟨[("unit", "-")], [], rfl, by simp⟩

example : child? (.mk "options" "" [] [leaf "sigma" "0.25", leaf "sigma" "1"]) "sigma" = some (leaf "sigma" "0.25") :=
  (C170_first _ _ _).2 ⟨[], _, rfl, rfl, by simp⟩

/-! ## C262 -/

/-- C262: the options of a lap, the entries of its control variables and those of its bounds may be in any order. -/
theorem C262_lap [Field K] (T : Texts K) (car : CarType K) (tables : String → Option (List K)) (junkQ junkU : Row K) (d d' : Node)
    (h : SameOptions d d') (c : Config K) (hc : configure T car tables junkQ junkU (.doc d) = .ok c) :
    configure T car tables junkQ junkU (.doc d') = .ok c := by
  obtain ⟨n, t, a, l⟩ := d
  obtain ⟨n', t', a', l'⟩ := d'
  obtain ⟨rfl, -, -, m, hm, hs⟩ := h
  refine configure_same T car tables junkQ junkU (d := .mk n t a l) (d' := .mk n t' a' l') rfl (fun k => ?_) hc
  have := find_same hs k
  rw [← find_perm hm.1 hm.2 k] at this
  exact this

/-- C262: the options of a lap may be in any order: the result is the same also when it is an error. -/
theorem C262_lap_errors [Field K] (T : Texts K) (car : CarType K) (tables : String → Option (List K)) (junkQ junkU : Row K)
    (n t : String) (a : List (String × String)) (l l' : List Node) (h : Reordered l l') :
    configure T car tables junkQ junkU (.doc (.mk n t a l)) = configure T car tables junkQ junkU (.doc (.mk n t a l')) :=
  configure_agree T car tables junkQ junkU rfl fun m _ => find_perm h.1 h.2 m

/-- C262: the options of the circuit preprocessor may be in any order. -/
theorem C262_circuit [Field K] (T : Texts K) (trunc : K → Int) (n t : String) (a : List (String × String)) (l l' : List Node)
    (h : Reordered l l') :
    CircuitOptions.configure T trunc (some (.mk n t a l)) = CircuitOptions.configure T trunc (some (.mk n t a l')) :=
  circuit_agree T trunc rfl fun m _ => find_perm h.1 h.2 m

/-- C262: the options of a propagation may be in any order. -/
theorem C262_step (x : Texts ℝ) (o : Propagation.StepOptions) (parse : String → Res Node) (text text' n t : String)
    (a : List (String × String)) (l l' : List Node) (h : Reordered l l') (h1 : text ≠ "") (h2 : text' ≠ "")
    (hp : parse text = .ok (.mk n t a l)) (hp' : parse text' = .ok (.mk n t a l')) :
    Propagation.readOptions x parse o text = Propagation.readOptions x parse o text' :=
  step_agree x o h1 h2 hp hp' rfl fun m _ => find_perm h.1 h.2 m

/-- Options with their entries, and the same in another order. -/
example : ∃ c, configure sampleTexts sampleCar (fun _ => none) (fun _ => 0) (fun _ => 0) (.doc (.mk "options" "" []
      [leaf "sigma" "0.25", leaf "write_xml" "false", .mk "variable_bounds" "" []
        [.mk "chassis.throttle" "" [] [leaf "upper" "1"], .mk "chassis.velocity.x" "" [] [leaf "upper" "100"]]])) = .ok c ∧ configure sampleTexts sampleCar (fun _ => none) (fun _ => 0) (fun _ => 0) (.doc (.mk "options" "" []
      [leaf "write_xml" "false", leaf "sigma" "0.25", .mk "variable_bounds" "" []
        [.mk "chassis.velocity.x" "" [] [leaf "upper" "100"], .mk "chassis.throttle" "" [] [leaf "upper" "1"]]])) = .ok c := by
  obtain ⟨c, hc⟩ : ∃ c, configure sampleTexts sampleCar (fun _ => none) (fun _ => 0) (fun _ => 0) (.doc (.mk "options" "" []
      [leaf "sigma" "0.25", leaf "write_xml" "false", .mk "variable_bounds" "" []
        [.mk "chassis.throttle" "" [] [leaf "upper" "1"], .mk "chassis.velocity.x" "" [] [leaf "upper" "100"]]])) = .ok c :=
    ⟨_, rfl⟩
  refine ⟨c, hc, C262_lap _ _ _ _ _ _ _ ?_ c hc⟩
  refine ⟨rfl, rfl, rfl, _, ⟨List.Perm.swap _ _ _, by decide +kernel⟩, .cons (.inl rfl) (.cons (.inl rfl) (.cons (.inr ?_) .nil))⟩
  exact ⟨"variable_bounds", by simp, "", [], _, _, rfl, rfl, List.Perm.swap _ _ _, by decide +kernel⟩

/-- Options that cannot be read, in two orders. -/
example : configure sampleTexts sampleCar (fun _ => none) (fun _ => 0) (fun _ => 0)
      (.doc (.mk "options" "" [] [leaf "sigma" "half", leaf "print_level" "5"])) =
    configure sampleTexts sampleCar (fun _ => none) (fun _ => 0) (fun _ => 0)
      (.doc (.mk "options" "" [] [leaf "print_level" "5", leaf "sigma" "half"])) :=
  C262_lap_errors _ _ _ _ _ _ _ _ _ _ ⟨List.Perm.swap _ _ _, by decide +kernel⟩

example (more : List Node) (h : (("mode" : String) :: "is_closed" :: more.map Node.name).Nodup) :
    CircuitOptions.configure CircuitOptions.sampleTexts (fun q => q.num)
      (some (.mk "options" "" [] (leaf "mode" "refined" :: leaf "is_closed" "true" :: more))) =
    CircuitOptions.configure CircuitOptions.sampleTexts (fun q => q.num)
      (some (.mk "options" "" [] (leaf "is_closed" "true" :: leaf "mode" "refined" :: more))) :=
  C262_circuit _ _ _ _ _ _ _ ⟨List.Perm.swap _ _ _, h⟩

example (x : Texts ℝ) (o : Propagation.StepOptions) :
    let d := Node.mk "options" "" [] [leaf "sigma" "1", leaf "max_iter" "5"]
    let d' := Node.mk "options" "" [] [leaf "max_iter" "5", leaf "sigma" "1"]
    Propagation.readOptions x (fun t => if t = "a" then .ok d else .ok d') o "a" =
      Propagation.readOptions x (fun t => if t = "a" then .ok d else .ok d') o "b" :=
  C262_step x o _ "a" "b" _ _ _ _ _ ⟨List.Perm.swap _ _ _, by decide +kernel⟩ (by decide) (by decide) rfl rfl

/-! ## C263 -/

/-- C263: an option with a name that is not in the list is ignored wherever it is put. -/
theorem C263_lap [Field K] (T : Texts K) (car : CarType K) (tables : String → Option (List K)) (junkQ junkU : Row K)
    (n t : String) (a : List (String × String)) (l l' : List Node) (e : Node) (he : e.name ∉ lapOptionNames) :
    configure T car tables junkQ junkU (.doc (.mk n t a (l ++ e :: l'))) =
      configure T car tables junkQ junkU (.doc (.mk n t a (l ++ l'))) :=
  configure_agree T car tables junkQ junkU rfl fun m hm => find_skip l l' fun h => he (h ▸ hm)

/-- C263 for the circuit preprocessor. -/
theorem C263_circuit [Field K] (T : Texts K) (trunc : K → Int) (n t : String) (a : List (String × String)) (l l' : List Node)
    (e : Node) (he : e.name ∉ circuitOptionNames) :
    CircuitOptions.configure T trunc (some (.mk n t a (l ++ e :: l'))) =
      CircuitOptions.configure T trunc (some (.mk n t a (l ++ l'))) :=
  circuit_agree T trunc rfl fun m hm => find_skip l l' fun h => he (h ▸ hm)

/-- C263 for a propagation. -/
theorem C263_step (x : Texts ℝ) (o : Propagation.StepOptions) (parse : String → Res Node) (text text' n t : String)
    (a : List (String × String)) (l l' : List Node) (e : Node) (he : e.name ∉ stepOptionNames) (h1 : text ≠ "") (h2 : text' ≠ "")
    (hp : parse text = .ok (.mk n t a (l ++ e :: l'))) (hp' : parse text' = .ok (.mk n t a (l ++ l'))) :
    Propagation.readOptions x parse o text = Propagation.readOptions x parse o text' :=
  step_agree x o h1 h2 hp hp' rfl fun m hm => find_skip l l' fun h => he (h ▸ hm)

/-- A misspelt name: the lap has the default. -/
example : ∃ c, configure sampleTexts sampleCar (fun _ => none) (fun _ => 0) (fun _ => 0)
    (.doc (.mk "options" "" [] [leaf "sigmaa" "0.25"])) = .ok c ∧ c.sigma = 1 / 2 := by
  refine ⟨_, C263_lap sampleTexts sampleCar _ _ _ _ _ _ [] [] (leaf "sigmaa" "0.25") (by decide +kernel), ?_⟩
  rfl

example (l l' : List Node) : CircuitOptions.configure CircuitOptions.sampleTexts (fun q => q.num)
      (some (.mk "options" "" [] (l ++ leaf "closed" "false" :: l'))) =
    CircuitOptions.configure CircuitOptions.sampleTexts (fun q => q.num) (some (.mk "options" "" [] (l ++ l'))) :=
  C263_circuit _ _ _ _ _ _ _ _ (by decide +kernel)

example (x : Texts ℝ) (o : Propagation.StepOptions) :
    let d := Node.mk "options" "" [] [leaf "sigma" "1", leaf "tolerance" "5"]
    let d' := Node.mk "options" "" [] [leaf "sigma" "1"]
    Propagation.readOptions x (fun t => if t = "a" then .ok d else .ok d') o "a" =
      Propagation.readOptions x (fun t => if t = "a" then .ok d else .ok d') o "b" :=
  C263_step x o _ "a" "b" _ _ _ [leaf "sigma" "1"] [] (leaf "tolerance" "5") (by decide +kernel) (by decide) (by decide) rfl rfl

/-- C263: a second option of the same name is ignored. -/
theorem C263_repeated [Field K] (T : Texts K) (car : CarType K) (tables : String → Option (List K)) (junkQ junkU : Row K)
    (n t : String) (a : List (String × String)) (l l' : List Node) (e : Node) (he : e.name ∈ l.map Node.name) :
    configure T car tables junkQ junkU (.doc (.mk n t a (l ++ e :: l'))) =
      configure T car tables junkQ junkU (.doc (.mk n t a (l ++ l'))) :=
  configure_agree T car tables junkQ junkU rfl fun m _ => find_repeated l l' he m

example : configure sampleTexts sampleCar (fun _ => none) (fun _ => 0) (fun _ => 0)
      (.doc (.mk "options" "" [] [leaf "sigma" "0.25", leaf "sigma" "1"])) =
    configure sampleTexts sampleCar (fun _ => none) (fun _ => 0) (fun _ => 0) (.doc (.mk "options" "" [] [leaf "sigma" "0.25"])) :=
  C263_repeated _ _ _ _ _ _ _ _ [leaf "sigma" "0.25"] [] _ (by decide +kernel)

end Verif.LapOptions
