import Verif.Lemmas.CircuitOptions
import Verif.Props.LapOptions

/-!
# Properties of the options of the circuit preprocessor and of the data it returns

C183: the options take the values that are given. C184: open circuits. C185: the number of elements. C186: the returned
vectors are those of the circuit. C187: a computation that fails leaves the stored variables as they were.
-/

set_option autoImplicit false

namespace Verif.CircuitOptions

open Verif.LapOptions (Node find? Texts Readable Reads leaf descend child?)
open Verif.CircuitFile (Circuit Options)
open Verif.Registry (Reg Reg.empty runCircuit circuitOutputs put saveOutputs)

variable {K : Type}

/-- Readings of some texts, for the examples. -/
def sampleTexts : Texts ℚ where
  bool t := if t = "true" then .ok true else if t = "false" then .ok false else .throw
  int t := if t = "5" then .ok 5 else if t = "-1" then .ok (-1) else .throw
  num t := if t = "0.25" then .ok (1 / 4) else if t = "5" then .ok 5 else .throw
  nums t := if t = "0 100" then .ok [0, 100] else if t = "4 2" then .ok [4, 2] else .throw
  trim t := t

/-- A document with the files, the mode and whether the circuit is closed. -/
def document (mode closed : String) (more : List Node) : Node :=
  .mk "options" "" [] ([.mk "kml_files" "" [] [leaf "left" "l.kml", leaf "right" "r.kml"], leaf "mode" mode,
    leaf "is_closed" closed] ++ more)

/-- A document of a closed circuit of five elements. -/
def sampleDoc : Node :=
  document "equally-spaced" "true" [leaf "number_of_elements" "5",
    .mk "optimization" "" [] [leaf "cost_curvature" "0.25"], leaf "xml_file_name" "c.xml",
    .mk "output_variables" "" [] [leaf "prefix" "run/"], leaf "insert_table_name" "catalunya"]

theorem sampleDoc_accepted : ∃ c, configure sampleTexts (fun q => q.num) (some sampleDoc) = .ok c := ⟨_, rfl⟩

/-! ### C183: the options take the values that are given -/

/-- In an accepted document the files, the shape, the file to write, the name in the table and the prefix are those
given. -/
theorem C183_names [Field K] (T : Texts K) (trunc : K → Int) (d : Node) (c : Config K)
    (h : configure T trunc (some d) = .ok c) :
    textOf d ["kml_files", "left"] = some c.left ∧ textOf d ["kml_files", "right"] = some c.right ∧
    (∃ t, textOf d ["is_closed"] = some t ∧ T.bool t = .ok c.isClosed) ∧
    c.xmlFile = textOf d ["xml_file_name"] ∧ c.table = textOf d ["insert_table_name"] ∧
    (find? d ["output_variables"] = none → c.outputs = none) ∧
    (find? d ["output_variables"] ≠ none → ∃ t, textOf d ["output_variables", "prefix"] = some t ∧ c.outputs = some t) :=
  have k := configure_known h
  ⟨k.left, k.right, k.closed, k.xml, k.table, k.noOutputs, k.outputs⟩

example : ∃ c, configure sampleTexts (fun q => q.num) (some sampleDoc) = .ok c ∧ c.left = "l.kml" ∧
    c.right = "r.kml" ∧ c.xmlFile = some "c.xml" ∧ c.table = some "catalunya" := by
  obtain ⟨c, h⟩ := sampleDoc_accepted
  obtain ⟨h1, h2, -, h3, h4, -⟩ := C183_names _ _ _ c h
  exact ⟨c, h, (Option.some.inj h1).symm, (Option.some.inj h2).symm, h3, h4⟩

/-- Each weight and limit takes its value, or its default when it is not given; the options that cannot be given have
their defaults. The defaults are those of `Circuit_preprocessor::Options`. -/
theorem C183_weights [Field K] (T : Texts K) (trunc : K → Int) (d : Node) (c : Config K)
    (h : configure T trunc (some d) = .ok c) :
    Reads (find? d ["optimization", "cost_curvature"]) T.num 50000 c.options.epsK ∧
    Reads (find? d ["optimization", "cost_track_limits_smoothness"]) T.num (1 / 10) c.options.epsN ∧
    Reads (find? d ["optimization", "cost_track_limits_errors"]) T.num (1 / 10) c.options.epsD ∧
    Reads (find? d ["optimization", "cost_centerline"]) T.num (1 / 10) c.options.epsC ∧
    Reads (find? d ["optimization", "maximum_yaw_dot"]) T.num (1 / 10) c.options.maximumYawDot ∧
    Reads (find? d ["optimization", "maximum_dyaw_dot"]) T.num (2 / 100) c.options.maximumDyawDot ∧
    Reads (find? d ["print_level"]) (fun t => (T.num t).map trunc) 0 c.options.printLevel ∧
    c.options.withElevation = true ∧ c.options.epsPitch = 1000000 ∧ c.options.epsRoll = 1000000 ∧
    c.options.maximumDn = 1 ∧ c.options.maximumDistanceFind = 50 ∧ c.options.adaptionAspectRatioMax = 12 / 10 ∧
    c.options.computeKerbs = false ∧ c.options.kerbWidth = 1 ∧ c.options.useKerbs = false ∧
    c.options.exteriorKerbsDirection = -1 := by
  obtain ⟨o, h1, h2, h3⟩ := readOptions_ok (configure_known h).options
  obtain ⟨w1, w2, w3, w4, w5, w6, w7⟩ := readWeights_ok h1
  generalize c.options = q at *
  have e : ∀ {α : Type} (f : Options K → α), f q = f { o with printLevel := q.printLevel } := fun f => congrArg f h2
  have e' : ∀ {α : Type} (f : Options K → α), f o = f { Options.default with
      epsK := o.epsK, epsN := o.epsN, epsD := o.epsD, epsC := o.epsC, maximumYawDot := o.maximumYawDot,
      maximumDyawDot := o.maximumDyawDot } := fun f => congrArg f w7
  refine ⟨?_, ?_, ?_, ?_, ?_, ?_, h3, (e (·.withElevation)).trans (e' (·.withElevation)),
    (e (·.epsPitch)).trans (e' (·.epsPitch)), (e (·.epsRoll)).trans (e' (·.epsRoll)),
    (e (·.maximumDn)).trans (e' (·.maximumDn)), (e (·.maximumDistanceFind)).trans (e' (·.maximumDistanceFind)),
    (e (·.adaptionAspectRatioMax)).trans (e' (·.adaptionAspectRatioMax)),
    (e (·.computeKerbs)).trans (e' (·.computeKerbs)), (e (·.kerbWidth)).trans (e' (·.kerbWidth)),
    (e (·.useKerbs)).trans (e' (·.useKerbs)), (e (·.exteriorKerbsDirection)).trans (e' (·.exteriorKerbsDirection))⟩
  · rw [e (·.epsK)]
    exact w1
  · rw [e (·.epsN)]
    exact w2
  · rw [e (·.epsD)]
    exact w3
  · rw [e (·.epsC)]
    exact w4
  · rw [e (·.maximumYawDot)]
    exact w5
  · rw [e (·.maximumDyawDot)]
    exact w6

example : ∃ c, configure sampleTexts (fun q => q.num) (some sampleDoc) = .ok c ∧ c.options.epsK = 1 / 4 ∧
    c.options.epsN = 1 / 10 := by
  obtain ⟨c, h⟩ := sampleDoc_accepted
  obtain ⟨h1, h2, -⟩ := C183_weights _ _ _ c h
  exact ⟨c, h, (Res.ok.inj h1).symm, h2⟩

/-- A document is accepted exactly when everything needed is there and readable. -/
theorem C183_accepted [Field K] (T : Texts K) (trunc : K → Int) (d : Node) :
    (∃ c, configure T trunc (some d) = .ok c) ↔ Acceptable T d := configure_accepts

example : Acceptable sampleTexts sampleDoc := (C183_accepted _ _ _).1 sampleDoc_accepted

example : ¬ ∃ c, configure sampleTexts (fun q => q.num) (some (document "equally-spaced" "true" [])) = .ok c := by
  rw [C183_accepted]
  rintro ⟨-, -, ⟨t, b, -, -, h | h⟩, -⟩
  · obtain ⟨-, t, n, h, -⟩ := h
    simp [textOf, document, find?, descend, child?, Node.children, Node.name, leaf] at h
  · simp [textOf, document, find?, descend, child?, Node.children, Node.name, Node.text, leaf] at h

/-! ### C184: open circuits -/

section
variable {F : Type}

/-- A closed circuit is the one computed from the two files with the options and the mesh of the document. -/
theorem C184_closed_partial [Field K] (files : String → Res F)
    (build : F → F → Options K → Mesh K → Res (Circuit K)) (c : Config K) (hc : c.isClosed = true) (t : Circuit K) :
    circuit files build c = .ok t ↔
      ∃ l r, files c.left = .ok l ∧ files c.right = .ok r ∧ build l r c.options c.mesh = .ok t := by
  unfold circuit
  constructor
  · intro h
    obtain ⟨l, h1, h⟩ := Res.bind_eq_ok.1 h
    obtain ⟨r, h2, h⟩ := Res.bind_eq_ok.1 h
    refine ⟨l, r, h1, h2, ?_⟩
    rcases hm : c.mesh with n | ⟨s, ds⟩
    · rw [hm] at h
      simp only [hc, if_true] at h
      exact h
    · rw [hm] at h
      exact h
  · rintro ⟨l, r, h1, h2, h⟩
    rw [h1, Res.bind_ok, h2, Res.bind_ok]
    rcases hm : c.mesh with n | ⟨s, ds⟩
    · rw [hm] at h
      simp only [hc, if_true]
      exact h
    · rw [hm] at h
      exact h

/-- The documented open circuits cannot be computed: no document in which the circuit is open gives one, whatever its
boundaries are and however a circuit is computed. -/
theorem C184_open_false [Field K] (T : Texts K) (trunc : K → Int) (files : String → Res F)
    (build : F → F → Options K → Mesh K → Res (Circuit K)) (d : Node) (t : String)
    (h : textOf d ["is_closed"] = some t) (ht : T.bool t = .ok false) (x : Circuit K) :
    ¬ ∃ c, configure T trunc (some d) = .ok c ∧ circuit files build c = .ok x := by
  rintro ⟨c, hc, hx⟩
  have k := configure_known hc
  obtain ⟨t', h1, h2⟩ := k.closed
  obtain rfl : t = t' := Option.some.inj (h.symm.trans h1)
  have hcl : c.isClosed = false := Res.ok.inj (h2.symm.trans ht)
  obtain ⟨m, -, hm, hmesh⟩ := k.mode
  rcases hm with hm | ⟨-, hm⟩
  · rcases hmesh with ⟨-, t, n, -, -, he⟩ | ⟨hne, -⟩
    · unfold circuit at hx
      obtain ⟨l, -, hx⟩ := Res.bind_eq_ok.1 hx
      obtain ⟨r, -, hx⟩ := Res.bind_eq_ok.1 hx
      rw [he] at hx
      simp [hcl] at hx
    · exact hne hm
  · rw [hcl] at hm
    exact absurd hm (by simp)

/-- An open circuit is refused even though its options are accepted. -/
example : (∃ c, configure sampleTexts (fun q => q.num) (some (document "equally-spaced" "false"
    [leaf "number_of_elements" "5"])) = .ok c) ∧
    ∀ (build : F → F → Options ℚ → Mesh ℚ → Res (Circuit ℚ)) files x, ¬ ∃ c, configure sampleTexts (fun q => q.num)
      (some (document "equally-spaced" "false" [leaf "number_of_elements" "5"])) = .ok c ∧
      circuit files build c = .ok x :=
  ⟨⟨_, rfl⟩, fun build files x => C184_open_false sampleTexts _ files build _ "false" rfl rfl x⟩

end

/-! ### C185: the mesh is the one given -/

/-- With `equally-spaced` and a number of elements that is not negative, that is the number of elements; with `refined`
the distribution is the one given. -/
theorem C185_mesh_partial [Field K] (T : Texts K) (trunc : K → Int) (d : Node) (c : Config K)
    (h : configure T trunc (some d) = .ok c) :
    (textOf d ["mode"] = some "equally-spaced" → ∃ t n, textOf d ["number_of_elements"] = some t ∧ T.int t = .ok n ∧
      (0 ≤ n → n < 2 ^ 31 → c.mesh = .elements n.toNat)) ∧
    (textOf d ["mode"] = some "refined" → ∃ t s t' ds, textOf d ["mesh_refinement", "s"] = some t ∧ T.nums t = .ok s ∧
      textOf d ["mesh_refinement", "ds"] = some t' ∧ T.nums t' = .ok ds ∧ c.mesh = .refined s ds) := by
  obtain ⟨m, hm, -, hmesh⟩ := (configure_known h).mode
  refine ⟨fun h0 => ?_, fun h0 => ?_⟩
  · obtain rfl : m = "equally-spaced" := Option.some.inj (hm.symm.trans h0)
    rcases hmesh with ⟨-, t, n, h1, h2, h3⟩ | ⟨hne, -⟩
    · refine ⟨t, n, h1, h2, fun h4 h5 => ?_⟩
      rw [h3, toSize, Int.emod_eq_of_lt h4 (h5.trans (by norm_num))]
    · exact absurd rfl hne
  · obtain rfl : m = "refined" := Option.some.inj (hm.symm.trans h0)
    rcases hmesh with ⟨he, -⟩ | ⟨-, t, l, t', l', h1, h2, h3, h4, h5⟩
    · exact absurd he (by simp)
    · exact ⟨t, l, t', l', h1, h2, h3, h4, h5⟩

example : ∃ c, configure sampleTexts (fun q => q.num) (some sampleDoc) = .ok c ∧ c.mesh = .elements 5 := by
  obtain ⟨c, h⟩ := sampleDoc_accepted
  obtain ⟨t, n, h1, h2, h3⟩ := (C185_mesh_partial _ _ _ c h).1 rfl
  obtain rfl : "5" = t := Option.some.inj h1
  obtain rfl : (5 : Int) = n := Res.ok.inj h2
  exact ⟨c, h, h3 (by norm_num) (by norm_num)⟩

example : ∃ c, configure sampleTexts (fun q => q.num) (some (document "refined" "true"
    [.mk "mesh_refinement" "" [] [leaf "s" "0 100", leaf "ds" "4 2"]])) = .ok c ∧ c.mesh = .refined [0, 100] [4, 2] := by
  obtain ⟨c, h⟩ : ∃ c, configure sampleTexts (fun q => q.num) (some (document "refined" "true"
    [.mk "mesh_refinement" "" [] [leaf "s" "0 100", leaf "ds" "4 2"]])) = .ok c := ⟨_, rfl⟩
  obtain ⟨t, s, t', ds, h1, h2, h3, h4, h5⟩ := (C185_mesh_partial _ _ _ c h).2 rfl
  obtain rfl : "0 100" = t := Option.some.inj h1
  obtain rfl : "4 2" = t' := Option.some.inj h3
  obtain rfl : [0, 100] = s := Res.ok.inj h2
  obtain rfl : [4, 2] = ds := Res.ok.inj h4
  exact ⟨c, h, h5⟩

/-- A negative number of elements is not refused: `-k` becomes `2^64 - k` elements. -/
theorem C185_negative_false [Field K] (T : Texts K) (trunc : K → Int) (t : String) (k : Nat) (h0 : 0 < k)
    (h1 : k ≤ 2 ^ 31) (ht : T.int t = .ok (-(k : Int))) (hb : T.bool "true" = .ok true) :
    ∃ c, configure T trunc (some (document "equally-spaced" "true" [leaf "number_of_elements" t])) = .ok c ∧
      c.mesh = .elements (2 ^ 64 - k) := by
  obtain ⟨c, h⟩ := (C183_accepted T trunc (document "equally-spaced" "true" [leaf "number_of_elements" t])).2
    ⟨by simp [textOf, document, find?, descend, child?, Node.children, Node.name, leaf],
     by simp [textOf, document, find?, descend, child?, Node.children, Node.name, leaf],
     ⟨"true", true, rfl, hb, .inl ⟨rfl, t, _, rfl, ht⟩⟩,
     fun p _ e he => by
       simp [document, find?, descend, child?, Node.children, Node.name, leaf] at he,
     fun e he => by simp [document, find?, descend, child?, Node.children, Node.name, leaf] at he,
     fun he => by simp [document, find?, descend, child?, Node.children, Node.name, leaf] at he⟩
  refine ⟨c, h, ?_⟩
  obtain ⟨m, hm, -, hmesh⟩ := (configure_known h).mode
  obtain rfl : "equally-spaced" = m := Option.some.inj hm
  rcases hmesh with ⟨-, t', n, h2, h3, h4⟩ | ⟨hne, -⟩
  · obtain rfl : t = t' := Option.some.inj h2
    obtain rfl : n = -(k : Int) := Res.ok.inj (h3.symm.trans ht)
    have : toSize (-(k : Int)) = 2 ^ 64 - k := by
      unfold toSize
      have e : (-(k : Int)) % 2 ^ 64 = 2 ^ 64 - k := by
        rw [show (-(k : Int)) = (2 ^ 64 - k) + 2 ^ 64 * (-1) by ring, Int.add_mul_emod_self_left]
        exact Int.emod_eq_of_lt (by omega) (by omega)
      rw [e]
      omega
    rw [h4, this]
  · exact absurd rfl hne

example : ∃ c, configure sampleTexts (fun q => q.num) (some (document "equally-spaced" "true"
    [leaf "number_of_elements" "-1"])) = .ok c ∧ c.mesh = .elements 18446744073709551615 :=
  C185_negative_false sampleTexts _ "-1" 1 (by norm_num) (by norm_num) rfl rfl

/-! ### C186: the returned vectors are those of the circuit -/

section
variable {Kart F1 F : Type}

/-- How the job ends once the options are accepted and the circuit is computed. -/
theorem job_ok [Field K] {T : Texts K} {trunc : K → Int} {files : String → Res F}
    {build : F → F → Options K → Mesh K → Res (Circuit K)} {save : String → Circuit K → Res Unit} {d : Option Node}
    {c : Config K} {t : Circuit K} (hc : configure T trunc d = .ok c) (ht : circuit files build c = .ok t) :
    job T trunc files build save d = ⟨.ok t, c.table.map String.toList,
      written save c.xmlFile t, c.outputs.map String.toList, outputData t⟩ := by
  unfold job
  rw [hc]
  simp only [ht]

/-- After a computation that succeeds, the track is in the table under its name, and every vector of the circuit under
the prefix and its name, provided the boundaries and the measured boundaries have as many points as the arclength. -/
theorem C186_stored_partial [Field K] (T : Texts K) (trunc : K → Int) (files : String → Res F)
    (build : F → F → Options K → Mesh K → Res (Circuit K)) (save : String → Circuit K → Res Unit) (d : Option Node)
    (c : Config K) (t : Circuit K) (hc : configure T trunc d = .ok c) (ht : circuit files build c = .ok t)
    (r r' : Reg Kart F1 (Circuit K) K) (x : Registry.Ret K)
    (h : runCircuit r (job T trunc files build save d) = (r', .ok x))
    (h1 : t.rCenterline.length = t.s.length) (h2 : t.rLeft.length = t.s.length) (h3 : t.rRight.length = t.s.length)
    (h4 : t.rLeftMeasured.length = t.s.length) (h5 : t.rRightMeasured.length = t.s.length) :
    (∀ n, c.table = some n → r'.track n.toList = some t) ∧
    ∀ p, c.outputs = some p → ∀ o ∈ circuitVectors t, r'.vector (p.toList ++ o.1.toList) = some o.2 := by
  have hj := job_ok (save := save) hc ht
  have hb : (job T trunc files build save d).built = .ok t := by rw [hj]
  obtain ⟨k1, k2⟩ := runCircuit_ok hb h
  rw [hj] at k1 k2
  refine ⟨fun n hn => k1 n.toList (by simp [hn]), fun p hp o ho => ?_⟩
  have hmem : o.1.toList ∈ circuitOutputs := by
    simp only [circuitVectors, List.mem_cons, List.not_mem_nil, or_false] at ho
    rcases ho with rfl | rfl | rfl | rfl | rfl | rfl | rfl | rfl | rfl | rfl | rfl | rfl | rfl | rfl <;> simp [circuitOutputs]
  obtain ⟨v, h6, h7⟩ := k2 p.toList (by simp [hp]) _ hmem
  have h8 : outputData t o.1.toList = .ok v := h6
  rw [outputData_vectors t h1 h2 h3 h4 h5 o ho] at h8
  rw [h7, Res.ok.inj h8]

/-- A circuit of two points with `k` measured points on the left, for the examples. -/
def sampleCircuit (k : Nat) : Circuit ℚ :=
  { options := Options.default, x0 := 0, y0 := 0, roll0 := 0, yaw0 := 0, rollRef := 0, rEarth := 0, leftKerb := [],
    rightKerb := [], nElements := 2, nPoints := 2, isClosed := true, direction := 1, rLeft := [(0, 1, 0), (3, 1, 0)],
    rLeftMeasured := List.replicate k (7, 1, 0), rRight := [(0, 4, 0), (3, 4, 0)],
    rRightMeasured := [(0, 4, 0), (3, 5, 0)], rCenterline := [(0, 2, 0), (3, 2, 0)], s := [0, 3], yaw := [0, 0],
    pitch := [0, 0], roll := [0, 0], yawDot := [0, 0], pitchDot := [0, 0], rollDot := [0, 0], nl := [1, 1],
    nr := [2, 2], dyawDot := [0, 0], dpitchDot := [0, 0], drollDot := [0, 0], dnl := [0, 0], dnr := [0, 0],
    trackLength := 6, leftMaxError := 0, rightMaxError := 0, leftL2Error := 0, rightL2Error := 0 }

/-- A document that asks for the outputs only. -/
def outputsDoc : Node :=
  document "equally-spaced" "true" [leaf "number_of_elements" "5", .mk "output_variables" "" [] [leaf "prefix" "run/"]]

/-- A computation with outputs and without a file succeeds when all data can be copied and the names are free. -/
theorem job_succeeds [Field K] {T : Texts K} {trunc : K → Int} {files : String → Res F}
    {build : F → F → Options K → Mesh K → Res (Circuit K)} {save : String → Circuit K → Res Unit} {d : Option Node}
    {c : Config K} {t : Circuit K} {p : String} {r : Reg Kart F1 (Circuit K) K} (hc : configure T trunc d = .ok c)
    (ht : circuit files build c = .ok t) (hx : c.xmlFile = none) (htb : c.table = none) (ho : c.outputs = some p)
    (hd : ∀ o ∈ circuitOutputs, ∃ v, outputData t o = .ok v)
    (hr : ∀ o ∈ circuitOutputs, r.vector (p.toList ++ o) = none) :
    ∃ r', runCircuit r (job T trunc files build save d) = (r', .ok .unit) := by
  obtain ⟨r', h⟩ := saveOutputs_succeeds circuitOutputs r hd circuitOutputs_nodup hr
  refine ⟨r', ?_⟩
  rw [job_ok hc ht]
  simp only [runCircuit, written, hx, htb, ho, Option.map_none, Option.map_some]
  exact h

/-- With two measured points, the vectors are the boundary, under the prefix. -/
example : ∃ r' : Reg Unit Unit (Circuit ℚ) ℚ, runCircuit Reg.empty (job sampleTexts (fun q => q.num) (fun _ => .ok ())
      (fun _ _ _ _ => .ok (sampleCircuit 2)) (fun _ _ => .ok ()) (some outputsDoc)) = (r', .ok .unit) ∧
    r'.vector "run/left_measured/x".toList = some [7, 7] ∧ r'.vector "run/right_measured/y".toList = some [4, 5] := by
  obtain ⟨c, hc⟩ : ∃ c, configure sampleTexts (fun q => q.num) (some outputsDoc) = .ok c := ⟨_, rfl⟩
  have k := C183_names _ _ _ _ hc
  obtain ⟨t, h1, h2⟩ := k.2.2.2.2.2.2 (by
    simp [outputsDoc, document, find?, descend, child?, Node.children, Node.name, leaf])
  obtain rfl : "run/" = t := Option.some.inj h1
  have hcl : c.isClosed = true := by
    obtain ⟨t, h3, h4⟩ := k.2.2.1
    obtain rfl : "true" = t := Option.some.inj h3
    exact (Res.ok.inj h4).symm
  have ht : circuit (fun _ => Res.ok ()) (fun _ _ _ _ => .ok (sampleCircuit 2)) c = .ok (sampleCircuit 2) :=
    (C184_closed_partial _ _ _ hcl _).2 ⟨(), (), rfl, rfl, rfl⟩
  have hv := outputData_vectors (sampleCircuit 2) rfl rfl rfl rfl rfl
  obtain ⟨r', hr⟩ := job_succeeds (Kart := Unit) (F1 := Unit) (save := fun _ _ => .ok ()) (r := Reg.empty) hc ht
    k.2.2.2.1 k.2.2.2.2.1 h2 (fun o ho => by
      obtain ⟨o', ho', rfl⟩ := List.mem_map.1 ho
      have : o' ∈ (circuitVectors (sampleCircuit 2)).map (·.1) := ho'
      obtain ⟨q, hq, rfl⟩ := List.mem_map.1 this
      exact ⟨_, hv q hq⟩) (fun _ _ => rfl)
  obtain ⟨-, h5⟩ := C186_stored_partial _ _ _ _ _ _ c _ hc ht _ r' _ hr rfl rfl rfl rfl rfl
  exact ⟨r', hr, h5 "run/" h2 ("left_measured/x", [7, 7]) (by simp [circuitVectors, sampleCircuit]),
    h5 "run/" h2 ("right_measured/y", [4, 5]) (by simp [circuitVectors, sampleCircuit])⟩

/-- The data of the measured left boundary. -/
theorem outputData_left [Zero K] (t : Circuit K) : outputData t "left_measured/x".toList =
    copied t.s.length (t.rLeftMeasured.map (·.1)) :=
  outputData_eq t (o := ("left_measured/x", copied t.s.length (t.rLeftMeasured.map (·.1)))) (by simp [outputTable])

/-- The measured boundary is that of the file, which need not have as many points as the circuit: when it has fewer, the
stored vector is followed by zeros, points that are not in the file. -/
theorem C186_padded_false [Field K] (T : Texts K) (trunc : K → Int) (files : String → Res F)
    (build : F → F → Options K → Mesh K → Res (Circuit K)) (save : String → Circuit K → Res Unit) (d : Option Node)
    (c : Config K) (t : Circuit K) (hc : configure T trunc d = .ok c) (ht : circuit files build c = .ok t)
    (r r' : Reg Kart F1 (Circuit K) K) (x : Registry.Ret K)
    (h : runCircuit r (job T trunc files build save d) = (r', .ok x)) (p : String) (hp : c.outputs = some p)
    (h4 : t.rLeftMeasured.length < t.s.length) :
    r'.vector (p.toList ++ "left_measured/x".toList) =
      some (t.rLeftMeasured.map (·.1) ++ List.replicate (t.s.length - t.rLeftMeasured.length) 0) ∧
    r'.vector (p.toList ++ "left_measured/x".toList) ≠ some (t.rLeftMeasured.map (·.1)) := by
  have hj := job_ok (save := save) hc ht
  have hb : (job T trunc files build save d).built = .ok t := by rw [hj]
  obtain ⟨-, k2⟩ := runCircuit_ok hb h
  rw [hj] at k2
  obtain ⟨v, h6, h7⟩ := k2 p.toList (by simp [hp]) "left_measured/x".toList (by simp [circuitOutputs])
  have h8 : outputData t "left_measured/x".toList = .ok v := h6
  rw [outputData_left] at h8
  unfold copied at h8
  rw [if_pos (by rw [List.length_map]; omega), List.length_map] at h8
  obtain rfl := Res.ok.inj h8
  refine ⟨h7, fun he => ?_⟩
  rw [h7] at he
  have := congrArg List.length (Option.some.inj he)
  simp at this
  omega

/-- When the file has more points than the circuit, they are written past the end of the vector. -/
theorem C186_overrun_false [Field K] (T : Texts K) (trunc : K → Int) (files : String → Res F)
    (build : F → F → Options K → Mesh K → Res (Circuit K)) (save : String → Circuit K → Res Unit) (d : Option Node)
    (c : Config K) (t : Circuit K) (hc : configure T trunc d = .ok c) (ht : circuit files build c = .ok t)
    (r : Reg Kart F1 (Circuit K) K) (hx : c.xmlFile = none) (htb : c.table = none) (p : String)
    (hp : c.outputs = some p) (hr : ∀ n, r.vector (p.toList ++ n) = none)
    (h1 : t.rCenterline.length = t.s.length) (h2 : t.rLeft.length = t.s.length) (h3 : t.rRight.length = t.s.length)
    (h4 : t.s.length < t.rLeftMeasured.length) :
    (runCircuit r (job T trunc files build save d)).2 = .ub := by
  have hub : outputData t "left_measured/x".toList = .ub := by
    rw [outputData_left]
    unfold copied
    rw [if_neg (by rw [List.length_map]; omega)]
  rw [job_ok hc ht]
  simp only [runCircuit, written, hx, htb, hp, Option.map_none, Option.map_some]
  have hl : ∀ (l : List (K × K × K)) (f : K × K × K → K), l.length = t.s.length →
      copied t.s.length (l.map f) = .ok (l.map f) := fun l f h => copied_self (by rw [List.length_map, h])
  refine saveOutputs_ub hub (["arclength", "centerline/x", "centerline/y", "left/x", "left/y", "right/x", "right/y"].map
    String.toList) (["left_measured/y", "right_measured/x", "right_measured/y", "yaw_dot", "nl", "nr"].map String.toList) r
    (fun o ho => ?_) circuitOutputs_nodup (fun o _ => hr o)
  obtain ⟨o', ho', rfl⟩ := List.mem_map.1 ho
  simp only [List.mem_cons, List.not_mem_nil, or_false] at ho'
  have key : ∀ (n : String) (v : Res (List K)), (n, v) ∈ outputTable t → (∃ w, v = .ok w) →
      ∃ w, outputData t n.toList = .ok w := fun n v hmem ⟨w, hw⟩ => ⟨w, (outputData_eq t hmem).trans hw⟩
  have e1 := fun f => hl _ f h1
  have e2 := fun f => hl _ f h2
  have e3 := fun f => hl _ f h3
  rcases ho' with rfl | rfl | rfl | rfl | rfl | rfl | rfl
  · exact key _ (.ok t.s) (by simp [outputTable]) ⟨_, rfl⟩
  · exact key _ (copied t.s.length (t.rCenterline.map (·.1))) (by simp [outputTable]) ⟨_, e1 _⟩
  · exact key _ (copied t.s.length (t.rCenterline.map (·.2.1))) (by simp [outputTable]) ⟨_, e1 _⟩
  · exact key _ (copied t.s.length (t.rLeft.map (·.1))) (by simp [outputTable]) ⟨_, e2 _⟩
  · exact key _ (copied t.s.length (t.rLeft.map (·.2.1))) (by simp [outputTable]) ⟨_, e2 _⟩
  · exact key _ (copied t.s.length (t.rRight.map (·.1))) (by simp [outputTable]) ⟨_, e3 _⟩
  · exact key _ (copied t.s.length (t.rRight.map (·.2.1))) (by simp [outputTable]) ⟨_, e3 _⟩

/-- Both cases occur: one measured point and three, for a circuit of two. -/
example : (∃ r' : Reg Unit Unit (Circuit ℚ) ℚ, runCircuit Reg.empty (job sampleTexts (fun q => q.num)
      (fun _ => .ok ()) (fun _ _ _ _ => .ok (sampleCircuit 1)) (fun _ _ => .ok ()) (some outputsDoc)) =
        (r', .ok .unit) ∧ r'.vector "run/left_measured/x".toList = some [7, 0]) ∧
    (runCircuit (Kart := Unit) (F1 := Unit) Reg.empty (job sampleTexts (fun q => q.num) (fun _ => .ok ())
      (fun _ _ _ _ => .ok (sampleCircuit 3)) (fun _ _ => .ok ()) (some outputsDoc))).2 = .ub := by
  obtain ⟨c, hc⟩ : ∃ c, configure sampleTexts (fun q => q.num) (some outputsDoc) = .ok c := ⟨_, rfl⟩
  have k := C183_names _ _ _ _ hc
  obtain ⟨t, h1, h2⟩ := k.2.2.2.2.2.2 (by
    simp [outputsDoc, document, find?, descend, child?, Node.children, Node.name, leaf])
  obtain rfl : "run/" = t := Option.some.inj h1
  have hcl : c.isClosed = true := by
    obtain ⟨t, h3, h4⟩ := k.2.2.1
    obtain rfl : "true" = t := Option.some.inj h3
    exact (Res.ok.inj h4).symm
  have ht : ∀ n, circuit (fun _ => Res.ok ()) (fun _ _ _ _ => .ok (sampleCircuit n)) c = .ok (sampleCircuit n) :=
    fun n => (C184_closed_partial _ _ _ hcl _).2 ⟨(), (), rfl, rfl, rfl⟩
  refine ⟨?_, C186_overrun_false _ _ _ _ _ _ c _ hc (ht 3) _ k.2.2.2.1 k.2.2.2.2.1 "run/" h2 (fun _ => rfl) rfl rfl rfl
    (by simp [sampleCircuit])⟩
  obtain ⟨r', hr⟩ := job_succeeds (Kart := Unit) (F1 := Unit) (save := fun _ _ => .ok ()) (r := Reg.empty) hc (ht 1)
    k.2.2.2.1 k.2.2.2.2.1 h2 (fun o ho => by
      obtain ⟨o', ho', rfl⟩ := List.mem_map.1 ho
      have : o' ∈ (outputTable (sampleCircuit 1)).map (·.1) := ho'
      obtain ⟨q, hq, rfl⟩ := List.mem_map.1 this
      have hall : ∀ q ∈ outputTable (sampleCircuit 1), ∃ v, q.2 = .ok v := by
        simp [outputTable, sampleCircuit, copied]
      rw [outputData_eq _ hq]
      exact hall q hq) (fun _ _ => rfl)
  exact ⟨r', hr, (C186_padded_false _ _ _ _ _ _ c _ hc (ht 1) _ r' _ hr "run/" h2 (by simp [sampleCircuit])).1⟩

/-- When a file is asked for, the computation succeeds only if the file was written with this circuit. -/
theorem C186_file [Field K] (T : Texts K) (trunc : K → Int) (files : String → Res F)
    (build : F → F → Options K → Mesh K → Res (Circuit K)) (save : String → Circuit K → Res Unit) (d : Option Node)
    (c : Config K) (t : Circuit K) (hc : configure T trunc d = .ok c) (ht : circuit files build c = .ok t)
    (r r' : Reg Kart F1 (Circuit K) K) (x : Registry.Ret K)
    (h : runCircuit r (job T trunc files build save d) = (r', .ok x)) (f : String) (hf : c.xmlFile = some f) :
    save f t = .ok () := by
  rw [job_ok hc ht] at h
  unfold runCircuit at h
  simp only [written, hf] at h
  rcases hs : save f t with u | _ | _
  · rfl
  · rw [hs] at h
    split at h <;> simp at h
  · rw [hs] at h
    split at h <;> simp at h

/-- The file of `sampleDoc` cannot be written. -/
example (r r' : Reg Unit Unit (Circuit ℚ) ℚ) (x : Registry.Ret ℚ) :
    runCircuit r (job sampleTexts (fun q => q.num) (fun _ => .ok ()) (fun _ _ _ _ => .ok (sampleCircuit 2)) (fun _ _ => .throw)
      (some sampleDoc)) ≠ (r', .ok x) := by
  intro h
  obtain ⟨c, hc⟩ := sampleDoc_accepted
  have k := C183_names _ _ _ _ hc
  have hcl : c.isClosed = true := by
    obtain ⟨t, h3, h4⟩ := k.2.2.1
    obtain rfl : "true" = t := Option.some.inj h3
    exact (Res.ok.inj h4).symm
  have ht : circuit (fun _ => Res.ok ()) (fun _ _ _ _ => .ok (sampleCircuit 2)) c = .ok (sampleCircuit 2) :=
    (C184_closed_partial _ _ _ hcl _).2 ⟨(), (), rfl, rfl, rfl⟩
  exact absurd (C186_file _ _ _ _ _ _ c _ hc ht r r' x h "c.xml" k.2.2.2.1) (by simp)

/-! ### C187: a computation that fails leaves the stored variables as they were -/

/-- When no file and no outputs are asked for, a computation that throws changes nothing. -/
theorem C187_failure_partial [Field K] (T : Texts K) (trunc : K → Int) (files : String → Res F)
    (build : F → F → Options K → Mesh K → Res (Circuit K)) (save : String → Circuit K → Res Unit) (d : Option Node)
    (r r' : Reg Kart F1 (Circuit K) K)
    (hd : ∀ c, configure T trunc d = .ok c → c.xmlFile = none ∧ c.outputs = none)
    (h : runCircuit r (job T trunc files build save d) = (r', .throw)) : r' = r := by
  have hj : (job T trunc files build save d).xml = .ok () ∧ (job T trunc files build save d).outputs = none := by
    unfold job
    rcases hc : configure T trunc d with c | _ | _
    · rcases ht : circuit files build c with t | _ | _
      · simp only [ht]
        obtain ⟨h1, h2⟩ := hd c hc
        rw [h1, h2]
        exact ⟨rfl, rfl⟩
      · simp only [ht, and_self]
      · simp only [ht, and_self]
    · exact ⟨rfl, rfl⟩
    · exact ⟨rfl, rfl⟩
  exact runCircuit_throw hj.1 hj.2 h

/-- The stored variables with a track, for the examples. -/
def takenReg : Reg Unit Unit (Circuit ℚ) ℚ :=
  { kart := fun _ => none, f1 := fun _ => none, track := put (fun _ => none) "catalunya".toList (sampleCircuit 0),
    scalar := fun _ => none, vector := fun _ => none }

/-- The name of the track is taken: the computation throws, and the track that had the name is still there. -/
example : ∃ r' : Reg Unit Unit (Circuit ℚ) ℚ, runCircuit
    takenReg (job sampleTexts
      (fun q => q.num) (fun _ => .ok ()) (fun _ _ _ _ => .ok (sampleCircuit 2)) (fun _ _ => .ok ())
      (some (document "equally-spaced" "true" [leaf "number_of_elements" "5", leaf "insert_table_name" "catalunya"]))) =
        (r', .throw) ∧ r'.track "catalunya".toList = some (sampleCircuit 0) := by
  refine ⟨_, rfl, ?_⟩
  rw [C187_failure_partial sampleTexts (fun q => q.num) (fun _ => .ok ()) (fun _ _ _ _ => .ok (sampleCircuit 2))
    (fun _ _ => .ok ()) (some (document "equally-spaced" "true"
      [leaf "number_of_elements" "5", leaf "insert_table_name" "catalunya"]))
    takenReg _ (fun c hc => ?_) rfl]
  · rfl
  · obtain ⟨-, -, -, h1, -, h2, -⟩ := C183_names _ _ _ _ hc
    exact ⟨h1, h2 rfl⟩

/-- A computation whose options are not accepted, or whose circuit cannot be computed, changes nothing. -/
theorem C187_not_computed [Field K] (T : Texts K) (trunc : K → Int) (files : String → Res F)
    (build : F → F → Options K → Mesh K → Res (Circuit K)) (save : String → Circuit K → Res Unit) (d : Option Node)
    (r : Reg Kart F1 (Circuit K) K)
    (h : ∀ c, configure T trunc d = .ok c → ∀ t, circuit files build c ≠ .ok t) :
    (runCircuit r (job T trunc files build save d)).1 = r := by
  unfold job
  rcases hc : configure T trunc d with c | _ | _
  · rcases ht : circuit files build c with t | _ | _
    · exact absurd ht (h c hc t)
    · simp only [ht]
      rfl
    · simp only [ht]
      rfl
  · rfl
  · rfl

example (r : Reg Unit Unit (Circuit ℚ) ℚ) : (runCircuit r (job sampleTexts (fun q => q.num) (fun _ => .ok ())
    (fun _ _ _ _ => .ok (sampleCircuit 2)) (fun _ _ => .ok ()) (some (document "equally-spaced" "false"
      [leaf "number_of_elements" "5"])))).1 = r :=
  C187_not_computed _ _ _ _ _ _ r fun c hc t ht =>
    C184_open_false sampleTexts _ _ _ _ "false" rfl rfl t ⟨c, hc, ht⟩

/-- Otherwise it does: when the first output has the name of a stored vector, the computation throws, and the track it
could not deliver stays in the table. -/
theorem C187_failure_false [Field K] (T : Texts K) (trunc : K → Int) (files : String → Res F)
    (build : F → F → Options K → Mesh K → Res (Circuit K)) (save : String → Circuit K → Res Unit) (d : Option Node)
    (c : Config K) (t : Circuit K) (hc : configure T trunc d = .ok c) (ht : circuit files build c = .ok t)
    (r : Reg Kart F1 (Circuit K) K) (hx : c.xmlFile = none) (n p : String) (htb : c.table = some n)
    (hp : c.outputs = some p) (hn : r.track n.toList = none) (v : List K)
    (hv : r.vector (p.toList ++ "arclength".toList) = some v) :
    ∃ r', runCircuit r (job T trunc files build save d) = (r', .throw) ∧ r'.track n.toList = some t := by
  refine ⟨{ r with track := put r.track n.toList t }, ?_, by simp [put, hn]⟩
  rw [job_ok hc ht]
  simp only [runCircuit, written, hx, htb, hp, Option.map_some, hn, Option.isSome_none, Bool.false_eq_true, if_false]
  have hv' : (r.vector (p.toList ++ "arclength".toList)).isSome = true := by rw [hv]; rfl
  simp only [circuitOutputs, List.map_cons, saveOutputs, hv', if_true]

example : ∃ r' : Reg Unit Unit (Circuit ℚ) ℚ, runCircuit
    { Reg.empty with vector := put (fun _ => none) "run/arclength".toList [(1 : ℚ)] } (job sampleTexts (fun q => q.num)
      (fun _ => .ok ()) (fun _ _ _ _ => .ok (sampleCircuit 2)) (fun _ _ => .ok ())
      (some (document "equally-spaced" "true" [leaf "number_of_elements" "5", leaf "insert_table_name" "catalunya",
        .mk "output_variables" "" [] [leaf "prefix" "run/"]]))) = (r', .throw) ∧
    r'.track "catalunya".toList = some (sampleCircuit 2) :=
  C187_failure_false (T := sampleTexts) _ _ _ _ _ _ (sampleCircuit 2) rfl rfl _ rfl "catalunya" "run/" rfl rfl rfl [1] rfl

end

end Verif.CircuitOptions
