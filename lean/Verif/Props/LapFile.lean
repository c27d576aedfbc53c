import Verif.Lemmas.LapFile
import Verif.Props.Control
import Verif.Model.Transcription
import Mathlib.Data.Rat.Floor
import Mathlib.Tactic.Linarith

/-! # Properties of the file of an optimal lap -/

set_option autoImplicit false

namespace Verif.LapFile

open Verif.Control

variable {K : Type*}

section
variable [Zero K] [LinearOrder K]

/-! ## C146: a saved lap is read back -/

/-- C146, what holds: a lap whose members fit together is written, and reading the file into any object
gives the same points, inputs, controls, counters, trajectory and multipliers. The laptime has the digits that
were printed, the dissipations are lost, and the flags of success and warm start and the number of iterations
stay those of the object. `blank`, what the XML library returns for an element without text, is only
important if a control is not optimised. -/
theorem C146_round_trip_partial (printed : K → K) (names : Names) (hn : names.Distinct) (extra : Nat)
    (d old : Data K) (hd : d.Coherent names) (blank : Res (List K))
    (hb : blank = .ok [] ∨ ∀ c ∈ d.controls, c.kind ≠ .dontOptimize) :
    ∃ doc, write printed names extra d = .ok doc ∧
      read blank names doc old = .ok { d with
        laptime := printed d.laptime, controls := d.controls.map undamped
        success := old.success, warmStart := old.warmStart, iterations := old.iterations } :=
  ⟨_, write_coherent printed extra hd, read_docOf printed hn extra hd hb⟩

/-- C146: the file contains the numbers of the lap, under their names, for readers other than the one of this
library. -/
theorem C146_contents (printed : K → K) (names : Names) (extra : Nat) (d : Data K) (hd : d.Coherent names)
    (doc : Doc K) (h : write printed names extra d = .ok doc) :
    doc.nPoints = d.nPoints ∧ (doc.type = if d.isClosed then "closed" else "open") ∧
    (doc.isDirect = if d.isDirect then "true" else "false") ∧ doc.iterations = d.iterations ∧
    ⟨[names.key], none, d.s⟩ ∈ doc.elems ∧
    (∀ (i : Nat) (n : String), names.inputs[i]? = some n → ∃ l, ⟨[n], none, l⟩ ∈ doc.elems ∧
      ∀ (j : Nat) (r : List K), d.inputs[j]? = some r → l[j]? = r[i]? ∧ l.length = d.nPoints) ∧
    (∀ (i : Nat) (n : String) (c : CV K), names.controls[i]? = some n → d.controls[i]? = some c →
      ⟨["control_variables", n, "values"], none, c.controls⟩ ∈ doc.elems ∧
      (c.kind = .hypermesh → ⟨["control_variables", n, "hypermesh"], none, c.sHypermesh⟩ ∈ doc.elems) ∧
      (c.kind = .fullMesh → d.isDirect = false →
        ⟨["control_variables", n, "derivatives"], none, c.dcontrolsDt⟩ ∈ doc.elems)) ∧
    ⟨["x"], none, d.x⟩ ∈ doc.elems ∧ ⟨["y"], none, d.y⟩ ∈ doc.elems ∧ ⟨["psi"], none, d.psi⟩ ∈ doc.elems ∧
    ⟨["optimization_data", "zl"], none, d.zl⟩ ∈ doc.elems ∧
    ⟨["optimization_data", "zu"], none, d.zu⟩ ∈ doc.elems ∧
    ⟨["optimization_data", "lambda"], none, d.lambda⟩ ∈ doc.elems := by
  rw [write_coherent printed extra hd] at h
  obtain rfl := Res.ok.inj h
  refine ⟨rfl, rfl, rfl, rfl, by simp [docOf], ?_, ?_, by simp [docOf], by simp [docOf], by simp [docOf],
    by simp [docOf], by simp [docOf], by simp [docOf]⟩
  · intro i n hi
    refine ⟨d.inputs.map fun r => r.getD i 0, ?_, ?_⟩
    · have : (⟨[n], none, d.inputs.map fun r => r.getD i 0⟩ : Elem K) ∈ inputElems names d := by
        apply List.mem_iff_getElem?.2 ⟨i, ?_⟩
        rw [inputElems, List.getElem?_mapIdx, hi, Option.map_some]
      simp only [docOf, List.mem_append]
      tauto
    · intro j r hj
      have hr := hd.rows r (List.mem_of_getElem? hj)
      have hlt : i < r.length := by rw [hr]; exact (List.getElem?_eq_some_iff.1 hi).1
      simp [hj, hd.points, List.getD_eq_getElem?_getD, List.getElem?_eq_getElem hlt]
  · intro i n c hi hc
    have hz : (n, c) ∈ names.controls.zip d.controls :=
      List.mem_iff_getElem?.2 ⟨i, by rw [List.getElem?_zip_eq_some]; exact ⟨hi, hc⟩⟩
    have hmem : ∀ e ∈ controlElems d.isDirect n c, e ∈ (docOf printed names extra d).elems := by
      intro e he
      have := mem_controlsElems.2 ⟨(n, c), hz, he⟩
      simp only [docOf, List.mem_append]
      tauto
    have hk := (check_fixed hd.checked).1 c (List.mem_of_getElem? hc)
    obtain ⟨k, m, v, dc, di⟩ := c
    cases k <;> simp only [controlElems, checkOne] at hmem hk
    · split_ifs at hk with h1 h2 h3
      have : v = [] := List.length_eq_zero_iff.1 (by omega)
      subst this
      exact ⟨hmem _ (by simp [valuesElem]), by simp, by simp⟩
    · split_ifs at hk with h1 h2 h3
      obtain ⟨a, rfl⟩ := List.length_eq_one_iff.1 (not_not.1 h2)
      exact ⟨hmem _ (by simp [valuesElem]), by simp, by simp⟩
    · exact ⟨hmem _ (by simp [valuesElem]), fun _ => hmem _ (by simp), by simp⟩
    · cases hdir : d.isDirect <;> rw [hdir] at hmem <;>
        simp only [Bool.false_eq_true, if_false, if_true] at hmem
      · exact ⟨hmem _ (by simp [valuesElem]), by simp, fun _ _ => hmem _ (by simp)⟩
      · exact ⟨hmem _ (by simp [valuesElem]), by simp, by simp⟩
    · cases hk

/-- C146: the sizes in the file are those of the optimisation problem: as many variables and constraints as the
problem solved for that lap has. -/
theorem C146_sizes (printed : K → K) (names : Names) (d : Data K) (hd : d.Coherent names) (v : Transcription.Vehicle K)
    (p : Transcription.Problem K) (hv : v.nInputs = names.inputs.length) (he : p.nElements = d.nElements)
    (hi : p.isDirect = d.isDirect) (hs : p.stats = d.stats) (doc : Doc K)
    (h : write printed names v.nExtra d = .ok doc) :
    Transcription.nVariables v p = d.nElements * doc.nVariables + d.stats.nConstant + d.stats.nHypermesh ∧
    Transcription.nConstraints v p = d.nElements * doc.nConstraints + p.quantities.countP (·.restrict) := by
  rw [write_coherent printed v.nExtra hd] at h
  obtain rfl := Res.ok.inj h
  simp only [docOf, Transcription.nVariables, Transcription.nConstraints, Transcription.nVariablesPerPoint,
    Transcription.nConstraintsPerElement, Transcription.nRestricted, nVariables, nConstraints, hv, he, hi, hs, and_self]

/-! ## C147: files that cannot be read -/

/-- C147: a file that is read has recognised attributes, all elements, controls of recognised types, and the
controls that are stored passed the validation. -/
theorem C147_accepted (blank : Res (List K)) (names : Names) (doc : Doc K) (old d : Data K)
    (h : read blank names doc old = .ok d) :
    ¬ doc.Wrong names ∧ d.nPoints = doc.nPoints ∧ (d.isClosed = true ↔ doc.type = "closed") ∧
    (d.isDirect = true ↔ doc.isDirect = "true") ∧ ∀ c ∈ d.controls, Consistent c := by
  unfold read at h
  obtain ⟨isClosed, h1, h⟩ := Res.bind_eq_ok.1 h
  obtain ⟨isDirect, h2, h⟩ := Res.bind_eq_ok.1 h
  obtain ⟨n, h3, h⟩ := Res.bind_eq_ok.1 h
  obtain ⟨laptime, h4, h⟩ := Res.bind_eq_ok.1 h
  obtain ⟨s, h5, h⟩ := Res.bind_eq_ok.1 h
  obtain ⟨columns, h6, h⟩ := Res.bind_eq_ok.1 h
  obtain ⟨raw, h7, h⟩ := Res.bind_eq_ok.1 h
  obtain ⟨c, h8, h⟩ := Res.bind_eq_ok.1 h
  obtain ⟨x, h9, h⟩ := Res.bind_eq_ok.1 h
  obtain ⟨y, h10, h⟩ := Res.bind_eq_ok.1 h
  obtain ⟨psi, h11, h⟩ := Res.bind_eq_ok.1 h
  obtain ⟨zl, h12, h⟩ := Res.bind_eq_ok.1 h
  obtain ⟨zu, h13, h⟩ := Res.bind_eq_ok.1 h
  obtain ⟨lambda, h14, h⟩ := Res.bind_eq_ok.1 h
  obtain rfl := Res.ok.inj h
  have hv : ∀ {p : List String} {l : List K}, vector blank doc p = .ok l → doc.Has p := fun hp => by
    obtain ⟨e, he, hp, _⟩ := vector_eq_ok hp
    exact ⟨e, he, hp⟩
  have hc : ∀ n ∈ names.controls, ∃ e ∈ doc.elems, e.path = ["control_variables", n] ∧
      (∃ k ∈ kinds, e.kind = some k) ∧ doc.Has ["control_variables", n, "values"] := by
    intro n hn
    obtain ⟨b, _, hb⟩ := mapRes_cases h7 n hn
    unfold readControl at hb
    obtain ⟨e, he, hb⟩ := Res.bind_eq_ok.1 hb
    obtain ⟨k, hk, hb⟩ := Res.bind_eq_ok.1 hb
    obtain ⟨v, hvv, hb⟩ := Res.bind_eq_ok.1 hb
    obtain ⟨he1, he2⟩ := child_eq_ok he
    refine ⟨e, he1, he2, ?_, hv hvv⟩
    unfold readKind at hk
    split at hk
    · exact ⟨"dont optimize", by simp [kinds], ‹_›⟩
    · exact ⟨"constant", by simp [kinds], ‹_›⟩
    · exact ⟨"hypermesh", by simp [kinds], ‹_›⟩
    · exact ⟨"full-mesh", by simp [kinds], ‹_›⟩
    · cases hk
  have hi : ∀ n ∈ names.inputs, doc.Has [n] := by
    intro n hn
    obtain ⟨b, _, hb⟩ := mapRes_cases h6 n hn
    unfold readInput at hb
    obtain ⟨l, hl, _⟩ := Res.bind_eq_ok.1 hb
    exact hv hl
  have hl : doc.Has ["laptime"] := by
    unfold number at h4
    obtain ⟨e, he, _⟩ := Res.bind_eq_ok.1 h4
    exact ⟨e, child_eq_ok he⟩
  have t1 : doc.type ∈ ["closed", "open"] ∧ (isClosed = true ↔ doc.type = "closed") := by
    unfold readType at h1
    split_ifs at h1 with ha hb
    · obtain rfl := Res.ok.inj h1; simp [ha]
    · obtain rfl := Res.ok.inj h1; simp [hb]
  have t2 : doc.isDirect ∈ ["true", "false"] ∧ (isDirect = true ↔ doc.isDirect = "true") := by
    unfold readDirect at h2
    split_ifs at h2 with ha hb
    · obtain rfl := Res.ok.inj h2; simp [ha]
    · obtain rfl := Res.ok.inj h2; simp [hb]
  have t3 : doc.nPoints < 2 ^ 31 ∧ n = doc.nPoints := by
    unfold readPoints at h3
    split_ifs at h3 with ha
    exact ⟨ha, (Res.ok.inj h3).symm⟩
  refine ⟨?_, t3.2, t1.2, t2.2, ?_⟩
  · rintro (hw | hw | hw | ⟨p, hp, hw⟩ | ⟨n, hn, hw⟩)
    · exact hw t1.1
    · exact hw t2.1
    · omega
    · simp only [required, List.mem_append, List.mem_cons, List.not_mem_nil, or_false, List.mem_map,
        List.mem_flatMap] at hp
      rcases hp with ((rfl | rfl | rfl | rfl | rfl | rfl | rfl | rfl) | ⟨n, hn, rfl⟩) | ⟨n, hn, rfl | rfl⟩
      · exact hw hl
      · exact hw (hv h5)
      · exact hw (hv h9)
      · exact hw (hv h10)
      · exact hw (hv h11)
      · exact hw (hv h12)
      · exact hw (hv h13)
      · exact hw (hv h14)
      · exact hw (hi n hn)
      · obtain ⟨e, he, hp, _⟩ := hc n hn
        exact hw ⟨e, he, hp⟩
      · obtain ⟨e, he, hp, _, hh⟩ := hc n hn
        exact hw hh
    · obtain ⟨e, he, hp, ⟨k, hk, hek⟩, _⟩ := hc n hn
      exact hw e he hp k hk hek
  · intro b hb
    obtain ⟨cs, st⟩ := c
    have := C19_validation_idempotent raw cs st h8
    by_contra hcon
    have h := (C19_validation_accepts_iff cs).2 fun hall => hcon (hall b hb)
    rw [this] at h
    cases h

/-- C147, what holds: a file with something wrong is rejected by an exception, provided the inputs have enough
numbers. -/
theorem C147_rejected_partial (blank : Res (List K)) (hb : blank = .ok [] ∨ blank = .throw) (names : Names)
    (doc : Doc K) (old : Data K) (hl : doc.LongEnough names) (hw : doc.Wrong names) :
    read blank names doc old = .throw := by
  have hb' : blank ≠ .ub := by rcases hb with rfl | rfl <;> simp
  have hub : read blank names doc old ≠ .ub := by
    unfold read
    refine bind_ne_ub (by unfold readType; split_ifs <;> simp) fun _ _ => ?_
    refine bind_ne_ub (by unfold readDirect; split_ifs <;> simp) fun _ _ => ?_
    refine bind_ne_ub (by unfold readPoints; split_ifs <;> simp) fun n hn => ?_
    refine bind_ne_ub ?_ fun _ _ => ?_
    · unfold number
      refine bind_ne_ub (child_ne_ub _ _) fun e _ => ?_
      cases e.text <;> simp
    refine bind_ne_ub (vector_ne_ub hb' _ _) fun _ _ => ?_
    refine bind_ne_ub ?_ fun _ _ => ?_
    · refine mapRes_ne_ub fun m hm => ?_
      unfold readInput
      refine bind_ne_ub (vector_ne_ub hb' _ _) fun l hlm => ?_
      have hn' : n = doc.nPoints := by
        unfold readPoints at hn
        split_ifs at hn
        exact (Res.ok.inj hn).symm
      have hlen : n ≤ l.length := by
        obtain ⟨e, he, hp, ht⟩ := vector_eq_ok hlm
        have := hl e he m hm hp
        rcases ht with rfl | ht
        · omega
        · rw [ht] at this; simp at this; omega
      refine mapRes_ne_ub fun i hi => ?_
      rw [idx_of_lt (by have := List.mem_range.1 hi; omega)]
      simp
    refine bind_ne_ub ?_ fun _ _ => ?_
    · refine mapRes_ne_ub fun m hm => ?_
      unfold readControl
      refine bind_ne_ub (child_ne_ub _ _) fun _ _ => ?_
      refine bind_ne_ub (readKind_ne_ub _) fun _ _ => ?_
      refine bind_ne_ub (vector_ne_ub hb' _ _) fun _ _ => ?_
      refine bind_ne_ub (by split_ifs; exacts [vector_ne_ub hb' _ _, by simp]) fun _ _ => ?_
      refine bind_ne_ub (by split_ifs; exacts [vector_ne_ub hb' _ _, by simp]) fun _ _ => ?_
      simp
    refine bind_ne_ub (check_ne_ub _) fun _ _ => ?_
    refine bind_ne_ub (vector_ne_ub hb' _ _) fun _ _ => ?_
    refine bind_ne_ub (vector_ne_ub hb' _ _) fun _ _ => ?_
    refine bind_ne_ub (vector_ne_ub hb' _ _) fun _ _ => ?_
    refine bind_ne_ub (vector_ne_ub hb' _ _) fun _ _ => ?_
    refine bind_ne_ub (vector_ne_ub hb' _ _) fun _ _ => ?_
    refine bind_ne_ub (vector_ne_ub hb' _ _) fun _ _ => ?_
    simp
  cases hr : read blank names doc old with
  | ub => exact absurd hr hub
  | throw => rfl
  | ok d => exact absurd hw (C147_accepted blank names doc old d hr).1

/-! ## C148: when a lap can be saved -/

omit [Zero K] [LinearOrder K] in
/-- C148: saving is defined exactly for the laps whose vectors are filled; for the others, such as a lap that
was never computed, the behaviour is undefined. The hypotheses hold by type in C++. -/
theorem C148_defined_iff (printed : K → K) (names : Names) (extra : Nat) (d : Data K)
    (hr : ∀ r ∈ d.inputs, r.length = names.inputs.length) (hc : d.controls.length = names.controls.length) :
    ((∃ doc, write printed names extra d = .ok doc) ↔ d.Filled names) ∧
    (write printed names extra d = .ub ↔ ¬ d.Filled names) := by
  rcases write_cases printed names extra d hr hc with ⟨h, doc, e⟩ | ⟨h, e⟩
  · simp [h, e]
  · simp [h, e]

/-! ## C149: the lap that is read is the one of the file -/

/-- C149, what holds: all that depends on the object the file is read into are the flags of success and warm
start and the number of iterations. -/
theorem C149_determined_partial (blank : Res (List K)) (names : Names) (doc : Doc K) (old old' d : Data K)
    (h : read blank names doc old = .ok d) :
    read blank names doc old' =
      .ok { d with success := old'.success, warmStart := old'.warmStart, iterations := old'.iterations } := by
  unfold read at h ⊢
  obtain ⟨isClosed, h1, h⟩ := Res.bind_eq_ok.1 h
  obtain ⟨isDirect, h2, h⟩ := Res.bind_eq_ok.1 h
  obtain ⟨n, h3, h⟩ := Res.bind_eq_ok.1 h
  obtain ⟨laptime, h4, h⟩ := Res.bind_eq_ok.1 h
  obtain ⟨s, h5, h⟩ := Res.bind_eq_ok.1 h
  obtain ⟨columns, h6, h⟩ := Res.bind_eq_ok.1 h
  obtain ⟨raw, h7, h⟩ := Res.bind_eq_ok.1 h
  obtain ⟨c, h8, h⟩ := Res.bind_eq_ok.1 h
  obtain ⟨x, h9, h⟩ := Res.bind_eq_ok.1 h
  obtain ⟨y, h10, h⟩ := Res.bind_eq_ok.1 h
  obtain ⟨psi, h11, h⟩ := Res.bind_eq_ok.1 h
  obtain ⟨zl, h12, h⟩ := Res.bind_eq_ok.1 h
  obtain ⟨zu, h13, h⟩ := Res.bind_eq_ok.1 h
  obtain ⟨lambda, h14, h⟩ := Res.bind_eq_ok.1 h
  obtain rfl := Res.ok.inj h
  simp only [h1, h2, h3, h4, h5, h6, h7, h8, h9, h10, h11, h12, h13, h14, Res.bind_ok]

/-- C149: a lap that was saved, read and saved again has the same file, but for the number of iterations. -/
theorem C149_saved_again_partial (printed : K → K) (hp : ∀ t, printed (printed t) = printed t) (names : Names)
    (hn : names.Distinct) (extra : Nat) (d old : Data K) (hd : d.Coherent names) :
    ∃ doc d', write printed names extra d = .ok doc ∧ read (.ok []) names doc old = .ok d' ∧
      write printed names extra d' = .ok { doc with iterations := old.iterations } := by
  refine ⟨_, _, write_coherent printed extra hd, read_docOf printed hn extra hd (.inl rfl), ?_⟩
  have hco : Data.Coherent names { d with
      laptime := printed d.laptime, controls := d.controls.map undamped
      success := old.success, warmStart := old.warmStart, iterations := old.iterations } :=
    { hd with
      controls := by simpa using hd.controls
      checked := check_undamped hd.checked
      values := by
        intro c hc hk
        obtain ⟨b, hb, rfl⟩ := List.mem_map.1 hc
        exact hd.values b hb hk
      derivatives := by
        intro c hc hk
        obtain ⟨b, hb, rfl⟩ := List.mem_map.1 hc
        exact hd.derivatives b hb hk }
  rw [write_coherent printed extra hco]
  have : ∀ p : String × CV K, controlElems d.isDirect p.1 (undamped p.2) = controlElems d.isDirect p.1 p.2 :=
    fun p => rfl
  simp only [docOf, hp, inputElems, controlsElems, List.zip_map_right, List.flatMap_map, Prod.map_fst,
    Prod.map_snd, id_eq, this]

end

/-! ## Examples and disagreements -/

/-- Names of a small car. -/
def smallNames : Names := ⟨"time", ["u", "n"], ["steering", "throttle", "bias", "differential"]⟩

/-- A lap of three points on a closed circuit. -/
def smallLap : Data ℚ :=
  { success := true, isClosed := true, isDirect := false, warmStart := false, nElements := 3, nPoints := 3
    s := [0, 10, 20], inputs := [[50, 0], [49, 1], [48, 1 / 3]]
    controls := [⟨.fullMesh, [], [0, 1, 2], [1, 1, -2], 1 / 2⟩, ⟨.hypermesh, [0, 15], [1, -1], [], 0⟩,
      ⟨.constant, [], [3 / 5], [], 0⟩, ⟨.dontOptimize, [], [], [], 0⟩]
    stats := ⟨1, 2, 1⟩, x := [0, 1, 2], y := [3, 4, 5], psi := [0, 0, 1], iterations := 17
    zl := [1], zu := [2], lambda := [3, 4], laptime := 1 / 3 }

/-- Six decimals, as `std::to_string`. -/
def sixDecimals (t : ℚ) : ℚ := ((t * 1000000 + 1 / 2).floor : ℚ) / 1000000

theorem smallNames_distinct : smallNames.Distinct := ⟨by decide, by decide⟩

theorem smallLap_coherent : smallLap.Coherent smallNames := by
  constructor <;> decide +kernel

/-- The hypotheses of C146, C148 and C149 hold of the small lap, written with six decimals. -/
example : ∃ doc, write sixDecimals smallNames 4 smallLap = .ok doc ∧
    read (.ok []) smallNames doc { smallLap with iterations := 0 } = .ok { smallLap with
      laptime := sixDecimals (1 / 3), controls := smallLap.controls.map undamped, iterations := 0 } :=
  C146_round_trip_partial sixDecimals smallNames smallNames_distinct 4 smallLap { smallLap with iterations := 0 }
    smallLap_coherent (.ok []) (.inl rfl)

/-- The hypotheses of `C146_sizes` hold of the small lap: 3 elements, 3 variables per point (one input besides the
first, the steering and its derivative), one constant control and two values on the hypermesh make 12 variables. -/
example (v : Transcription.Vehicle ℚ) (p : Transcription.Problem ℚ) :
    Transcription.nVariables { v with nInputs := 2 }
      { p with nElements := 3, isDirect := false, stats := smallLap.stats } = 12 := by
  obtain ⟨doc, h, -⟩ := C146_round_trip_partial sixDecimals smallNames smallNames_distinct v.nExtra smallLap smallLap
    smallLap_coherent (.ok []) (.inl rfl)
  have := (C146_sizes sixDecimals smallNames smallLap smallLap_coherent { v with nInputs := 2 }
    { p with nElements := 3, isDirect := false, stats := smallLap.stats } rfl rfl rfl rfl doc h).1
  rw [write_coherent sixDecimals v.nExtra smallLap_coherent] at h
  obtain rfl := Res.ok.inj h
  exact this

/-- C146 is false: the laptime and the dissipation of a control are not the ones that were saved. -/
theorem C146_false : ∃ (names : Names) (d : Data ℚ) (doc : Doc ℚ) (d' : Data ℚ), names.Distinct ∧
    d.Coherent names ∧ write sixDecimals names 4 d = .ok doc ∧ read (.ok []) names doc d = .ok d' ∧
    d'.laptime ≠ d.laptime ∧ d'.controls.map CV.dissipation ≠ d.controls.map CV.dissipation := by
  obtain ⟨doc, h1, h2⟩ := C146_round_trip_partial sixDecimals smallNames smallNames_distinct 4 smallLap smallLap
    smallLap_coherent (.ok []) (.inl rfl)
  refine ⟨smallNames, smallLap, doc, _, smallNames_distinct, smallLap_coherent, h1, h2, ?_, ?_⟩
  · show sixDecimals (1 / 3) ≠ 1 / 3
    decide +kernel
  · show [(0 : ℚ), 0, 0, 0] ≠ [1 / 2, 0, 0, 0]
    decide +kernel

/-- The file of the small lap without its last vector, and its short version. -/
def damaged (l : List ℚ) : Doc ℚ :=
  { nPoints := 2, type := "open", isDirect := "true", nVariables := 0, nConstraints := 0, iterations := 0
    elems := [⟨["laptime"], none, [1]⟩, ⟨["time"], none, [0, 1]⟩, ⟨["u"], none, l⟩] }

/-- The hypotheses of C147: an element is missing. -/
example : read (.ok []) ⟨"time", ["u"], []⟩ (damaged [5, 6]) smallLap = .throw :=
  C147_rejected_partial _ (.inl rfl) _ _ _ (by unfold Doc.LongEnough; decide +kernel)
    (.inr (.inr (.inr (.inl ⟨["x"], by decide, by unfold Doc.Has; decide +kernel⟩))))

/-- The conclusion of `C147_accepted` is reached. -/
example : ∃ (doc : Doc ℚ) (d : Data ℚ), read (.ok []) smallNames doc smallLap = .ok d ∧ d.nPoints = 3 := by
  obtain ⟨doc, h1, h2⟩ := C146_round_trip_partial sixDecimals smallNames smallNames_distinct 4 smallLap smallLap
    smallLap_coherent (.ok []) (.inl rfl)
  exact ⟨doc, _, h2, rfl⟩

/-- C147 is false: of a file in which an input has fewer numbers than there are points, and in which moreover
elements are missing, memory is read past the end of the input instead of raising an exception. -/
theorem C147_false : ∃ (names : Names) (doc : Doc ℚ) (old : Data ℚ), doc.Wrong names ∧
    read (.ok []) names doc old = .ub := by
  refine ⟨⟨"time", ["u"], []⟩, damaged [5], smallLap, .inr (.inr (.inr (.inl ⟨["x"], by decide, ?_⟩))), ?_⟩
  · unfold Doc.Has; decide +kernel
  · decide +kernel

/-- A lap that was never computed cannot be saved. -/
theorem C148_default (printed : K → K) (names : Names) (extra : Nat) (d : Data K)
    (h : d.s = [] ∨ d.inputs = []) (hr : ∀ r ∈ d.inputs, r.length = names.inputs.length)
    (hc : d.controls.length = names.controls.length) : write printed names extra d = .ub :=
  (C148_defined_iff printed names extra d hr hc).2.2 fun f => h.elim f.s f.inputs

example : write sixDecimals smallNames 4 { smallLap with s := [], inputs := [] } = .ub :=
  C148_default _ _ _ _ (.inl rfl) (by simp) rfl

/-- Six decimals, printed again, are the same, as needed by `C149_saved_again_partial`. -/
example (t : ℚ) : sixDecimals (sixDecimals t) = sixDecimals t := by
  unfold sixDecimals
  rw [div_mul_cancel₀ _ (by norm_num)]
  congr 2
  rw [show ∀ q : ℚ, q.floor = ⌊q⌋ from fun _ => rfl, Int.floor_eq_iff]
  constructor <;> linarith

/-- C149 is false: the same file read into two objects gives a lap that succeeded and one that did not, with
different numbers of iterations. A default-constructed object has undefined values there. -/
theorem C149_false : ∃ (names : Names) (doc : Doc ℚ) (old old' d d' : Data ℚ),
    read (.ok []) names doc old = .ok d ∧ read (.ok []) names doc old' = .ok d' ∧
    d.success ≠ d'.success ∧ d.iterations ≠ d'.iterations := by
  obtain ⟨doc, h1, h2⟩ := C146_round_trip_partial sixDecimals smallNames smallNames_distinct 4 smallLap smallLap
    smallLap_coherent (.ok []) (.inl rfl)
  refine ⟨smallNames, doc, smallLap, { smallLap with success := false, iterations := 0 }, _, _, h2,
    C149_determined_partial _ _ _ _ _ _ h2, ?_, ?_⟩ <;> decide

end Verif.LapFile
