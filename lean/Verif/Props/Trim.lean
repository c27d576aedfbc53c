import Verif.Lemmas.Trim
import Verif.Props.Python

/-!
# Properties of the prefix of a lap
-/

set_option autoImplicit false

namespace Verif.Trim

open Aliases Verif.Registry Verif.Python

variable {Kart F1 Track K : Type} {K' : Type*} [Field K']

theorem trim_eq (t : Name) : trim t = ((t.reverse.dropWhile isSpace).reverse).dropWhile isSpace := by
  rw [trim, ltrim_eq, rtrim, eraseAll_end]

theorem isSpace_eq : isSpace = fun c => decide (c ∈ [' ', '\t', '\n', '\x0b', '\x0c', '\r']) := by
  funext c
  simp [isSpace]

theorem stripped_trim (t : Name) : Stripped isSpace t (trim t) := by
  have h := stripped_of_drops (blank := isSpace) t.reverse
  have e : trim t = (((t.reverse.dropWhile isSpace).reverse.dropWhile isSpace).reverse).reverse := by
    rw [trim_eq, List.reverse_reverse]
  obtain ⟨⟨a, b, h0, ha, hb⟩, h1, h2⟩ := h
  rw [e]
  generalize ((t.reverse.dropWhile isSpace).reverse.dropWhile isSpace).reverse = r at h0 h1 h2
  refine ⟨⟨b.reverse, a.reverse, ?_, by simpa using hb, by simpa using ha⟩, ?_, ?_⟩
  · have := congrArg List.reverse h0
    simpa using this
  · intro c l h
    refine h2 l.reverse c ?_
    have := congrArg List.reverse h
    simpa using this
  · intro l c h
    refine h1 c l.reverse ?_
    have := congrArg List.reverse h
    simpa using this

/-- C273, the library: the text without the blanks (space, tab, line feed, vertical tab, form feed, carriage return) at
its two ends, and nothing else is lost: the two searches with regular expressions take the blanks at the end and those at
the beginning, no blank is left at an end, and there is only one such text. -/
theorem C273_trimmed (t : Name) :
    let blank := fun c => decide (c ∈ [' ', '\t', '\n', '\x0b', '\x0c', '\r'])
    Stripped blank t (trim t) ∧ (∀ r, Stripped blank t r → r = trim t) ∧ trim (trim t) = trim t := by
  intro blank
  have hb : blank = isSpace := isSpace_eq.symm
  have h : ∀ t, Stripped blank t (trim t) := fun t => hb ▸ stripped_trim t
  refine ⟨h t, fun r hr => (stripped_unique hr).trans (stripped_unique (h t)).symm, ?_⟩
  have h1 : Stripped blank (trim t) (trim t) :=
    ⟨⟨[], [], by simp, by simp, by simp⟩, (h t).first, (h t).last⟩
  exact (stripped_unique (h (trim t))).trans (stripped_unique h1).symm

/-- C273, the options: the prefix of an accepted document is its text without the blanks at the ends. -/
theorem C273_prefix (T : LapOptions.Texts K') (hT : T.trim = onText trim) (car : LapOptions.CarType K')
    (tables : String → Option (List K')) (junkQ junkU : Transcription.Row K') (d p : LapOptions.Node)
    (c : LapOptions.Config K') (hn : (car.inputs ++ car.controls).Nodup)
    (h : LapOptions.configure T car tables junkQ junkU (.doc d) = .ok c)
    (hpre : LapOptions.find? d ["output_variables", "prefix"] = some p) :
    Stripped (fun c => decide (c ∈ [' ', '\t', '\n', '\x0b', '\x0c', '\r'])) p.text.toList c.pre.toList := by
  obtain ⟨o, ho, -, hd⟩ := find_two hpre
  obtain ⟨-, -, hout⟩ := LapOptions.C170_outputs T car tables junkQ junkU d c hn h
  obtain ⟨⟨p', hp1, hp2⟩, -⟩ := hout (by
    unfold LapOptions.find?
    rw [if_pos hd]
    simp [LapOptions.descend, ho])
  rw [hpre] at hp1
  obtain rfl := Option.some.inj hp1
  rw [hp2, hT, onText, String.toList_ofList]
  exact (C273_trimmed _).1

theorem strip_usual {t : Name} (h : Usual t) : strip t = trim t := by
  have hs : ∀ c, isSpace c = true → pySpace c = true := by
    intro c hc
    rw [isSpace_eq] at hc
    simp only [List.mem_cons, List.not_mem_nil, or_false, decide_eq_true_eq] at hc
    rcases hc with rfl | rfl | rfl | rfl | rfl | rfl <;> decide
  obtain ⟨⟨a, b, h0, ha, hb⟩, h1, h2⟩ := stripped_trim t
  have hne : ∀ c ∈ t, isSpace c = false → pySpace c = false := by
    intro c hc hf
    by_contra hp
    have := h c hc (by simpa using hp)
    rw [isSpace_eq] at hf
    simp only [decide_eq_false_iff_not] at hf
    exact hf this
  refine (stripped_unique (blank := pySpace) ⟨⟨a, b, h0, fun c hc => hs c (ha c hc), fun c hc => hs c (hb c hc)⟩, ?_, ?_⟩).symm
  · intro c l e
    exact hne c (by rw [h0, e]; simp) (h1 c l e)
  · intro l c e
    exact hne c (by rw [h0, e]; simp) (h2 l c e)

theorem returned_prefix {lib : Name → Option (Name → Bool)} {st : String → String} {vehicle track : Name}
    {d p : LapOptions.Node} {w1 : Kart → Track → Kart} {w2 : F1 → Track → F1} {job : LapJob K} {r : Reg Kart F1 Track K}
    {x : Name × List Name} (hpre : LapOptions.find? d ["output_variables", "prefix"] = some p)
    (hx : (optimalLaptime lib st vehicle track (.doc d) w1 w2 job r).2 = .ret x) : x.1 = (st p.text).toList := by
  obtain ⟨o, ho, hp, -⟩ := find_two hpre
  have key : ∀ l : Py (List Name), (l.bind fun l => if p.text = "" then (.raised : Py (Name × List Name))
      else .ret ((st p.text).toList, l)) = .ret x → x.1 = (st p.text).toList := by
    intro l hl
    cases l with
    | ret l =>
      simp only [Py.bind] at hl
      split at hl
      · cases hl
      · cases hl; rfl
    | _ => simp [Py.bind] at hl
  simp only [optimalLaptime] at hx
  generalize (step lib (.optimalLaptime (cstr vehicle) (cstr track) w1 w2 job) r) = y at hx
  rcases hy : ofC y.2 with u | _ | _ <;> rw [hy] at hx <;> simp only [Py.bind] at hx <;> try cases hx
  unfold requested at hx
  simp only [ho, hp] at hx
  exact key _ hx

/-- C273, Python, what holds: the prefix that `optimal_laptime` returns is the one under which the library saved the lap
(`Asked`) if the text has no blanks other than those of C. What is missing: other blanks, see `C273_false`. -/
theorem C273_python_partial (lib : Name → Option (Name → Bool)) (T : LapOptions.Texts K') (hT : T.trim = onText trim)
    (car : LapOptions.CarType K') (tables : String → Option (List K')) (junkQ junkU : Transcription.Row K')
    (d p : LapOptions.Node) (c : LapOptions.Config K') (hn : (car.inputs ++ car.controls).Nodup)
    (h : LapOptions.configure T car tables junkQ junkU (.doc d) = .ok c)
    (hpre : LapOptions.find? d ["output_variables", "prefix"] = some p) (hu : Usual p.text.toList)
    (vehicle track : Name) (w1 : Kart → Track → Kart) (w2 : F1 → Track → F1) (job : LapJob K) (r : Reg Kart F1 Track K)
    (hask : Asked c job) (x : Name × List Name)
    (hx : (optimalLaptime lib (onText strip) vehicle track (.doc d) w1 w2 job r).2 = .ret x) : x.1 = job.pre := by
  have hs := C273_prefix T hT car tables junkQ junkU d p c hn h hpre
  rw [hask.1, returned_prefix hpre hx, onText, String.toList_ofList, strip_usual hu]
  exact ((C273_trimmed _).2.1 _ hs).symm

/-- C273, what holds of the download: if the options ask for all the variables under a prefix whose blanks are those of C, then
the names that `optimal_laptime` returns can be downloaded and give the values of the lap. What is missing: other blanks,
and what is missing in `C218_all_variables_partial`. -/
theorem C273_download_partial (lib : Name → Option (Name → Bool)) (T : LapOptions.Texts K') (hT : T.trim = onText trim)
    (car : LapOptions.CarType K') (tables : String → Option (List K')) (junkQ junkU : Transcription.Row K')
    (d p : LapOptions.Node) (c : LapOptions.Config K') (vehicle track type : Name)
    (w1 : Kart → Track → Kart) (w2 : F1 → Track → F1) (job : LapJob K) (r : Reg Kart F1 Track K)
    (hu : Unique r) (hv : Plain vehicle) (ht : TypeOf r vehicle type)
    (hcar : VehicleNames.typeNamed type = some (VehicleNames.namesOf car))
    (hconf : LapOptions.configure T car tables junkQ junkU (.doc d) = .ok c) (hask : Asked c job)
    (hpre : LapOptions.find? d ["output_variables", "prefix"] = some p) (htext : p.text ≠ "") (hplain : Plain p.text.toList)
    (husual : Usual p.text.toList) (hvars : LapOptions.find? d ["output_variables", "variables"] = none)
    (hslash : OutputNamesWithoutSlash job)
    (hok : (step lib (.optimalLaptime vehicle (cstr track) w1 w2 job) r).2 = .ok .unit)
    (hs : ∀ v x, job.vec v = some x → x.length < 2 ^ 31) :
    ∃ pre vars dict, (optimalLaptime lib (onText strip) vehicle track (.doc d) w1 w2 job r).2 = .ret (pre, vars) ∧
      Stripped (fun c => decide (c ∈ [' ', '\t', '\n', '\x0b', '\x0c', '\r'])) p.text.toList pre ∧
      (∀ i ∈ car.inputs, i.toList ∈ vars) ∧
      downloadVariables pre vars (optimalLaptime lib (onText strip) vehicle track (.doc d) w1 w2 job r).1 = .ret dict ∧
      ∀ v ∈ vars, ∃ x, job.vec v = some x ∧ dict v = some (.arr x) := by
  have e : onText strip p.text = onText trim p.text := by rw [onText, strip_usual husual, onText]
  have hst := (C273_trimmed p.text.toList).1
  have hp : Plain (onText strip p.text).toList := by
    rw [e, onText, String.toList_ofList]
    obtain ⟨a, b, h0, -⟩ := hst.split
    intro hm
    exact hplain (by rw [h0]; simp [hm])
  obtain ⟨h1, -, dict, h2, h3⟩ := C218_all_variables_partial lib T car tables junkQ junkU d p c (onText strip) vehicle track
    type w1 w2 job r hu hv ht hcar hconf hask hpre htext hp (by rw [hT, e]) hvars hslash hok hs
  refine ⟨_, _, dict, h1, ?_, ?_, h2, h3⟩
  · rw [show job.pre = _ from returned_prefix hpre h1, onText, String.toList_ofList, strip_usual husual]
    exact hst
  · intro i hi
    simp only [List.mem_append, List.mem_map]
    exact .inl (.inl (.inr ⟨i, hi, rfl⟩))

/-- C273 is false for a text that ends in a no-break space, which is a blank for Python and not for the library: the lap
is saved under the text as it is, and Python returns the text without it. -/
theorem C273_false (lib : Name → Option (Name → Bool)) (T : LapOptions.Texts K') (hT : T.trim = onText trim)
    (car : LapOptions.CarType K') (tables : String → Option (List K')) (junkQ junkU : Transcription.Row K')
    (d p : LapOptions.Node) (c : LapOptions.Config K') (hn : (car.inputs ++ car.controls).Nodup)
    (h : LapOptions.configure T car tables junkQ junkU (.doc d) = .ok c)
    (hpre : LapOptions.find? d ["output_variables", "prefix"] = some p) (ht : p.text = "run/\u00a0")
    (vehicle track : Name) (w1 : Kart → Track → Kart) (w2 : F1 → Track → F1) (job : LapJob K) (r : Reg Kart F1 Track K)
    (hask : Asked c job) (x : Name × List Name)
    (hx : (optimalLaptime lib (onText strip) vehicle track (.doc d) w1 w2 job r).2 = .ret x) :
    x.1 = "run/".toList ∧ job.pre = "run/\u00a0".toList := by
  have hs := C273_prefix T hT car tables junkQ junkU d p c hn h hpre
  constructor
  · rw [returned_prefix hpre hx, onText, String.toList_ofList, ht]
    decide
  · rw [hask.1, (C273_trimmed _).2.1 _ hs, ht, trim_eq]
    decide

/-! ## The theorems on concrete texts -/

/-- C273: blanks within the text stay, those at the ends go. -/
example : trim " \n my run/\t\n".toList = "my run/".toList :=
  ((C273_trimmed " \n my run/\t\n".toList).2.1 _
    ⟨⟨" \n ".toList, "\t\n".toList, by decide, by decide, by decide⟩,
      fun c l h => by
        obtain ⟨rfl, -⟩ := List.cons.inj (show 'm' :: _ = c :: l from h)
        decide,
      fun l c h => by
        have : ("my run".toList : Name) ++ ['/'] = l ++ [c] := h
        obtain ⟨-, h⟩ := List.append_inj' this rfl
        obtain ⟨rfl, -⟩ := List.cons.inj h
        decide⟩).symm

/-- How texts are read, with the blanks taken off as the library does. -/
def sampleReader : LapOptions.Texts ℚ := { LapOptions.sampleTexts with trim := onText trim }

/-- Options that list one variable, with a given prefix. -/
def listed (t : String) : LapOptions.Node :=
  .mk "options" "" [] [.mk "output_variables" "" [] [LapOptions.leaf "prefix" t,
    .mk "variables" "" [] [LapOptions.leaf "time" ""]]]

/-- A lap that saves one variable under a given prefix. -/
def shortJob (pre : Name) : LapJob ℤ := { sampleJob with pre := pre, vars := ["time".toList] }

theorem listed_returns (t : String) (pre : Name) (h : pre = "run/".toList ∨ pre = "run/\u00a0".toList) (ht : t ≠ "") :
    (optimalLaptime (fun _ => none) (onText strip) "car".toList "circuit".toList (.doc (listed t)) (fun _ _ => ())
      (fun _ _ => ()) (shortJob pre) sampleTables).2 = .ret (strip t.toList, []) := by
  have h := C218_false_listed (fun _ => none) (listed t) _ _ _ (onText strip) "car".toList "circuit".toList
    (fun _ _ => ()) (fun _ _ => ()) (shortJob pre) sampleTables rfl rfl rfl ht
    (by simp [LapOptions.Node.children]) (by
      intro e he
      simp only [LapOptions.Node.children, List.mem_singleton] at he
      rw [he]; rfl)
    (by
      rw [cstr_plain (n := "car".toList) (by unfold Plain; decide), cstr_plain (n := "circuit".toList) (by unfold Plain; decide)]
      rcases h with rfl | rfl <;> rfl)
  rw [h]
  simp only [onText, String.toList_ofList]
  rfl

/-- C273: the lap of the kart `car` on `circuit`, with blanks of C around the prefix. -/
example : ∃ c, LapOptions.configure sampleReader sampleKart (fun _ => none) (fun _ => 0) (fun _ => 0)
    (.doc (listed " run/\n")) = .ok c ∧ Asked c (shortJob "run/".toList) ∧ strip " run/\n".toList = "run/".toList := by
  obtain ⟨c, h, hv⟩ : ∃ c, LapOptions.configure sampleReader sampleKart (fun _ => none) (fun _ => 0) (fun _ => 0)
    (.doc (listed " run/\n")) = .ok c ∧ c.vars = ["time"] := ⟨_, rfl, rfl⟩
  have hn := LapOptions.kartType_names VehicleNames.outputNames (fun _ => (0 : ℚ)) (fun _ => 0) (fun _ => 0) fun _ => 0
  have hs := C273_prefix sampleReader rfl sampleKart _ _ _ (listed " run/\n") _ c hn h rfl
  have hp : "run/".toList = c.pre.toList := by
    rw [(C273_trimmed _).2.1 _ hs, trim_eq]
    decide
  have ha : Asked c (shortJob "run/".toList) := ⟨hp, by rw [hv]; rfl⟩
  exact ⟨c, h, ha, C273_python_partial (fun _ => none) sampleReader rfl sampleKart _ _ _ (listed " run/\n") _ c hn h rfl
    (by unfold Usual; decide) _ _ _ _ _ sampleTables ha _ (listed_returns " run/\n" _ (.inl rfl) (by decide))⟩

/-- C273: the same lap, with a no-break space after the prefix. -/
example : ∃ c, LapOptions.configure sampleReader sampleKart (fun _ => none) (fun _ => 0) (fun _ => 0)
    (.doc (listed "run/\u00a0")) = .ok c ∧ Asked c (shortJob "run/\u00a0".toList) ∧
    strip "run/\u00a0".toList = "run/".toList := by
  obtain ⟨c, h, hv⟩ : ∃ c, LapOptions.configure sampleReader sampleKart (fun _ => none) (fun _ => 0) (fun _ => 0)
    (.doc (listed "run/\u00a0")) = .ok c ∧ c.vars = ["time"] := ⟨_, rfl, rfl⟩
  have hn := LapOptions.kartType_names VehicleNames.outputNames (fun _ => (0 : ℚ)) (fun _ => 0) (fun _ => 0) fun _ => 0
  have hs := C273_prefix sampleReader rfl sampleKart _ _ _ (listed "run/\u00a0") _ c hn h rfl
  have hp : "run/\u00a0".toList = c.pre.toList := by
    rw [(C273_trimmed _).2.1 _ hs, trim_eq]
    decide
  have ha : Asked c (shortJob "run/\u00a0".toList) := ⟨hp, by rw [hv]; rfl⟩
  exact ⟨c, h, ha, (C273_false (fun _ => none) sampleReader rfl sampleKart _ _ _ (listed "run/\u00a0") _ c hn h rfl rfl
    _ _ _ _ _ sampleTables ha _ (listed_returns "run/\u00a0" _ (.inr rfl) (by decide))).1⟩

/-- C273: the lap of the kart `car` on `circuit` that asks for everything, with blanks of C around the prefix. -/
example : ∃ pre vars dict, (optimalLaptime (fun _ => none) (onText strip) "car".toList "circuit".toList
      (.doc (.mk "options" "" [] [.mk "output_variables" "" [] [LapOptions.leaf "prefix" " run/\n"]]))
      (fun _ _ => ()) (fun _ _ => ()) sampleJob sampleTables).2 = .ret (pre, vars) ∧
    downloadVariables pre vars (optimalLaptime (fun _ => none) (onText strip) "car".toList "circuit".toList
      (.doc (.mk "options" "" [] [.mk "output_variables" "" [] [LapOptions.leaf "prefix" " run/\n"]]))
      (fun _ _ => ()) (fun _ _ => ()) sampleJob sampleTables).1 = .ret dict := by
  obtain ⟨c, hc, hv⟩ : ∃ c, LapOptions.configure sampleReader sampleKart (fun _ => none) (fun _ => 0)
      (fun _ => 0) (.doc (.mk "options" "" [] [.mk "output_variables" "" [] [LapOptions.leaf "prefix" " run/\n"]])) = .ok c ∧
      c.vars = LapOptions.allVariables sampleKart := ⟨_, rfl, rfl⟩
  have hn := LapOptions.kartType_names VehicleNames.outputNames (fun _ => (0 : ℚ)) (fun _ => 0) (fun _ => 0) fun _ => 0
  have hs := C273_prefix sampleReader rfl sampleKart _ _ _ _ _ c hn hc rfl
  have hp : "run/".toList = c.pre.toList := by
    rw [(C273_trimmed _).2.1 _ hs, trim_eq]
    decide
  obtain ⟨pre, vars, dict, h1, -, -, h2, -⟩ := C273_download_partial (fun _ => none) sampleReader rfl sampleKart
    (fun _ => none) (fun _ => 0) (fun _ => 0) _ (LapOptions.leaf "prefix" " run/\n") c "car".toList
    "circuit".toList "kart-6dof".toList (fun _ _ => ()) (fun _ _ => ()) sampleJob sampleTables sampleTables_unique
    (by unfold Plain; decide) (.inr ⟨rfl, rfl⟩) sampleKart_names hc ⟨hp, by rw [hv]; rfl⟩ rfl (by decide)
    (by unfold Plain; decide) (by unfold Usual; decide)
    rfl (fun v hv hs => by simp [sampleJob, hs] at hv) sampleLap_returns
    (fun v x h => by
      simp only [sampleJob] at h
      split at h
      · cases h
      · obtain rfl := Option.some.inj h; simp)
  exact ⟨pre, vars, dict, h1, h2⟩

/-- C273: a text with blanks of C only. -/
example : Usual " run/\n".toList := by
  unfold Usual
  decide

/-- C273: with a no-break space the lap is asked for under a name that is not the one returned. -/
example : trim "run/\u00a0".toList ≠ strip "run/\u00a0".toList := by
  rw [trim_eq]
  decide

end Verif.Trim
