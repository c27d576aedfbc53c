import Verif.Props.LapMirror
import Verif.Lemmas.KartMirror

/-! Property theorems C248: laps of a kart on the mirror image of a track. -/

set_option autoImplicit false

namespace Verif.LapVehicles

open Verif.Road Verif.Transcription Verif.Control Verif.Chassis

def kartReversed : Nat → Bool
  | 2 => true | 3 => true | 5 => true | 8 => true | 11 => true | 12 => true | _ => false

def kartSwapExtra : Nat → Nat
  | 0 => 1 | 1 => 0 | 2 => 3 | 3 => 2 | 4 => 5 | 5 => 4 | k => k

def kartReversedExtra : Nat → Bool
  | 2 => true | 3 => true | 4 => true | 5 => true | _ => false

theorem kartInputs_act : Kart.mirrorInputs = act id kartReversed := by
  funext q
  refine funext_below 13 (fun k hk => ?_) (fun k => rfl)
  interval_cases k <;> rfl

theorem kartStates_act (l : List ℝ) (hl : l.length = 13) :
    (fun k => (Kart.mirrorStates l).getD k 0) = act id kartReversed fun k => l.getD k 0 := by
  obtain ⟨a, b, d, e, vx, vy, om, vz, ro, pi, ba, t, n, rfl⟩ :
      ∃ a b d e vx vy om vz ro pi ba t n, l = [a, b, d, e, vx, vy, om, vz, ro, pi, ba, t, n] := by
    rcases l with _ | ⟨x0, _ | ⟨x1, _ | ⟨x2, _ | ⟨x3, _ | ⟨x4, _ | ⟨x5, _ | ⟨x6, _ | ⟨x7, _ | ⟨x8, _ | ⟨x9, _ | ⟨x10, _ | ⟨x11, _ | ⟨x12, _ | ⟨x13, l⟩⟩⟩⟩⟩⟩⟩⟩⟩⟩⟩⟩⟩⟩ <;>
      simp at hl
    exact ⟨_, _, _, _, _, _, _, _, _, _, _, _, _, rfl⟩
  refine funext_below 13 (fun k hk => ?_) (fun k => rfl)
  interval_cases k <;> rfl

theorem kartBound_act (b o : Row ℝ) :
    mirrorBound Kart.mirrorInputs [2, 3, 5, 8, 11, 12] b o = actBound id kartReversed b o := by
  refine funext_below 13 (fun k hk => ?_) (fun k => ?_)
  · interval_cases k <;> rfl
  · have : k + 13 ∉ [2, 3, 5, 8, 11, 12] := by simp
    simp only [mirrorBound, this, if_false]
    rfl

theorem kartControls_eq : Kart.mirrorControls = F1.mirrorControls := by
  funext u k
  match k with
  | 0 => rfl
  | k + 1 => rfl

theorem kart_eval_mirror {solve : Vec3 × Vec3 × Vec3 → Vec3 → Vec3} (hs : Kart.Solver solve) (kart : ℝ → Kart.Vehicle)
    (t : Circuit) (hb : ∀ s, (kart s).front.susp.betaL = -(kart s).front.susp.betaR) (row : Row ℝ) (u : List ℝ) (s : ℝ)
    (hdet : Kart.det (Kart.eulerM (kart s) (Kart.setState row (arrayOf u))) ≠ 0) :
    kartEval solve (fun s => Kart.mirrorKart (kart s)) (mirrorCircuit t) (act id kartReversed row) (turned u) s
      = actEqs id kartSwapExtra id kartReversed kartReversedExtra (kartEval solve kart t row u s) := by
  rw [← kartInputs_act]
  simp only [kartEval, arrayOf_turned, ← kartControls_eq, mirrorCircuit, Kart.setState_mirror, Kart.roadCurvilinear_mirror,
    Kart.evaluate_mirror hs _ _ _ hdet (Or.inl (hb s)), actEqs]
  rw [kartStates_act _ rfl, kartStates_act _ rfl]
  congr 1
  refine funext_below 6 (fun k hk => ?_) (fun k => rfl)
  simp only [Kart.extraConstraints, Kart.rearAxle_mirror, Kart.frontAxle_mirror _ _ (Or.inl (hb s)), Kart.mirrorAxleOut]
  interval_cases k <;> rfl

section
variable {solve : Vec3 × Vec3 × Vec3 → Vec3 → Vec3} {kart kart' : ℝ → Kart.Vehicle} {direct ready : Bool}
  {junk : Nat → F1.Limits} {t : Circuit}

theorem kart_symmetry : Symmetry (kartVehicle solve kart direct junk ready t)
      (kartVehicle solve kart' direct junk ready (mirrorCircuit t))
      id id kartSwapExtra id kartReversed kartReversed kartReversedExtra where
  nInputs := rfl
  iTime := rfl
  sTime := rfl
  nExtra := rfl
  timeIds := rfl
  algIds := rfl
  length := rfl
  left := rfl
  right := rfl
  defaults := by
    intro c d h
    have h' : (kartVehicle solve kart direct junk ready t).controlsDef[c]? = some d := h
    rw [h']
    split
    · subst c
      have : d = 0 := by
        simpa [kartVehicle, Kart.nControls, Kart.controlLimits, F1.written, Kart.cTorque, Kart.cSteering] using h.symm
      rw [this, neg_zero]
    · rfl
  rateLb := by
    intro c l h
    rcases c with _ | c
    · cases direct <;> simp [kartVehicle, Kart.rateBounds] at h ⊢ <;> linarith
    · rw [if_neg (Nat.succ_ne_zero c)]
      exact h
  rateUb := by
    intro c l h
    rcases c with _ | c
    · cases direct <;> simp [kartVehicle, Kart.rateBounds] at h ⊢ <;> linarith
    · rw [if_neg (Nat.succ_ne_zero c)]
      exact h
  lateral := ⟨rfl, rfl⟩
  others := fun j hj h1 h2 => ⟨hj, h1, h2⟩
  time := ⟨rfl, rfl⟩
  timeClosed := fun q hq => hq
  algClosed := fun q hq => hq
  extraClosed := by
    show ∀ k, k < 6 → kartSwapExtra k < 6
    decide
  extraLb := by
    intro s k hk
    have hk : k < 6 := hk
    interval_cases k <;> rfl
  extraUb := by
    intro s k hk
    have hk : k < 6 := hk
    interval_cases k <;> simp [kartVehicle, Kart.extraBounds, actBound, kartSwapExtra, kartReversedExtra]

theorem kart_problem {lowest max : ℝ} {r : Request ℝ} {p p' : Problem ℝ}
    (h : prepare lowest max (kartVehicle solve kart direct junk ready t) r = .ok p)
    (h' : prepare lowest max (kartVehicle solve kart' direct junk ready (mirrorCircuit t)) (mirrorRequestKart r) = .ok p') :
    MirrorProblem p p' id id kartReversed := by
  obtain ⟨-, a⟩ := prepare_ok h
  obtain ⟨-, a'⟩ := prepare_ok h'
  refine ⟨?_, ?_, ?_, ?_, ?_, ?_, ?_, ?_, ?_, ?_, ?_, ?_⟩
  · rw [a.s, a'.s]; rfl
  · rw [a.isClosed, a'.isClosed]; rfl
  · rw [a.isDirect, a'.isDirect]; rfl
  · rw [a.nPoints, a'.nPoints]; rfl
  · rw [a.nElements, a'.nElements]; rfl
  · rw [a.controls, a'.controls]; exact meaningful_mirror _
  · intro k q hq
    have hk := (List.getElem?_eq_some_iff.1 hq).1
    rw [a'.nQuantities] at hk
    exact absurd hk (Nat.not_lt_zero k)
  · rw [a.opts, a'.opts]; exact kartBound_act _ _
  · rw [a.opts, a'.opts]; exact kartBound_act _ _
  · intro c; rw [a.opts, a'.opts]; simp only [mirrorRequestKart, kartControls_eq]; exact mirrorBound_controls _ _ c
  · intro c; rw [a.opts, a'.opts]; simp only [mirrorRequestKart, kartControls_eq]; exact mirrorBound_controls _ _ c
  · rw [a.opts, a'.opts]; rfl

theorem kart_acceptable {r : Request ℝ} (h : Acceptable (kartVehicle solve kart direct junk ready t) r) :
    Acceptable (kartVehicle solve kart' direct junk ready (mirrorCircuit t)) (mirrorRequestKart r) := by
  have hmem : ∀ c ∈ mirrorSteering r.controls, ∃ d ∈ r.controls, c = d ∨ c = reverseControl d := by
    intro c hc
    obtain ⟨k, hk⟩ := List.getElem?_of_mem hc
    obtain ⟨d, hd, rfl⟩ := steering_getElem? _ _ _ hk
    refine ⟨d, List.mem_of_getElem? hd, ?_⟩
    split
    · exact Or.inr rfl
    · exact Or.inl rfl
  refine ⟨h.two, h.closedEnds, h.openEnds, ?_, ?_, ?_, h.names, h.ready⟩
  · simpa [mirrorRequestKart] using h.inputs
  · intro c hc
    obtain ⟨d, hd, rfl | rfl⟩ := hmem c hc
    · exact h.consistent _ hd
    · exact consistent_reverse (h.consistent _ hd)
  · intro c hc hk
    obtain ⟨d, hd, rfl | rfl⟩ := hmem c hc
    · exact h.full _ hd hk
    · obtain ⟨h1, h2⟩ := h.full _ hd hk
      exact ⟨(List.length_map _).trans h1, (List.length_map _).trans h2⟩

end

/-- C248: the mirror image of a lap of a kart that obeys the equations of motion and all limits obeys them for the mirror
image of the kart on the mirror image of the track, and takes the same time. Partial: if the steering lifts one front
wheel as much as it lowers the other; see `C168_mirror_false`. -/
theorem C248_lap_partial (solve : Vec3 × Vec3 × Vec3 → Vec3 → Vec3) (hs : Kart.Solver solve) (kart : ℝ → Kart.Vehicle)
    (direct : Bool) (junk : Nat → F1.Limits) (ready : Bool) (t : Circuit)
    (hb : ∀ s, (kart s).front.susp.betaL = -(kart s).front.susp.betaR) (lowest max : ℝ) (r : Request ℝ) (p : Problem ℝ)
    (hp : prepare lowest max (kartVehicle solve kart direct junk ready t) r = .ok p)
    (tolB tolC : ℝ) (ins : List (Row ℝ)) (ctrls : List (CV ℝ)) (node : Nat → Node ℝ) (hfit : FitsProblem p ⟨ins, ctrls⟩)
    (hnode : EvaluatedNodes (kartVehicle solve kart direct junk ready t) p ⟨ins, ctrls⟩ node) (hdet : Turns kart ins)
    (hob : Obeys (kartVehicle solve kart direct junk ready t) p tolB tolC ins ctrls node) :
    let v := kartVehicle solve kart direct junk ready t
    let v' := kartVehicle solve (fun s => Kart.mirrorKart (kart s)) direct junk ready (mirrorCircuit t)
    let ins' := ins.map Kart.mirrorInputs
    let ctrls' := mirrorSteering ctrls
    ∃ p' node', prepare lowest max v' (mirrorRequestKart r) = .ok p' ∧
      FitsProblem p' ⟨ins', ctrls'⟩ ∧ EvaluatedNodes v' p' ⟨ins', ctrls'⟩ node' ∧
      Obeys v' p' tolB tolC ins' ctrls' node' ∧ lapDuration v' p' node' = lapDuration v p node ∧
      smoothing v' p' node' ctrls' = smoothing v p node ctrls := by
  intro v v' ins' ctrls'
  obtain ⟨p', hp', -⟩ := prepare_accepted lowest max v' (mirrorRequestKart r) (kart_acceptable (prepare_ok hp).1)
  have S := kart_symmetry (solve := solve) (kart := kart) (kart' := fun s => Kart.mirrorKart (kart s)) (direct := direct)
    (junk := junk) (ready := ready) (t := t)
  have P := kart_problem hp hp'
  simp only [ins', ctrls', kartInputs_act]
  exact ⟨p', _, hp', fits_mirror P hfit,
    nodes_mirror S P (fun row u s hrow => kart_eval_mirror hs kart t hb row u s (hdet row hrow s _)) hnode, obeys_mirror S P hob,
    duration_mirror S P, smoothing_mirror S P⟩

/-! ### The mirror image of the mirror image -/

theorem kartInputs_twice (q : Row ℝ) : Kart.mirrorInputs (Kart.mirrorInputs q) = q := by
  refine funext_below 13 (fun k hk => ?_) (fun k => rfl)
  interval_cases k <;> first | rfl | exact neg_neg _

theorem kartKart_twice (c : Kart.Vehicle) : Kart.mirrorKart (Kart.mirrorKart c) = c := by
  simp [Kart.mirrorKart, Kart.mirrorAxle, F1.mirrorVec]

theorem kartBound_twice (b o : Row ℝ) :
    mirrorBound Kart.mirrorInputs [2, 3, 5, 8, 11, 12] (mirrorBound Kart.mirrorInputs [2, 3, 5, 8, 11, 12] b o)
      (mirrorBound Kart.mirrorInputs [2, 3, 5, 8, 11, 12] o b) = b := by
  simp only [kartBound_act]
  refine funext_below 13 (fun k hk => ?_) (fun k => rfl)
  interval_cases k <;> first | rfl | exact neg_neg _

theorem mirrorRequestKart_twice (r : Request ℝ) : mirrorRequestKart (mirrorRequestKart r) = r := by
  have e1 : Kart.mirrorInputs ∘ Kart.mirrorInputs = id := funext kartInputs_twice
  simp only [mirrorRequestKart, kartControls_eq, kartBound_twice, mirrorBound_controls_twice, mirrorSteering_twice, List.map_map]
  rw [e1, List.map_id]

section
variable (solve : Vec3 × Vec3 × Vec3 → Vec3 → Vec3) (hs : Kart.Solver solve) (kart : ℝ → Kart.Vehicle) (direct : Bool)
  (junk : Nat → F1.Limits) (ready : Bool) (t : Circuit) (hb : ∀ s, (kart s).front.susp.betaL = -(kart s).front.susp.betaR)

/-- The mirror image of the kart on the mirror image of its track. -/
noncomputable def mirrorKartLap : Transcription.Vehicle ℝ :=
  kartVehicle solve (fun s => Kart.mirrorKart (kart s)) direct junk ready (mirrorCircuit t)

include hs hb in
/-- The best lap on the mirror image is no slower. -/
theorem kart_no_slower (lowest max : ℝ) (r : Request ℝ) (h4 : r.controls.length = 2)
    (p : Problem ℝ) (ini : Initial ℝ) (nlp : Nlp ℝ)
    (hset : setUp lowest max (kartVehicle solve kart direct junk ready t) r = .ok (p, ini, nlp)) (hcov : HypermeshCovers p)
    (p' : Problem ℝ) (ini' : Initial ℝ) (nlp' : Nlp ℝ)
    (hset' : setUp lowest max (mirrorKartLap solve kart direct junk ready t) (mirrorRequestKart r) = .ok (p', ini', nlp'))
    (hcov' : HypermeshCovers p') (opt : Optimiser ℝ) (hopt : RightSizes opt) (hrel : Reliable 0 0 opt)
    (hmin : Minimises opt) (tf : Bool) (lap lap' : Lap ℝ)
    (hlap : solveLap lowest max (kartVehicle solve kart direct junk ready t) tf opt r = .ok lap) (hsuc : lap.success = true)
    (hlap' : solveLap lowest max (mirrorKartLap solve kart direct junk ready t) tf opt (mirrorRequestKart r) = .ok lap')
    (hsuc' : lap'.success = true) (hdet : Turns kart lap.inputs) (node node' : Nat → Node ℝ)
    (hnode : EvaluatedNodes (kartVehicle solve kart direct junk ready t) p ⟨lap.inputs, lap.controls⟩ node)
    (hnode' : EvaluatedNodes (mirrorKartLap solve kart direct junk ready t) p' ⟨lap'.inputs, lap'.controls⟩ node') :
    lapDuration (mirrorKartLap solve kart direct junk ready t) p' node'
        + smoothing (mirrorKartLap solve kart direct junk ready t) p' node' lap'.controls
      ≤ lapDuration (kartVehicle solve kart direct junk ready t) p node
        + smoothing (kartVehicle solve kart direct junk ready t) p node lap.controls := by
  have hv : (kartVehicle solve kart direct junk ready t).WellFormed r.controls.length := h4 ▸ kart_wf ..
  have h4' : (mirrorRequestKart r).controls.length = 2 := by simpa [mirrorRequestKart, mirrorSteering] using h4
  have hv' : (mirrorKartLap solve kart direct junk ready t).WellFormed (mirrorRequestKart r).controls.length :=
    h4' ▸ kart_wf ..
  have hcf : ClockFree (kartVehicle solve kart direct junk ready t) := kart_clockFree ..
  have hcf' : ClockFree (mirrorKartLap solve kart direct junk ready t) := kart_clockFree ..
  obtain ⟨es, b, h⟩ := setUp_ready hv hset hcov
  obtain ⟨es', b', h'⟩ := setUp_ready hv' hset' hcov'
  have hob := C190_lap_obeys lowest max _ r hv hcf p ini nlp hset hcov opt hopt 0 0 hrel tf lap hlap hsuc node hnode
  obtain ⟨nd, t0, -, -, -, hfit, -, -, -, -, -, -, hstart⟩ := C190_own_times lowest max _ r hv hcf p ini nlp hset hcov opt hopt
    tf lap hlap
  have S := kart_symmetry (solve := solve) (kart := kart) (kart' := fun s => Kart.mirrorKart (kart s)) (direct := direct)
    (junk := junk) (ready := ready) (t := t)
  have P := kart_problem h.run.prepared h'.run.prepared
  have hin : p'.inputs = p.inputs.map (act id kartReversed) := by
    rw [(prepare_ok h'.run.prepared).2.inputs, (prepare_ok h.run.prepared).2.inputs, ← kartInputs_act]
    rfl
  have := C191_no_better_lap lowest max _ _ hv' hcf' p' ini' nlp' hset' hcov' opt hopt hmin tf lap' hlap' hsuc' node' hnode'
    _ _ _ (fits_mirror P hfit)
    (nodes_mirror S P (fun row u s hrow => kart_eval_mirror hs kart t hb row u s (hdet row hrow s _)) hnode)
    (obeys_mirror S P hob) (fun hc => sameStart_mirror S P hin (hstart hc).1)
  refine this.trans_eq ?_
  congr 1
  · exact duration_mirror S P
  · exact smoothing_mirror S P

include hs hb in
/-- C248: with an optimiser that finds the best lap, the best laps of a kart and of its mirror image on the mirror image of
the track take the same time (plus smoothing penalty). Partial: as `C248_lap_partial`. -/
theorem C248_best_partial (lowest max : ℝ) (r : Request ℝ) (h4 : r.controls.length = 2)
    (p : Problem ℝ) (ini : Initial ℝ) (nlp : Nlp ℝ)
    (hset : setUp lowest max (kartVehicle solve kart direct junk ready t) r = .ok (p, ini, nlp)) (hcov : HypermeshCovers p)
    (p' : Problem ℝ) (ini' : Initial ℝ) (nlp' : Nlp ℝ)
    (hset' : setUp lowest max (mirrorKartLap solve kart direct junk ready t) (mirrorRequestKart r) = .ok (p', ini', nlp'))
    (hcov' : HypermeshCovers p') (opt : Optimiser ℝ) (hopt : RightSizes opt) (hrel : Reliable 0 0 opt)
    (hmin : Minimises opt) (tf : Bool) (lap lap' : Lap ℝ)
    (hlap : solveLap lowest max (kartVehicle solve kart direct junk ready t) tf opt r = .ok lap) (hsuc : lap.success = true)
    (hlap' : solveLap lowest max (mirrorKartLap solve kart direct junk ready t) tf opt (mirrorRequestKart r) = .ok lap')
    (hsuc' : lap'.success = true) (hdet : Turns kart lap.inputs) (hdet' : Turns kart lap'.inputs) (node node' : Nat → Node ℝ)
    (hnode : EvaluatedNodes (kartVehicle solve kart direct junk ready t) p ⟨lap.inputs, lap.controls⟩ node)
    (hnode' : EvaluatedNodes (mirrorKartLap solve kart direct junk ready t) p' ⟨lap'.inputs, lap'.controls⟩ node') :
    lapDuration (mirrorKartLap solve kart direct junk ready t) p' node'
        + smoothing (mirrorKartLap solve kart direct junk ready t) p' node' lap'.controls
      = lapDuration (kartVehicle solve kart direct junk ready t) p node
        + smoothing (kartVehicle solve kart direct junk ready t) p node lap.controls := by
  refine le_antisymm (kart_no_slower solve hs kart direct junk ready t hb lowest max r h4 p ini nlp hset hcov p' ini' nlp' hset'
    hcov' opt hopt hrel hmin tf lap lap' hlap hsuc hlap' hsuc' hdet node node' hnode hnode') ?_
  have e : mirrorKartLap solve (fun s => Kart.mirrorKart (kart s)) direct junk ready (mirrorCircuit t)
      = kartVehicle solve kart direct junk ready t := by
    simp only [mirrorKartLap, kartKart_twice, mirrorCircuit_twice]
  have hd : Turns (fun s => Kart.mirrorKart (kart s)) lap'.inputs := by
    intro row hrow s u
    have := hdet' row hrow s u
    rw [Kart.det_eulerM] at this ⊢
    simpa [Kart.mirrorKart] using this
  have := kart_no_slower solve hs (fun s => Kart.mirrorKart (kart s)) direct junk ready (mirrorCircuit t)
    (fun s => by simp [Kart.mirrorKart, Kart.mirrorAxle, hb s]) lowest max
    (mirrorRequestKart r) (by simpa [mirrorRequestKart, mirrorSteering] using h4) p' ini' nlp' hset' hcov' p ini nlp
    (by rw [e, mirrorRequestKart_twice]; exact hset) hcov opt hopt hrel hmin tf lap' lap hlap' hsuc'
    (by rw [e, mirrorRequestKart_twice]; exact hlap) hsuc hd node' node hnode' (by rw [e]; exact hnode)
  rw [e] at this
  exact this

include hs hb in
/-- C248: without dissipation, with an optimiser that finds the best lap, the two lap times are the same. Partial: as
`C248_lap_partial`. -/
theorem C248_laptime_partial (lowest max : ℝ) (r : Request ℝ) (h4 : r.controls.length = 2)
    (hdiss : ∀ c ∈ r.controls, c.kind = .fullMesh → c.dissipation = 0)
    (p : Problem ℝ) (ini : Initial ℝ) (nlp : Nlp ℝ)
    (hset : setUp lowest max (kartVehicle solve kart direct junk ready t) r = .ok (p, ini, nlp)) (hcov : HypermeshCovers p)
    (p' : Problem ℝ) (ini' : Initial ℝ) (nlp' : Nlp ℝ)
    (hset' : setUp lowest max (mirrorKartLap solve kart direct junk ready t) (mirrorRequestKart r) = .ok (p', ini', nlp'))
    (hcov' : HypermeshCovers p') (opt : Optimiser ℝ) (hopt : RightSizes opt) (hrel : Reliable 0 0 opt)
    (hmin : Minimises opt) (tf : Bool) (lap lap' : Lap ℝ)
    (hlap : solveLap lowest max (kartVehicle solve kart direct junk ready t) tf opt r = .ok lap) (hsuc : lap.success = true)
    (hlap' : solveLap lowest max (mirrorKartLap solve kart direct junk ready t) tf opt (mirrorRequestKart r) = .ok lap')
    (hsuc' : lap'.success = true) (hdet : Turns kart lap.inputs) (hdet' : Turns kart lap'.inputs) :
    lap'.laptime = lap.laptime := by
  have hv : (kartVehicle solve kart direct junk ready t).WellFormed r.controls.length := h4 ▸ kart_wf ..
  have h4' : (mirrorRequestKart r).controls.length = 2 := by simpa [mirrorRequestKart, mirrorSteering] using h4
  have hv' : (mirrorKartLap solve kart direct junk ready t).WellFormed (mirrorRequestKart r).controls.length := h4' ▸ kart_wf ..
  have hcf : ClockFree (kartVehicle solve kart direct junk ready t) := kart_clockFree ..
  have hcf' : ClockFree (mirrorKartLap solve kart direct junk ready t) := kart_clockFree ..
  obtain ⟨es, b, h⟩ := setUp_ready hv hset hcov
  obtain ⟨es', b', h'⟩ := setUp_ready hv' hset' hcov'
  have hdiss' : ∀ c ∈ (mirrorRequestKart r).controls, c.kind = .fullMesh → c.dissipation = 0 := by
    intro c hc hk
    obtain ⟨k, hk'⟩ := List.getElem?_of_mem hc
    obtain ⟨d, hd, rfl⟩ := steering_getElem? _ _ _ hk'
    split at hk
    · rename_i h0
      rw [if_pos h0]
      exact hdiss d (List.mem_of_getElem? hd) hk
    · rename_i h0
      rw [if_neg h0]
      exact hdiss d (List.mem_of_getElem? hd) hk
  obtain ⟨nd, t0, -, -, -, hfit, hn, -, ht, -, -, hc0, ho0⟩ := C190_own_times lowest max _ r hv hcf p ini nlp hset hcov opt hopt
    tf lap hlap
  obtain ⟨nd', t0', -, -, -, hfit', hn', -, ht', -, -, hc0', ho0'⟩ := C190_own_times lowest max _ _ hv' hcf' p' ini' nlp' hset'
    hcov' opt hopt tf lap' hlap'
  have := C248_best_partial solve hs kart direct junk ready t hb lowest max r h4 p ini nlp hset hcov p' ini' nlp' hset' hcov' opt
    hopt hrel hmin tf lap lap' hlap hsuc hlap' hsuc' hdet hdet' nd nd' hn hn'
  rw [smoothing_none h.run.prepared hdiss hfit, smoothing_none h'.run.prepared hdiss' hfit', add_zero, add_zero] at this
  rw [ht, ht', this]
  congr 1
  cases hcl : r.isClosed with
  | true => rw [hc0 hcl, hc0' hcl]
  | false =>
    have hlen := (prepare_ok h.run.prepared).1.inputs
    have h2 := (prepare_ok h.run.prepared).1.two
    obtain ⟨row, hrow⟩ : ∃ row, r.inputs[0]? = some row := ⟨_, List.getElem?_eq_getElem (by omega)⟩
    rw [(ho0 hcl).2 row hrow, (ho0' hcl).2 (Kart.mirrorInputs row) (by simp [mirrorRequestKart, hrow])]
    rfl

end


/-! ### The mirror image is not exact in general -/

/-- `exKart`, but the steering does not move the right front wheel up or down. -/
noncomputable def tiltKart : Kart.Vehicle :=
  { Kart.exKart with front := { Kart.exKart.front with susp := ⟨true, 1, 100000, 0, 100000, 139 / 1000, 1 / 10, 0⟩ } }

/-- 10 m/s, 8.1 cm down. -/
noncomputable def tiltInputs : Nat → ℝ := fun k => if k = 1 then 10 else if k = 4 then 81 / 1000 else 0

theorem axle_vertical (c : Kart.Vehicle) (m : Kart.Members) (a : Kart.AxleK) (x : Vec3) (delta omega : ℝ) :
    (Kart.axleUpdate c m a x delta omega).forces.1.2.2 =
      -(Kart.axleUpdate c m a x delta omega).left.Fz + -(Kart.axleUpdate c m a x delta omega).right.Fz := rfl

/-- The vertical acceleration: gravity less the loads of the tyres. -/
theorem vertical (c : Kart.Vehicle) (m : Kart.Members) (heading : ℝ) : (Kart.dvdt c m heading).2.2 =
    1 / c.mass * (c.mass * c.g0 + (Kart.aeroForce c m heading).2.2 - (Kart.frontAxle c m).left.Fz
      - (Kart.frontAxle c m).right.Fz - (Kart.rearAxle c m).left.Fz - (Kart.rearAxle c m).right.Fz) := by
  have h1 : (Kart.frontAxle c m).forces.1.2.2 = _ := axle_vertical ..
  have h2 : (Kart.rearAxle c m).forces.1.2.2 = _ := axle_vertical ..
  have h3 : (Kart.newtonLhs m).2.2 = 0 := by simp [Kart.newtonLhs, cross]
  simp only [Kart.dvdt, Kart.totalForce, Prod.snd_add, Prod.snd_neg, Prod.smul_snd, smul_eq_mul, h1, h2, h3]
  simp only [Kart.frontAxle, Kart.rearAxle]
  ring

/-- The members of the kart at these inputs. -/
noncomputable def tiltMembers (steering : ℝ) : Kart.Members := ⟨0, 10, 0, 0, 81 / 1000, 0, 0, 0, 0, 0, steering, 0, 0, 0, 0⟩

theorem tilt_front : (Kart.frontAxle tiltKart (tiltMembers (-(15 / 100)))).left.Fz = 0 ∧
    (Kart.frontAxle tiltKart (tiltMembers (-(15 / 100)))).right.Fz = 1000 ∧
    (Kart.frontAxle (Kart.mirrorKart tiltKart) (tiltMembers (15 / 100))).left.Fz = 250 ∧
    (Kart.frontAxle (Kart.mirrorKart tiltKart) (tiltMembers (15 / 100))).right.Fz = 250 := by
  refine ⟨?_, ?_, ?_, ?_⟩ <;> norm_num [Kart.frontAxle, Kart.rearAxle, Kart.axleUpdate, Kart.wheelUpdate, Kart.mirrorKart, tiltKart, tiltMembers,
    Kart.mirrorAxle, F1.mirrorVec, Kart.exKart, Kart.comPosition, Kart.axlePosition, Kart.axleVelocity, Power.tyreHeight,
    Power.tyreVelocity, Power.chassisDeformation, Power.tyreDeformation, Power.displSym, Power.displAsym, Power.displRates,
    Power.symK, Power.asymK, cross]

theorem tilt_rear : (Kart.rearAxle tiltKart (tiltMembers (-(15 / 100)))).left.Fz = 1000 ∧
    (Kart.rearAxle tiltKart (tiltMembers (-(15 / 100)))).right.Fz = 1000 ∧
    (Kart.rearAxle (Kart.mirrorKart tiltKart) (tiltMembers (15 / 100))).left.Fz = 1000 ∧
    (Kart.rearAxle (Kart.mirrorKart tiltKart) (tiltMembers (15 / 100))).right.Fz = 1000 := by
  refine ⟨?_, ?_, ?_, ?_⟩ <;> norm_num [Kart.frontAxle, Kart.rearAxle, Kart.axleUpdate, Kart.wheelUpdate, Kart.mirrorKart, tiltKart, tiltMembers,
    Kart.mirrorAxle, F1.mirrorVec, Kart.exKart, Kart.comPosition, Kart.axlePosition, Kart.axleVelocity, Power.tyreHeight,
    Power.tyreVelocity, Power.chassisDeformation, Power.tyreDeformation, Power.displSym, Power.displAsym, Power.displRates,
    Power.symK, Power.asymK, cross]

/-- C248 is false in general: steered, the mirror image of a kart whose steering lifts the left front wheel only has another
vertical acceleration than the kart. The deformation of the chassis is computed with the right wheel only. -/
theorem C248_equations_false : ∃ (kart : Kart.Vehicle) (t : Circuit) (row : Row ℝ) (u : List ℝ),
    (∀ u, Kart.det (Kart.eulerM kart (Kart.setState row u)) ≠ 0) ∧ ∀ solve,
    (kartEval solve (fun _ => Kart.mirrorKart kart) (mirrorCircuit t) (Kart.mirrorInputs row) (turned u) 0).dstates 7
      ≠ (kartEval solve (fun _ => kart) t row u 0).dstates 7 := by
  refine ⟨tiltKart, straightTrack, tiltInputs, [-(15 / 100), 0], fun u => ?_, fun solve => ?_⟩
  · rw [Kart.det_eulerM]
    norm_num [tiltKart, Kart.exKart, Kart.setState, tiltInputs, Kart.iBody, Kart.iChassis, Kart.iAxle]
  have hm : Kart.setState tiltInputs (arrayOf [-(15 / 100), 0]) = tiltMembers (-(15 / 100)) := by
    norm_num [tiltMembers, Kart.setState, tiltInputs, arrayOf, Kart.iAxle, Kart.iChassis, Kart.iBody, Kart.iRoad, Kart.cSteering, Kart.cTorque]
  have hm' : Kart.setState (Kart.mirrorInputs tiltInputs) (arrayOf (turned [-(15 / 100), 0]))
      = tiltMembers (15 / 100) := by
    norm_num [tiltMembers, Kart.setState, tiltInputs, arrayOf, turned, Kart.mirrorInputs, Kart.iAxle, Kart.iChassis, Kart.iBody, Kart.iRoad, Kart.cSteering, Kart.cTorque]
  have hd : ∀ (c : Kart.Vehicle) (m : Kart.Members) (r : Kart.RoadOut), (Kart.evaluate solve c m r).dstates.getD 7 0
      = (Kart.dvdt c m r.heading).2.2 * r.dtimeds := fun _ _ _ => rfl
  simp only [kartEval, hm, hm', hd, vertical]
  simp only [tilt_front.1, tilt_front.2.1, tilt_front.2.2.1, tilt_front.2.2.2, tilt_rear.1, tilt_rear.2.1, tilt_rear.2.2.1,
    tilt_rear.2.2.2]
  norm_num [Kart.aeroForce, aeroForces, tiltKart, Kart.exKart, Kart.mirrorKart, mirrorCircuit, straightTrack, F1.mirrorTrack,
    F1.exStraight, Kart.roadCurvilinear, Road.update, curvature, toBody, tiltMembers, rotX, rotY, rotZ]

/-! ### Concrete laps -/

section ex
variable {solve : Vec3 × Vec3 × Vec3 → Vec3 → Vec3}

theorem roll_wheels : ∀ _ : ℝ, rollKart.front.susp.betaL = -rollKart.front.susp.betaR := fun _ => rfl

theorem roll_turns (ins : List (Row ℝ)) : Turns (fun _ => rollKart) ins := by
  intro row _ s u
  rw [Kart.det_eulerM]
  norm_num [rollKart, Kart.straightKart]

theorem mirror_roll : mirrorKartLap solve (fun _ => rollKart) true (fun _ => ⟨0, 0, 0⟩) true straightTrack = rollLap solve := by
  have h1 : Kart.mirrorKart rollKart = rollKart := by
    simp [Kart.mirrorKart, rollKart, Kart.straightKart, Kart.exKart, F1.mirrorVec, Kart.mirrorAxle]
  have h2 : mirrorCircuit straightTrack = straightTrack := by
    simp [mirrorCircuit, straightTrack, F1.mirrorTrack, F1.exStraight, F1.mirrorVec]
  simp only [mirrorKartLap, h1, h2, rollLap]

theorem mirror_rollInputs : Kart.mirrorInputs rollInputs = rollInputs := by
  refine funext_below 13 (fun k hk => ?_) (fun k => rfl)
  interval_cases k <;> simp [Kart.mirrorInputs, rollInputs]

theorem mirror_goKart (lb ub row row' : Row ℝ) : mirrorRequestKart (goWithin lb ub 2 row row') =
    goWithin (mirrorBound Kart.mirrorInputs [2, 3, 5, 8, 11, 12] lb ub) (mirrorBound Kart.mirrorInputs [2, 3, 5, 8, 11, 12] ub lb)
      2 (Kart.mirrorInputs row) (Kart.mirrorInputs row') := by
  have h1 : mirrorSteering (List.replicate 2 (createDontOptimize (K := ℝ))) = List.replicate 2 createDontOptimize := by
    simp [mirrorSteering, List.replicate, reverseControl, createDontOptimize]
  have h2 : mirrorBound F1.mirrorControls [0] (fun _ => (-1 : ℝ)) (fun _ => 1) = fun _ => -1 := by
    funext c
    rw [mirrorBound_controls]
    split <;> rfl
  have h3 : mirrorBound F1.mirrorControls [0] (fun _ => (1 : ℝ)) (fun _ => -1) = fun _ => 1 := by
    funext c
    rw [mirrorBound_controls]
    split
    · exact neg_neg _
    · rfl
  simp only [mirrorRequestKart, kartControls_eq, goWithin, h1, h2, h3, List.map_cons, List.map_nil]

theorem kart_within {b o q : Row ℝ} (h : ∀ j, b j ≤ q j ∧ q j ≤ o j) (j : Nat) :
    mirrorBound Kart.mirrorInputs [2, 3, 5, 8, 11, 12] b o j ≤ Kart.mirrorInputs q j ∧
      Kart.mirrorInputs q j ≤ mirrorBound Kart.mirrorInputs [2, 3, 5, 8, 11, 12] o b j := by
  rw [kartBound_act, kartBound_act, kartInputs_act]
  by_cases hj : j < 13
  · interval_cases j
    all_goals first
      | exact h _
      | exact ⟨neg_le_neg (h _).2, neg_le_neg (h _).1⟩
  · obtain ⟨k, rfl⟩ := Nat.exists_eq_add_of_le (not_lt.1 hj)
    rw [Nat.add_comm]
    exact h (k + 13)

/-- 50 m of `rollKart` at 10 m/s, which is the highest speed it is allowed, straight on. -/
theorem roll_best (hs : Kart.Solver solve) (lb ub : Nat → ℝ) (hin : ∀ j, lb j ≤ rollInputs j ∧ rollInputs j ≤ ub j)
    (h1 : 0 < lb 1 ∧ ub 1 = 10) (h12 : lb 12 = 0 ∧ ub 12 = 0) :
    ∃ (p : Problem ℝ) (ini : Initial ℝ) (nlp : Nlp ℝ) (lap : Lap ℝ) (node : Nat → Node ℝ),
    setUp (-10 ^ 9) (10 ^ 9) (rollLap solve) (goWithin lb ub 2 rollInputs rollInputs) = .ok (p, ini, nlp) ∧
    HypermeshCovers p ∧
    solveLap (-10 ^ 9) (10 ^ 9) (rollLap solve) true bestOpt (goWithin lb ub 2 rollInputs rollInputs) = .ok lap ∧
    lap.success = true ∧ EvaluatedNodes (rollLap solve) p ⟨lap.inputs, lap.controls⟩ node := by
  have paceS : kartPace F1.exStraight rollInputs = 1 / 10 := by
    simp only [kartPace, pace]
    norm_num [rollInputs, F1.exStraight]
  refine stay_best (v := rollLap solve) (kart_wf _ _ _ _ _ _) (kart_clockFree _ _ _ _ _ _) (by rw [roll_defaults]; rfl)
    (by norm_num [rollLap, kartVehicle, straightTrack]) rfl List.nodup_nil
    (by norm_num [rollLap, kartVehicle, straightTrack, rollInputs, Kart.iRoad, Kart.iBody, Kart.iChassis, Kart.iAxle])
    hin (roll_constant hs) (fun s k hk => by rw [(roll_ids solve).2] at hk; simp at hk) (roll_extra hs)
    (kartPace F1.exStraight) (fun q u s => ?_) (fun q (z : ∀ j, j < 13 → j ≠ 10 → q j = rollInputs j) => ?_)
    fun q (z : ∀ j, j < 13 → j ≠ 10 → j ≠ 11 → lb j ≤ q j ∧ q j ≤ ub j) => ?_
  · show (1 : ℝ) * (Road.update F1.exStraight (q 11) (q 12) (q 1) (q 2) (q 3)).dtimeds = _
    rw [one_mul, (update_flat ⟨rfl, rfl, rfl, rfl⟩ _ _ _ _ _).1]
    rfl
  · simp only [kartPace, z 1 (by decide) (by decide), z 2 (by decide) (by decide), z 11 (by decide) (by decide),
      z 12 (by decide) (by decide)]
  · have q1 := z 1 (by decide) (by decide) (by decide)
    have q12 := z 12 (by decide) (by decide) (by decide)
    rw [h12.1, h12.2] at q12
    have e12 : q 12 = 0 := le_antisymm q12.2 q12.1
    have pace1 : kartPace F1.exStraight q = 1 / q 1 := by
      simp [kartPace, pace, F1.exStraight, e12]
    rw [paceS, pace1]
    exact one_div_le_one_div_of_le (by linarith [q1.1, h1.1]) (by linarith [q1.2, h1.2])

/-- C248 on the best lap of 50 m of `rollKart` at up to 10 m/s, with lateral velocities to the left only, and on its
mirror image, with lateral velocities to the right only. -/
example (hs : Kart.Solver solve) : ∃ (lb ub : Row ℝ) (p p' : Problem ℝ) (lap lap' : Lap ℝ) (node node' : Nat → Node ℝ),
    lb 2 = -1 ∧ ub 2 = 0 ∧ p.opts.inputsUb 2 = 0 ∧ p'.opts.inputsLb 2 = 0 ∧ p'.opts.inputsUb 2 = 1 ∧
    solveLap (-10 ^ 9) (10 ^ 9) (rollLap solve) true bestOpt (goWithin lb ub 2 rollInputs rollInputs) = .ok lap ∧
    solveLap (-10 ^ 9) (10 ^ 9) (mirrorKartLap solve (fun _ => rollKart) true (fun _ => ⟨0, 0, 0⟩) true straightTrack) true bestOpt
      (mirrorRequestKart (goWithin lb ub 2 rollInputs rollInputs)) = .ok lap' ∧
    lap.success = true ∧ lap'.success = true ∧ lap'.laptime = lap.laptime ∧
    lapDuration (mirrorKartLap solve (fun _ => rollKart) true (fun _ => ⟨0, 0, 0⟩) true straightTrack) p' node'
        + smoothing (mirrorKartLap solve (fun _ => rollKart) true (fun _ => ⟨0, 0, 0⟩) true straightTrack) p' node' lap'.controls
      = lapDuration (rollLap solve) p node + smoothing (rollLap solve) p node lap.controls ∧
    ∃ (pm : Problem ℝ) (nm : Nat → Node ℝ),
      Obeys (mirrorKartLap solve (fun _ => rollKart) true (fun _ => ⟨0, 0, 0⟩) true straightTrack) pm 0 0
        (lap.inputs.map Kart.mirrorInputs) (mirrorSteering lap.controls) nm := by
  obtain ⟨lb, hlb⟩ : ∃ lb : Row ℝ, lb = fun j => if j = 1 then 1 else if j = 2 then -1 else if j = 12 then 0 else -1000 :=
    ⟨_, rfl⟩
  obtain ⟨ub, hub⟩ : ∃ ub : Row ℝ, ub = fun j => if j = 1 then 10 else if j = 2 then 0 else if j = 12 then 0 else 1000 :=
    ⟨_, rfl⟩
  have hin : ∀ j, lb j ≤ rollInputs j ∧ rollInputs j ≤ ub j := by
    intro j
    rw [hlb, hub]
    simp only [rollInputs]
    split_ifs <;> norm_num at * <;> first | omega | (constructor <;> norm_num)
  obtain ⟨p, ini, nlp, lap, node, a1, a2, a3, a4, a5⟩ := roll_best hs lb ub hin (by rw [hlb, hub]; norm_num)
    (by rw [hlb, hub]; norm_num)
  have e1 : ∀ b o : Row ℝ, mirrorBound Kart.mirrorInputs [2, 3, 5, 8, 11, 12] b o 1 = b 1 := fun b o => rfl
  have e2 : ∀ b o : Row ℝ, mirrorBound Kart.mirrorInputs [2, 3, 5, 8, 11, 12] b o 2 = -o 2 := fun b o => rfl
  have e12 : ∀ b o : Row ℝ, mirrorBound Kart.mirrorInputs [2, 3, 5, 8, 11, 12] b o 12 = -o 12 := fun b o => rfl
  have hin' := kart_within hin
  rw [mirror_rollInputs] at hin'
  obtain ⟨p', ini', nlp', lap', node', b1, b2, b3, b4, b5⟩ := roll_best hs _ _ hin' (by rw [e1, e1, hlb, hub]; norm_num)
    (by rw [e12, e12, hlb, hub]; norm_num)
  have hgo := mirror_goKart lb ub rollInputs rollInputs
  rw [mirror_rollInputs] at hgo
  have hwf : (rollLap solve).WellFormed (goWithin lb ub 2 rollInputs rollInputs).controls.length := by
    have : (rollLap solve).WellFormed 2 := kart_wf _ _ _ _ _ _
    simpa [goWithin] using this
  have hcf : ClockFree (rollLap solve) := kart_clockFree _ _ _ _ _ _
  obtain ⟨es, b, hr⟩ := setUp_ready hwf a1 a2
  have ho := (prepare_ok hr.run.prepared).2.opts
  have ho' := (prepare_ok (setUp_ready (by simpa [goWithin] using hwf) b1 b2).choose_spec.choose_spec.run.prepared).2.opts
  refine ⟨lb, ub, p, p', lap, lap', node, node', by rw [hlb]; norm_num, by rw [hub]; norm_num, ?_, ?_, ?_, a3,
    by rw [mirror_roll, hgo]; exact b3, a4, b4, ?_, ?_, ?_⟩
  · rw [ho, hub]; norm_num [goWithin]
  · rw [ho']
    simp only [goWithin, e2]
    rw [hub]; norm_num
  · rw [ho']
    simp only [goWithin, e2]
    rw [hlb]; norm_num
  · refine C248_laptime_partial solve hs (fun _ => rollKart) true (fun _ => ⟨0, 0, 0⟩) true straightTrack roll_wheels (-10 ^ 9)
      (10 ^ 9) (goWithin lb ub 2 rollInputs rollInputs) (by simp [goWithin]) ?_ p ini nlp a1 a2 p' ini' nlp'
      (by rw [mirror_roll, hgo]; exact b1) b2 bestOpt bestOpt_sizes bestOpt_reliable bestOpt_minimises true lap lap' a3 a4
      (by rw [mirror_roll, hgo]; exact b3) b4 (roll_turns _) (roll_turns _)
    intro c hc hk
    rw [List.eq_of_mem_replicate hc] at hk
    simp [createDontOptimize] at hk
  · exact C248_best_partial solve hs (fun _ => rollKart) true (fun _ => ⟨0, 0, 0⟩) true straightTrack roll_wheels (-10 ^ 9)
      (10 ^ 9) (goWithin lb ub 2 rollInputs rollInputs) (by simp [goWithin]) p ini nlp a1 a2 p' ini' nlp'
      (by rw [mirror_roll, hgo]; exact b1) b2 bestOpt bestOpt_sizes bestOpt_reliable bestOpt_minimises true lap lap' a3 a4
      (by rw [mirror_roll, hgo]; exact b3) b4 (roll_turns _) (roll_turns _) node node' a5 (by rw [mirror_roll]; exact b5)
  · obtain ⟨nd, t0, -, -, -, hfit, hn, -⟩ := C190_own_times _ _ (rollLap solve) _ hwf hcf p ini nlp a1 a2 bestOpt bestOpt_sizes
      true lap a3
    have hob := C190_lap_obeys _ _ (rollLap solve) _ hwf hcf p ini nlp a1 a2 bestOpt bestOpt_sizes 0 0 bestOpt_reliable true lap
      a3 a4 nd hn
    obtain ⟨pm, nm, -, -, -, k1, -⟩ := C248_lap_partial solve hs (fun _ => rollKart) true (fun _ => ⟨0, 0, 0⟩) true straightTrack
      roll_wheels (-10 ^ 9) (10 ^ 9) _ p hr.run.prepared 0 0 lap.inputs lap.controls nd hfit hn (roll_turns _) hob
    exact ⟨pm, nm, k1⟩

end ex

end Verif.LapVehicles
