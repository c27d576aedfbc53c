import Verif.Lemmas.LapMirror
import Verif.Props.LapElevated

/-! Property theorems C247: laps on the mirror image of a track. -/

set_option autoImplicit false

namespace Verif.LapVehicles

open Verif.Road Verif.Transcription Verif.Control

/-! ## The F1 car -/

def swapInputs : Nat → Nat
  | 0 => 1 | 1 => 0 | 2 => 3 | 3 => 2 | 7 => 8 | 8 => 7 | 9 => 10 | 10 => 9 | k => k

def reversedInputs : Nat → Bool
  | 5 => true | 6 => true | 12 => true | 13 => true | _ => false

def swapStates : Nat → Nat
  | 0 => 1 | 1 => 0 | 2 => 3 | 3 => 2 | k => k

def reversedStates : Nat → Bool
  | 5 => true | 6 => true | 8 => true | 10 => true | 12 => true | 13 => true | _ => false

def swapExtra : Nat → Nat
  | 0 => 1 | 1 => 0 | 2 => 3 | 3 => 2 | 4 => 5 | 5 => 4 | k => k

def reversedExtra (k : Nat) : Bool := decide (k < 6)

def swapIntegrals : Nat → Nat
  | 1 => 2 | 2 => 1 | 3 => 4 | 4 => 3 | k => k

theorem funext_below {f g : Nat → ℝ} (n : Nat) (h : ∀ k, k < n → f k = g k) (h' : ∀ k, f (k + n) = g (k + n)) : f = g := by
  funext k
  rcases lt_or_ge k n with hk | hk
  · exact h k hk
  · have := h' (k - n)
    rwa [Nat.sub_add_cancel hk] at this

theorem mirrorInputs_act : F1.mirrorInputs = act swapInputs reversedInputs := by
  funext q
  refine funext_below 14 (fun k hk => ?_) (fun k => rfl)
  interval_cases k <;> rfl

theorem mirrorStates_act (l : List ℝ) (hl : l.length = 14) :
    (fun k => (F1.mirrorStates l).getD k 0) = act swapStates reversedStates fun k => l.getD k 0 := by
  obtain ⟨a, b, d, e, vx, vy, om, vz, ro, pi, ba, t, n, al, rfl⟩ :
      ∃ a b d e vx vy om vz ro pi ba t n al, l = [a, b, d, e, vx, vy, om, vz, ro, pi, ba, t, n, al] := by
    rcases l with _ | ⟨x0, _ | ⟨x1, _ | ⟨x2, _ | ⟨x3, _ | ⟨x4, _ | ⟨x5, _ | ⟨x6, _ | ⟨x7, _ | ⟨x8, _ | ⟨x9, _ | ⟨x10, _ | ⟨x11, _ | ⟨x12, _ | ⟨x13, _ | ⟨x14, l⟩⟩⟩⟩⟩⟩⟩⟩⟩⟩⟩⟩⟩⟩⟩ <;>
      simp at hl
    exact ⟨_, _, _, _, _, _, _, _, _, _, _, _, _, _, rfl⟩
  refine funext_below 14 (fun k hk => ?_) (fun k => rfl)
  interval_cases k <;> rfl

theorem mirrorBound_act (b o : Row ℝ) :
    mirrorBound F1.mirrorInputs [5, 6, 12, 13] b o = actBound swapInputs reversedInputs b o := by
  refine funext_below 14 (fun k hk => ?_) (fun k => ?_)
  · interval_cases k <;> rfl
  · have : k + 14 ∉ [5, 6, 12, 13] := by simp
    simp only [mirrorBound, this, if_false]
    rfl

theorem mirrorBound_controls (b o : Row ℝ) (c : Nat) :
    mirrorBound F1.mirrorControls [0] b o c = if c = 0 then -o c else b c := by
  rcases c with _ | c <;> simp [mirrorBound, F1.mirrorControls]

theorem arrayOf_turned (u : List ℝ) : arrayOf (turned u) = F1.mirrorControls (arrayOf u) := by
  funext k
  simp only [arrayOf, turned, List.getD_eq_getElem?_getD, List.getElem?_mapIdx]
  rcases k with _ | k
  · cases h : u[0]? <;> simp [F1.mirrorControls, arrayOf, List.getD_eq_getElem?_getD, h]
  · cases h : u[k + 1]? <;> simp [F1.mirrorControls, arrayOf, List.getD_eq_getElem?_getD, h]

theorem f1_eval_mirror (car : ℝ → F1.Car) (power : ℝ) (t : Circuit) (row : Row ℝ) (u : List ℝ) (s : ℝ) :
    f1Eval (fun s => F1.mirrorCar (car s)) power (mirrorCircuit t) (act swapInputs reversedInputs row) (turned u) s
      = actEqs swapStates swapExtra swapIntegrals reversedStates reversedExtra (f1Eval car power t row u s) := by
  rw [← mirrorInputs_act]
  simp only [f1Eval, arrayOf_turned, mirrorCircuit, F1.setState_mirror, F1.roadCurvilinear_mirror, F1.carUpdate_mirror,
    F1.evaluate_mirror, actEqs]
  simp only [F1.Equations.mirror]
  rw [mirrorStates_act _ rfl, mirrorStates_act _ rfl]
  congr 1
  · refine funext_below 6 (fun k hk => ?_) (fun k => rfl)
    interval_cases k <;>
      simp [act, swapExtra, reversedExtra, F1.extraConstraints, F1.mirrorAxle, F1.mirrorWheel, F1.mirrorMembers,
        F1.mirrorCar] <;> ring
  · refine funext_below 6 (fun k hk => ?_) (fun k => rfl)
    interval_cases k <;>
      simp [swapIntegrals, F1.integrals, F1.mirrorAxle, F1.mirrorWheel, F1.mirrorMembers, F1.mirrorCar, Tyre.dissipation]

theorem f1_symmetry (car : ℝ → F1.Car) (bias0 power : ℝ) (junk : Nat → F1.Limits) (ready ready' : Bool) (t : Circuit) :
    Symmetry (f1Vehicle car bias0 power junk ready t)
      (f1Vehicle (fun s => F1.mirrorCar (car s)) bias0 power junk ready' (mirrorCircuit t))
      swapInputs swapStates swapExtra swapIntegrals reversedInputs reversedStates reversedExtra where
  nInputs := rfl
  iTime := rfl
  sTime := rfl
  nExtra := rfl
  timeIds := rfl
  algIds := rfl
  length := rfl
  left := rfl
  right := rfl
  defaults := by
    intro c d h
    have h' : (f1Vehicle car bias0 power junk ready t).controlsDef[c]? = some d := h
    rw [h']
    split
    · subst c
      have : d = 0 := by
        simpa [f1Vehicle, F1.nControls, F1.controlLimits, F1.written, F1.controlLimitWrites, F1.cBrakeBias, F1.cThrottle,
          F1.cBoost, F1.cSteering] using h.symm
      rw [this, neg_zero]
    · rfl
  rateLb := by
    intro c l h
    rcases c with _ | c
    · simp only [f1Vehicle, F1.rateBounds, if_true] at h ⊢
      simp at h ⊢
      linarith
    · rw [if_neg (Nat.succ_ne_zero c)]
      exact h
  rateUb := by
    intro c l h
    rcases c with _ | c
    · simp only [f1Vehicle, F1.rateBounds, if_true] at h ⊢
      simp at h ⊢
      linarith
    · rw [if_neg (Nat.succ_ne_zero c)]
      exact h
  lateral := ⟨rfl, rfl⟩
  others := by
    intro j hj h1 h2
    have hj : j < 14 := hj
    have h1 : j ≠ 11 := h1
    have h2 : j ≠ 12 := h2
    show swapInputs j < 14 ∧ swapInputs j ≠ 11 ∧ swapInputs j ≠ 12
    interval_cases j <;> simp_all [swapInputs]
  time := ⟨rfl, rfl⟩
  timeClosed := by
    show ∀ q ∈ (idsOf (F1.classify t.elevated)).1, swapStates q ∈ (idsOf (F1.classify t.elevated)).1
    cases t.elevated <;> decide
  algClosed := by
    show ∀ q ∈ (idsOf (F1.classify t.elevated)).2, swapStates q ∈ (idsOf (F1.classify t.elevated)).2
    cases t.elevated <;> decide
  extraClosed := by
    show ∀ k, k < 6 → swapExtra k < 6
    decide
  extraLb := by
    intro s k hk
    have hk : k < 6 := hk
    interval_cases k <;> rfl
  extraUb := by
    intro s k hk
    have hk : k < 6 := hk
    interval_cases k <;> simp [f1Vehicle, F1.extraBounds, actBound, swapExtra, reversedExtra, mirrorCircuit, F1.mirrorCar]

theorem f1_names_mirror : ∀ k nm, (F1.integralNames.map String.toList)[k]? = some nm →
    (F1.integralNames.map String.toList)[swapIntegrals k]? = some (mirrorName nm) := by
  intro k nm h
  have hk : k < 6 := (List.getElem?_eq_some_iff.1 h).1
  interval_cases k <;> (obtain rfl := Option.some.inj h; decide)

theorem mirrorName_invol (n : Transcription.Name) : mirrorName (mirrorName n) = n := by
  unfold mirrorName
  by_cases h1 : n = "tire-fl-energy".toList
  · subst h1; decide
  by_cases h2 : n = "tire-fr-energy".toList
  · subst h2; decide
  by_cases h3 : n = "tire-rl-energy".toList
  · subst h3; decide
  by_cases h4 : n = "tire-rr-energy".toList
  · subst h4; decide
  simp only [h1, h2, h3, h4, if_false]

theorem lastRequest_mirror (nm : Transcription.Name) (rs : List (Transcription.Name × ℝ × ℝ)) :
    (lastRequest nm (rs.map fun q => (mirrorName q.1, q.2))).map Prod.snd = (lastRequest (mirrorName nm) rs).map Prod.snd := by
  unfold lastRequest
  rw [← List.map_reverse, List.find?_map, Option.map_map]
  have e : (fun r : Transcription.Name × ℝ × ℝ => decide (r.1 = nm)) ∘ (fun q : Transcription.Name × ℝ × ℝ => (mirrorName q.1, q.2))
      = fun r : Transcription.Name × ℝ × ℝ => decide (r.1 = mirrorName nm) := by
    funext r
    simp only [Function.comp_apply, decide_eq_decide]
    exact ⟨fun h => by rw [← h, mirrorName_invol], fun h => by rw [h, mirrorName_invol]⟩
  rw [e]
  rfl

theorem meaningful_mirror (cs : List (CV ℝ)) :
    (mirrorSteering cs).map meaningful = mirrorSteering (cs.map meaningful) := by
  refine List.ext_getElem? fun i => ?_
  simp only [mirrorSteering, List.getElem?_map, List.getElem?_mapIdx, Option.map_map]
  congr 1
  funext c
  simp only [Function.comp_apply]
  split <;> rfl

theorem f1_problem {car car' : ℝ → F1.Car} {bias0 power : ℝ} {junk : Nat → F1.Limits} {ready ready' : Bool} {t t' : Circuit}
    {lowest max : ℝ} {r : Request ℝ} {p p' : Problem ℝ}
    (h : prepare lowest max (f1Vehicle car bias0 power junk ready t) r = .ok p)
    (h' : prepare lowest max (f1Vehicle car' bias0 power junk ready' t') (mirrorRequestF1 r) = .ok p') :
    MirrorProblem p p' swapInputs swapIntegrals reversedInputs := by
  obtain ⟨-, a⟩ := prepare_ok h
  obtain ⟨-, a'⟩ := prepare_ok h'
  have hnd : (F1.integralNames.map String.toList).Nodup := by decide
  refine ⟨?_, ?_, ?_, ?_, ?_, ?_, ?_, ?_, ?_, ?_, ?_, ?_⟩
  · rw [a.s, a'.s]; rfl
  · rw [a.isClosed, a'.isClosed]; rfl
  · rw [a.isDirect, a'.isDirect]; rfl
  · rw [a.nPoints, a'.nPoints]; rfl
  · rw [a.nElements, a'.nElements]; rfl
  · rw [a.controls, a'.controls]; exact meaningful_mirror _
  · intro k q hq
    have hk : k < (F1.integralNames.map String.toList).length := by
      have := (List.getElem?_eq_some_iff.1 hq).1
      rw [a'.nQuantities] at this
      exact this
    have e1 := a'.quantities hnd k _ (List.getElem?_eq_getElem hk)
    have e2 := a.quantities hnd (swapIntegrals k) _ (f1_names_mirror k _ (List.getElem?_eq_getElem hk))
    rw [hq] at e1
    rw [e2, e1]
    have := lastRequest_mirror (F1.integralNames.map String.toList)[k] r.opts.integral
    simp only [mirrorRequestF1]
    cases h1 : lastRequest (F1.integralNames.map String.toList)[k] (r.opts.integral.map fun q => (mirrorName q.1, q.2)) <;>
      cases h2 : lastRequest (mirrorName (F1.integralNames.map String.toList)[k]) r.opts.integral <;>
        simp only [h1, h2, Option.map_none, Option.map_some, reduceCtorEq, Option.some.injEq] at this ⊢
    rename_i x y
    obtain ⟨x1, x2, x3⟩ := x
    obtain ⟨y1, y2, y3⟩ := y
    simp only [Prod.mk.injEq] at this
    obtain ⟨rfl, rfl⟩ := this
    rfl
  · rw [a.opts, a'.opts]; exact mirrorBound_act _ _
  · rw [a.opts, a'.opts]; exact mirrorBound_act _ _
  · intro c; rw [a.opts, a'.opts]; exact mirrorBound_controls _ _ c
  · intro c; rw [a.opts, a'.opts]; exact mirrorBound_controls _ _ c
  · rw [a.opts, a'.opts]; rfl

theorem consistent_reverse {c : CV ℝ} (h : Consistent c) : Consistent (reverseControl c) := by
  cases h with
  | dontOptimize k h1 h2 h3 => exact .dontOptimize k h1 (by simp [reverseControl, h2]) (by simp [reverseControl, h3])
  | constant k h1 h2 h3 => exact .constant k h1 (by simp [reverseControl, h2]) (by simp [reverseControl, h3])
  | hypermesh k h1 h3 => exact .hypermesh k (by simpa [reverseControl] using h1) (by simp [reverseControl, h3])
  | fullMesh k h1 h2 h3 => exact .fullMesh k h1 (by simpa [reverseControl] using h2) h3

theorem acceptable_mirror (car car' : ℝ → F1.Car) (bias0 power : ℝ) (junk : Nat → F1.Limits) (ready : Bool) (t : Circuit)
    {r : Request ℝ} (h : Acceptable (f1Vehicle car bias0 power junk ready t) r) :
    Acceptable (f1Vehicle car' bias0 power junk ready (mirrorCircuit t)) (mirrorRequestF1 r) := by
  have hmem : ∀ c ∈ mirrorSteering r.controls, ∃ d ∈ r.controls, c = d ∨ c = reverseControl d := by
    intro c hc
    obtain ⟨k, hk⟩ := List.getElem?_of_mem hc
    obtain ⟨d, hd, rfl⟩ := steering_getElem? _ _ _ hk
    refine ⟨d, List.mem_of_getElem? hd, ?_⟩
    split
    · exact Or.inr rfl
    · exact Or.inl rfl
  refine ⟨h.two, h.closedEnds, h.openEnds, ?_, ?_, ?_, ?_, h.ready⟩
  · simpa [mirrorRequestF1] using h.inputs
  · intro c hc
    obtain ⟨d, hd, rfl | rfl⟩ := hmem c hc
    · exact h.consistent _ hd
    · exact consistent_reverse (h.consistent _ hd)
  · intro c hc hk
    obtain ⟨d, hd, rfl | rfl⟩ := hmem c hc
    · exact h.full _ hd hk
    · obtain ⟨h1, h2⟩ := h.full _ hd hk
      exact ⟨(List.length_map _).trans h1, (List.length_map _).trans h2⟩
  · intro q hq
    obtain ⟨x, hx, rfl⟩ := List.mem_map.1 hq
    obtain ⟨k, hk⟩ := List.getElem?_of_mem (h.names x hx)
    have h5 : k < 6 := (List.getElem?_eq_some_iff.1 hk).1
    have hnm : (f1Vehicle car' bias0 power junk ready (mirrorCircuit t)).integralNames = F1.integralNames.map String.toList := rfl
    have := f1_names_mirror k x.1 hk
    rw [hnm]
    exact List.mem_of_getElem? this

/-- C247: the mirror image of a lap of an F1 car that obeys the equations of motion and all limits obeys them for the
mirror image of the car on the mirror image of the track, and takes the same time. -/
theorem C247_lap (car : ℝ → F1.Car) (bias0 power : ℝ) (junk : Nat → F1.Limits) (ready : Bool) (t : Circuit)
    (lowest max : ℝ) (r : Request ℝ) (p : Problem ℝ)
    (hp : prepare lowest max (f1Vehicle car bias0 power junk ready t) r = .ok p)
    (tolB tolC : ℝ) (ins : List (Row ℝ)) (ctrls : List (CV ℝ)) (node : Nat → Node ℝ) (hfit : FitsProblem p ⟨ins, ctrls⟩)
    (hnode : EvaluatedNodes (f1Vehicle car bias0 power junk ready t) p ⟨ins, ctrls⟩ node)
    (hob : Obeys (f1Vehicle car bias0 power junk ready t) p tolB tolC ins ctrls node) :
    let v := f1Vehicle car bias0 power junk ready t
    let v' := f1Vehicle (fun s => F1.mirrorCar (car s)) bias0 power junk ready (mirrorCircuit t)
    let ins' := ins.map F1.mirrorInputs
    let ctrls' := mirrorSteering ctrls
    ∃ p' node', prepare lowest max v' (mirrorRequestF1 r) = .ok p' ∧
      FitsProblem p' ⟨ins', ctrls'⟩ ∧ EvaluatedNodes v' p' ⟨ins', ctrls'⟩ node' ∧
      Obeys v' p' tolB tolC ins' ctrls' node' ∧ lapDuration v' p' node' = lapDuration v p node ∧
      smoothing v' p' node' ctrls' = smoothing v p node ctrls := by
  intro v v' ins' ctrls'
  obtain ⟨p', hp', -⟩ := prepare_accepted lowest max v' (mirrorRequestF1 r)
    (acceptable_mirror car _ bias0 power junk ready t (prepare_ok hp).1)
  have S := f1_symmetry car bias0 power junk ready ready t
  have P := f1_problem hp hp'
  simp only [ins', ctrls', mirrorInputs_act]
  exact ⟨p', _, hp', fits_mirror P hfit, nodes_mirror S P (fun row u s _ => f1_eval_mirror car power t row u s) hnode, obeys_mirror S P hob,
    duration_mirror S P, smoothing_mirror S P⟩

/-! ### The mirror image of the mirror image -/

theorem act_act {pi : Nat → Nat} {eps : Nat → Bool} (hp : ∀ k, pi (pi k) = k) (he : ∀ k, eps (pi k) = eps k) (x : Row ℝ) :
    act pi eps (act pi eps x) = x := by
  funext k
  simp only [act, hp, he]
  cases eps k <;> simp

theorem mirrorInputs_twice (q : Row ℝ) : F1.mirrorInputs (F1.mirrorInputs q) = q := by
  refine funext_below 14 (fun k hk => ?_) (fun k => rfl)
  interval_cases k <;> first | rfl | exact neg_neg _

theorem mirrorCar_twice (c : F1.Car) : F1.mirrorCar (F1.mirrorCar c) = c := by
  simp [F1.mirrorCar, F1.mirrorVec]

theorem mirrorCircuit_twice (t : Circuit) : mirrorCircuit (mirrorCircuit t) = t := by
  simp [mirrorCircuit, F1.mirrorTrack, F1.mirrorVec]

theorem reverseControl_twice (c : CV ℝ) : reverseControl (reverseControl c) = c := by
  simp [reverseControl]

theorem mirrorSteering_twice (cs : List (CV ℝ)) : mirrorSteering (mirrorSteering cs) = cs := by
  refine List.ext_getElem? fun i => ?_
  simp only [mirrorSteering, List.getElem?_mapIdx, Option.map_map]
  cases cs[i]? with
  | none => rfl
  | some c =>
    simp only [Option.map_some, Function.comp_apply]
    split
    · rw [reverseControl_twice]
    · rfl

theorem mirrorBound_twice (b o : Row ℝ) :
    mirrorBound F1.mirrorInputs [5, 6, 12, 13] (mirrorBound F1.mirrorInputs [5, 6, 12, 13] b o)
      (mirrorBound F1.mirrorInputs [5, 6, 12, 13] o b) = b := by
  simp only [mirrorBound_act]
  refine funext_below 14 (fun k hk => ?_) (fun k => rfl)
  interval_cases k <;> first | rfl | exact neg_neg _

theorem mirrorBound_controls_twice (b o : Row ℝ) :
    mirrorBound F1.mirrorControls [0] (mirrorBound F1.mirrorControls [0] b o) (mirrorBound F1.mirrorControls [0] o b) = b := by
  funext c
  simp only [mirrorBound_controls]
  split <;> simp

theorem mirrorRequestF1_twice (r : Request ℝ) : mirrorRequestF1 (mirrorRequestF1 r) = r := by
  simp only [mirrorRequestF1, mirrorBound_twice, mirrorBound_controls_twice, mirrorSteering_twice, List.map_map]
  have e1 : F1.mirrorInputs ∘ F1.mirrorInputs = id := funext mirrorInputs_twice
  have e2 : (fun q : Transcription.Name × ℝ × ℝ => (mirrorName q.1, q.2)) ∘ (fun q => (mirrorName q.1, q.2)) = id := by
    funext q
    simp [mirrorName_invol]
  rw [e1, e2, List.map_id, List.map_id]

/-! ### The best laps -/

theorem sameStart_mirror {v v' : Vehicle ℝ} {pq ps px pi : Nat → Nat} {eq es ex : Nat → Bool} {p p' : Problem ℝ}
    {ins : List (Row ℝ)} {ctrls : List (CV ℝ)} (S : Symmetry v v' pq ps px pi eq es ex) (P : MirrorProblem p p' pq pi eq)
    (hi : p'.inputs = p.inputs.map (act pq eq)) (h : SameStart v p ins ctrls) :
    SameStart v' p' (ins.map (act pq eq)) (mirrorSteering ctrls) := by
  refine ⟨fun row row' h1 h2 j hj ht => ?_, fun c cv cv' h1 h2 hk => ?_⟩
  · rw [hi] at h2
    simp only [List.getElem?_map, Option.map_eq_some_iff] at h1 h2
    obtain ⟨a, ha, rfl⟩ := h1
    obtain ⟨b, hb, rfl⟩ := h2
    rw [S.nInputs] at hj
    rw [S.iTime] at ht
    have : pq j < v.nInputs ∧ pq j ≠ v.iTime := by
      by_cases hl : j = v.iTime + 1
      · rw [hl, S.lateral.1]
        exact ⟨hl ▸ hj, by omega⟩
      · exact ⟨(S.others j hj ht hl).1, (S.others j hj ht hl).2.1⟩
    simp only [act, h.1 a b ha hb (pq j) this.1 this.2]
  · rw [P.controls] at h2
    obtain ⟨d, hd, rfl⟩ := steering_getElem? _ _ _ h1
    obtain ⟨d', hd', rfl⟩ := steering_getElem? _ _ _ h2
    have hk' : d'.kind = .fullMesh := by
      split at hk
      · exact hk
      · exact hk
    obtain ⟨e1, e2⟩ := h.2 c d d' hd hd' hk'
    split
    · simp [reverseControl, e1, e2]
    · exact ⟨e1, e2⟩

section
variable (car : ℝ → F1.Car) (bias0 power : ℝ) (junk : Nat → F1.Limits) (ready : Bool) (t : Circuit)

/-- The mirror image of the vehicle on the mirror image of its track. -/
noncomputable def mirrorF1 : Transcription.Vehicle ℝ :=
  f1Vehicle (fun s => F1.mirrorCar (car s)) bias0 power junk ready (mirrorCircuit t)

/-- The best lap on the mirror image is no slower. -/
theorem mirror_no_slower (lowest max : ℝ) (r : Request ℝ) (h4 : r.controls.length = 4)
    (p : Problem ℝ) (ini : Initial ℝ) (nlp : Nlp ℝ)
    (hset : setUp lowest max (f1Vehicle car bias0 power junk ready t) r = .ok (p, ini, nlp)) (hcov : HypermeshCovers p)
    (p' : Problem ℝ) (ini' : Initial ℝ) (nlp' : Nlp ℝ)
    (hset' : setUp lowest max (mirrorF1 car bias0 power junk ready t) (mirrorRequestF1 r) = .ok (p', ini', nlp'))
    (hcov' : HypermeshCovers p') (opt : Optimiser ℝ) (hopt : RightSizes opt) (hrel : Reliable 0 0 opt)
    (hmin : Minimises opt) (tf : Bool) (lap lap' : Lap ℝ)
    (hlap : solveLap lowest max (f1Vehicle car bias0 power junk ready t) tf opt r = .ok lap) (hsuc : lap.success = true)
    (hlap' : solveLap lowest max (mirrorF1 car bias0 power junk ready t) tf opt (mirrorRequestF1 r) = .ok lap')
    (hsuc' : lap'.success = true) (node node' : Nat → Node ℝ)
    (hnode : EvaluatedNodes (f1Vehicle car bias0 power junk ready t) p ⟨lap.inputs, lap.controls⟩ node)
    (hnode' : EvaluatedNodes (mirrorF1 car bias0 power junk ready t) p' ⟨lap'.inputs, lap'.controls⟩ node') :
    lapDuration (mirrorF1 car bias0 power junk ready t) p' node'
        + smoothing (mirrorF1 car bias0 power junk ready t) p' node' lap'.controls
      ≤ lapDuration (f1Vehicle car bias0 power junk ready t) p node
        + smoothing (f1Vehicle car bias0 power junk ready t) p node lap.controls := by
  have hv : (f1Vehicle car bias0 power junk ready t).WellFormed r.controls.length := h4 ▸ f1_wf car bias0 power junk ready t
  have h4' : (mirrorRequestF1 r).controls.length = 4 := by simpa [mirrorRequestF1, mirrorSteering] using h4
  have hv' : (mirrorF1 car bias0 power junk ready t).WellFormed (mirrorRequestF1 r).controls.length :=
    h4' ▸ f1_wf _ bias0 power junk ready _
  have hcf := f1_clockFree car bias0 power junk ready t
  have hcf' : ClockFree (mirrorF1 car bias0 power junk ready t) := f1_clockFree _ bias0 power junk ready _
  obtain ⟨es, b, h⟩ := setUp_ready hv hset hcov
  obtain ⟨es', b', h'⟩ := setUp_ready hv' hset' hcov'
  have hob := C190_lap_obeys lowest max _ r hv hcf p ini nlp hset hcov opt hopt 0 0 hrel tf lap hlap hsuc node hnode
  obtain ⟨nd, t0, -, -, -, hfit, -, -, -, -, -, -, hstart⟩ := C190_own_times lowest max _ r hv hcf p ini nlp hset hcov opt hopt
    tf lap hlap
  have S := f1_symmetry car bias0 power junk ready ready t
  have P := f1_problem h.run.prepared h'.run.prepared
  have hin : p'.inputs = p.inputs.map (act swapInputs reversedInputs) := by
    rw [(prepare_ok h'.run.prepared).2.inputs, (prepare_ok h.run.prepared).2.inputs, ← mirrorInputs_act]
    rfl
  have := C191_no_better_lap lowest max _ _ hv' hcf' p' ini' nlp' hset' hcov' opt hopt hmin tf lap' hlap' hsuc' node' hnode'
    _ _ _ (fits_mirror P hfit) (nodes_mirror S P (fun row u s _ => f1_eval_mirror car power t row u s) hnode) (obeys_mirror S P hob)
    (fun hc => sameStart_mirror S P hin (hstart hc).1)
  refine this.trans_eq ?_
  congr 1
  · exact duration_mirror S P
  · exact smoothing_mirror S P

/-- C247: with an optimiser that finds the best lap, the best laps of an F1 car and of its mirror image on the mirror
image of the track take the same time (plus smoothing penalty). -/
theorem C247_best (lowest max : ℝ) (r : Request ℝ) (h4 : r.controls.length = 4)
    (p : Problem ℝ) (ini : Initial ℝ) (nlp : Nlp ℝ)
    (hset : setUp lowest max (f1Vehicle car bias0 power junk ready t) r = .ok (p, ini, nlp)) (hcov : HypermeshCovers p)
    (p' : Problem ℝ) (ini' : Initial ℝ) (nlp' : Nlp ℝ)
    (hset' : setUp lowest max (mirrorF1 car bias0 power junk ready t) (mirrorRequestF1 r) = .ok (p', ini', nlp'))
    (hcov' : HypermeshCovers p') (opt : Optimiser ℝ) (hopt : RightSizes opt) (hrel : Reliable 0 0 opt)
    (hmin : Minimises opt) (tf : Bool) (lap lap' : Lap ℝ)
    (hlap : solveLap lowest max (f1Vehicle car bias0 power junk ready t) tf opt r = .ok lap) (hsuc : lap.success = true)
    (hlap' : solveLap lowest max (mirrorF1 car bias0 power junk ready t) tf opt (mirrorRequestF1 r) = .ok lap')
    (hsuc' : lap'.success = true) (node node' : Nat → Node ℝ)
    (hnode : EvaluatedNodes (f1Vehicle car bias0 power junk ready t) p ⟨lap.inputs, lap.controls⟩ node)
    (hnode' : EvaluatedNodes (mirrorF1 car bias0 power junk ready t) p' ⟨lap'.inputs, lap'.controls⟩ node') :
    lapDuration (mirrorF1 car bias0 power junk ready t) p' node'
        + smoothing (mirrorF1 car bias0 power junk ready t) p' node' lap'.controls
      = lapDuration (f1Vehicle car bias0 power junk ready t) p node
        + smoothing (f1Vehicle car bias0 power junk ready t) p node lap.controls := by
  refine le_antisymm (mirror_no_slower car bias0 power junk ready t lowest max r h4 p ini nlp hset hcov p' ini' nlp' hset'
    hcov' opt hopt hrel hmin tf lap lap' hlap hsuc hlap' hsuc' node node' hnode hnode') ?_
  have e : mirrorF1 (fun s => F1.mirrorCar (car s)) bias0 power junk ready (mirrorCircuit t)
      = f1Vehicle car bias0 power junk ready t := by
    simp only [mirrorF1, mirrorCar_twice, mirrorCircuit_twice]
  have := mirror_no_slower (fun s => F1.mirrorCar (car s)) bias0 power junk ready (mirrorCircuit t) lowest max
    (mirrorRequestF1 r) (by simpa [mirrorRequestF1, mirrorSteering] using h4) p' ini' nlp' hset' hcov' p ini nlp
    (by rw [e, mirrorRequestF1_twice]; exact hset) hcov opt hopt hrel hmin tf lap' lap hlap' hsuc'
    (by rw [e, mirrorRequestF1_twice]; exact hlap) hsuc node' node hnode' (by rw [e]; exact hnode)
  rw [e] at this
  exact this

/-- Without dissipation there is no smoothing penalty. -/
theorem smoothing_none {lowest max : ℝ} {v : Transcription.Vehicle ℝ} {r : Request ℝ} {p : Problem ℝ}
    (hp : prepare lowest max v r = .ok p) (hdiss : ∀ c ∈ r.controls, c.kind = .fullMesh → c.dissipation = 0)
    {ins : List (Row ℝ)} {cs : List (CV ℝ)} (hf : FitsProblem p ⟨ins, cs⟩) (nd : Nat → Node ℝ) : smoothing v p nd cs = 0 := by
  have hz : ∀ c ∈ cs, c.kind = .fullMesh → c.dissipation = 0 := by
    intro c hc hk
    obtain ⟨d, hd, hfr⟩ := hf.mem (cv' := c) hc
    rw [(prepare_ok hp).2.controls] at hd
    obtain ⟨d', hd', rfl⟩ := List.mem_map.1 hd
    have hk' : d'.kind = .fullMesh := hfr.kind.symm.trans hk
    rw [hfr.diss]
    simp [meaningful, hk', hdiss d' hd' hk']
  have sum0 : ∀ g : CV ℝ → ℝ, (∀ c ∈ cs, c.kind = .fullMesh → g c = 0) → overFullMesh g cs = 0 := by
    intro g hg
    unfold overFullMesh
    apply List.sum_eq_zero
    intro a ha
    obtain ⟨c, hc, rfl⟩ := List.mem_map.1 ha
    rw [List.mem_filter] at hc
    exact hg c hc.1 (by simpa using hc.2)
  unfold smoothing
  split
  · exact sum0 _ (fun c hc hk => by simp [slopePenalty, hz c hc hk])
  · exact sum0 _ (fun c hc hk => by simp [codedRatePenalty, hz c hc hk])

/-- C247: without dissipation, with an optimiser that finds the best lap, the two lap times are the same. -/
theorem C247_laptime (lowest max : ℝ) (r : Request ℝ) (h4 : r.controls.length = 4)
    (hdiss : ∀ c ∈ r.controls, c.kind = .fullMesh → c.dissipation = 0)
    (p : Problem ℝ) (ini : Initial ℝ) (nlp : Nlp ℝ)
    (hset : setUp lowest max (f1Vehicle car bias0 power junk ready t) r = .ok (p, ini, nlp)) (hcov : HypermeshCovers p)
    (p' : Problem ℝ) (ini' : Initial ℝ) (nlp' : Nlp ℝ)
    (hset' : setUp lowest max (mirrorF1 car bias0 power junk ready t) (mirrorRequestF1 r) = .ok (p', ini', nlp'))
    (hcov' : HypermeshCovers p') (opt : Optimiser ℝ) (hopt : RightSizes opt) (hrel : Reliable 0 0 opt)
    (hmin : Minimises opt) (tf : Bool) (lap lap' : Lap ℝ)
    (hlap : solveLap lowest max (f1Vehicle car bias0 power junk ready t) tf opt r = .ok lap) (hsuc : lap.success = true)
    (hlap' : solveLap lowest max (mirrorF1 car bias0 power junk ready t) tf opt (mirrorRequestF1 r) = .ok lap')
    (hsuc' : lap'.success = true) : lap'.laptime = lap.laptime := by
  have hv : (f1Vehicle car bias0 power junk ready t).WellFormed r.controls.length := h4 ▸ f1_wf car bias0 power junk ready t
  have h4' : (mirrorRequestF1 r).controls.length = 4 := by simpa [mirrorRequestF1, mirrorSteering] using h4
  have hv' : (mirrorF1 car bias0 power junk ready t).WellFormed (mirrorRequestF1 r).controls.length :=
    h4' ▸ f1_wf _ bias0 power junk ready _
  have hcf := f1_clockFree car bias0 power junk ready t
  have hcf' : ClockFree (mirrorF1 car bias0 power junk ready t) := f1_clockFree _ bias0 power junk ready _
  obtain ⟨es, b, h⟩ := setUp_ready hv hset hcov
  obtain ⟨es', b', h'⟩ := setUp_ready hv' hset' hcov'
  have hdiss' : ∀ c ∈ (mirrorRequestF1 r).controls, c.kind = .fullMesh → c.dissipation = 0 := by
    intro c hc hk
    obtain ⟨k, hk'⟩ := List.getElem?_of_mem hc
    obtain ⟨d, hd, rfl⟩ := steering_getElem? _ _ _ hk'
    split at hk
    · rename_i h0
      rw [if_pos h0]
      exact hdiss d (List.mem_of_getElem? hd) hk
    · rename_i h0
      rw [if_neg h0]
      exact hdiss d (List.mem_of_getElem? hd) hk
  obtain ⟨nd, t0, -, -, -, hfit, hn, -, ht, -, -, hc0, ho0⟩ := C190_own_times lowest max _ r hv hcf p ini nlp hset hcov opt hopt
    tf lap hlap
  obtain ⟨nd', t0', -, -, -, hfit', hn', -, ht', -, -, hc0', ho0'⟩ := C190_own_times lowest max _ _ hv' hcf' p' ini' nlp' hset'
    hcov' opt hopt tf lap' hlap'
  have := C247_best car bias0 power junk ready t lowest max r h4 p ini nlp hset hcov p' ini' nlp' hset' hcov' opt hopt hrel hmin
    tf lap lap' hlap hsuc hlap' hsuc' nd nd' hn hn'
  rw [smoothing_none h.run.prepared hdiss hfit, smoothing_none h'.run.prepared hdiss' hfit', add_zero, add_zero] at this
  rw [ht, ht', this]
  congr 1
  cases hcl : r.isClosed with
  | true => rw [hc0 hcl, hc0' hcl]
  | false =>
    have hlen := (prepare_ok h.run.prepared).1.inputs
    have h2 := (prepare_ok h.run.prepared).1.two
    obtain ⟨row, hrow⟩ : ∃ row, r.inputs[0]? = some row := ⟨_, List.getElem?_eq_getElem (by omega)⟩
    rw [(ho0 hcl).2 row hrow, (ho0' hcl).2 (F1.mirrorInputs row) (by simp [mirrorRequestF1, hrow])]
    rfl

end

/-! ### Concrete laps -/

section ex

/-- An optimiser that returns the starting point, and claims success when that is a feasible minimum. -/
noncomputable def bestOpt : Optimiser ℝ := fun nlp =>
  { success := @decide ((∀ cost c, nlp.value nlp.start = .ok (cost :: c) →
        Transcription.Within 0 nlp.start nlp.bounds ∧ Transcription.Within 0 c nlp.conBounds) ∧
      ∀ cost c y cost' c', nlp.value nlp.start = .ok (cost :: c) → y.length = nlp.start.length →
        Transcription.Within 0 y nlp.bounds → nlp.value y = .ok (cost' :: c') → Transcription.Within 0 c' nlp.conBounds →
        cost ≤ cost')
      (Classical.propDecidable _)
    x := nlp.start, zl := nlp.start, zu := nlp.start, lambda := nlp.conBounds.map fun _ => 2, visited := [nlp.start] }

theorem bestOpt_sizes : RightSizes bestOpt :=
  ⟨fun _ => rfl, fun _ => rfl, fun _ => rfl, fun _ => by simp [bestOpt], fun nlp y hy => by
    simp only [bestOpt, List.mem_cons, List.not_mem_nil, or_false] at hy
    rw [hy]⟩

theorem bestOpt_reliable : Reliable 0 0 bestOpt := fun _ cost c hs hv =>
  ((@decide_eq_true_iff _ (Classical.propDecidable _)).1 hs).1 cost c hv

theorem bestOpt_minimises : Transcription.Minimises bestOpt := fun _ cost c y cost' c' hs hv h1 h2 h3 h4 =>
  ((@decide_eq_true_iff _ (Classical.propDecidable _)).1 hs).2 cost c y cost' c' hv h1 h2 h3 h4

/-- It converges when the requested lap obeys and is the best. -/
theorem bestOpt_success {v : Transcription.Vehicle ℝ} {lowest max : ℝ} {r : Request ℝ} (hv : v.WellFormed r.controls.length)
    (hcf : ClockFree v) {p : Problem ℝ} {ini : Initial ℝ} {nlp : Nlp ℝ} (hset : setUp lowest max v r = .ok (p, ini, nlp))
    (hcov : HypermeshCovers p) (hobeys : ∀ node, EvaluatedNodes v p ⟨p.inputs, p.controls⟩ node →
      Obeys v p 0 0 p.inputs p.controls node)
    (hbest : ∀ ins ctrls node node0, FitsProblem p ⟨ins, ctrls⟩ → EvaluatedNodes v p ⟨ins, ctrls⟩ node →
      Obeys v p 0 0 ins ctrls node → (p.isClosed = false → SameStart v p ins ctrls) →
      EvaluatedNodes v p ⟨p.inputs, p.controls⟩ node0 →
      lapDuration v p node0 + smoothing v p node0 p.controls ≤ lapDuration v p node + smoothing v p node ctrls) :
    (bestOpt nlp).success = true := by
  obtain ⟨es, b, h⟩ := setUp_ready hv hset hcov
  have hsh := h.run.shape
  have hf := fits_self hsh
  obtain ⟨node, hn⟩ := h.run.nodes hf
  have hst : nlp.start = es.map Entry.start := by rw [h.nlp]; rfl
  have hlen : nlp.start.length = nVariables v p := h.start.1
  have hh : Holds v p p.inputs p.controls nlp.start := by rw [hst]; exact h.layout.holds hsh
  obtain ⟨su, l1, l2, l3, l4⟩ := h.run.load_lap hf (fun _ => sameStart_self v p) hlen hh
  have hl : su.inputs.length = p.inputs.length := l2.fits.inputs.trans hf.inputs.symm
  obtain ⟨f, g1, g2⟩ := evaluated_reclock hcf hl l4 hn
  rw [← l3] at g1
  obtain ⟨c0, m1, m2⟩ := h.run.value_at l1 l2.fits g1
  have hvalue : nlp.value = fun x => (fgOf v p ini (initialLoaded p) x).map Prod.fst := by rw [h.nlp]; rfl
  have hval : nlp.value nlp.start =
      .ok ((lapDuration v p (reclock node f) + smoothing v p (reclock node f) su.controls) :: c0) := by
    rw [hvalue]
    simp only [m1]
    rfl
  have hstay := (@decide_eq_true_iff _ (Classical.propDecidable _)).1 (stayOpt_success hv hcf hset hcov hobeys)
  refine (@decide_eq_true_iff _ (Classical.propDecidable _)).2 ⟨hstay, ?_⟩
  intro cost c y cost' c' hc hy hw hc' hw'
  rw [hval] at hc
  obtain ⟨rfl, rfl⟩ := List.cons.inj (Res.ok.inj hc)
  obtain ⟨sy, k1, k2, k3⟩ := h.run.load_fresh (fresh_initial v p) (hy.trans hlen)
  obtain ⟨nd, hnd⟩ := h.run.nodes k2.fits
  obtain ⟨c1, j1, j2⟩ := h.run.value_at k1 k2.fits hnd
  rw [hvalue] at hc'
  simp only [j1] at hc'
  obtain ⟨rfl, rfl⟩ := List.cons.inj (Res.ok.inj hc')
  have hob := obeys_of_within h.run.wf.lateral hsh h.layout h.bounds k2.fits k2.holds j2
    (by rw [h.nlp] at hw; exact hw) (by rw [h.nlp] at hw'; exact hw')
  have := hbest sy.inputs sy.controls nd node k2.fits hnd hob ?_ hn
  · rw [l3]
    exact this
  · intro hcl
    obtain ⟨i1, i2⟩ := h.run.initial_spec
    refine ⟨?_, ?_⟩
    · intro row row' hr hr' j hj ht
      rw [k2.firstInputs hcl] at hr
      rw [i1] at hr'
      rw [← Option.some.inj hr, ← Option.some.inj hr']
    · intro c cv cv' hcv hcv' hk
      have hkk := k2.fits.frames c cv' cv hcv' hcv
      obtain ⟨q1, q2⟩ := k2.firstControls hcl c cv hcv (hkk.kind.trans hk)
      refine ⟨q1.trans (i2 c cv' hcv' hk).1, ?_⟩
      cases hd : p.isDirect with
      | false => exact (q2 hd).trans ((i2 c cv' hcv' hk).2 hd)
      | true =>
        have e1 := hsh.rates cv' (List.mem_of_getElem? hcv') hk
        have e2 := hkk.nRates
        rw [e1, hd] at e2
        rw [hd] at e1
        rw [List.eq_nil_of_length_eq_zero e1, List.eq_nil_of_length_eq_zero e2]

theorem f1_dtds (car : ℝ → F1.Car) (bias0 power : ℝ) (junk : Nat → F1.Limits) (ready : Bool) (t : Circuit) (row : Row ℝ)
    (u : List ℝ) (s : ℝ) : dtds (f1Vehicle car bias0 power junk ready t) ((f1Vehicle car bias0 power junk ready t).eval row u s)
      = roadPace (t.at_ s) row := by
  show (1 : ℝ) * roadPace (t.at_ s) row = _
  exact one_mul _

/-- 50 m at constant inputs are the best lap if no other inputs within the bounds have a smaller pace (time per metre). -/
theorem stay_best {v : Transcription.Vehicle ℝ} {n : Nat} {lb ub row : Nat → ℝ} (hv : v.WellFormed n) (hcf : ClockFree v)
    (hdef : v.controlsDef.length = n) (hl : 50 < v.trackLength) (hr : v.ready = true) (hnd : v.integralNames.Nodup)
    (hlat : -(v.leftLimit 50) ≤ row (v.iTime + 1) ∧ row (v.iTime + 1) ≤ v.rightLimit 50)
    (hin : ∀ j, lb j ≤ row j ∧ row j ≤ ub j)
    (ht : ∀ s, ∀ k ∈ v.timeIds, (v.eval row v.controlsDef s).dstates k = 0 ∧
      (v.eval row v.controlsDef s).states k = (v.eval row v.controlsDef 0).states k)
    (ha : ∀ s, ∀ k ∈ v.algIds, (v.eval row v.controlsDef s).dstates k = 0)
    (hx : ∀ k, k < v.nExtra → v.extraLb 50 k ≤ (v.eval row v.controlsDef 50).extra k ∧
      (v.eval row v.controlsDef 50).extra k ≤ v.extraUb 50 k)
    (pace : Row ℝ → ℝ) (hpace : ∀ q u s, dtds v (v.eval q u s) = pace q)
    (hdep : ∀ q, (∀ j, j < v.nInputs → j ≠ v.iTime → q j = row j) → pace q = pace row)
    (hmin : ∀ q, (∀ j, j < v.nInputs → j ≠ v.iTime → j ≠ v.iTime + 1 → lb j ≤ q j ∧ q j ≤ ub j) → pace row ≤ pace q) :
    ∃ (p : Problem ℝ) (ini : Initial ℝ) (nlp : Nlp ℝ) (lap : Lap ℝ) (node : Nat → Node ℝ),
      setUp (-10 ^ 9) (10 ^ 9) v (goWithin lb ub n row row) = .ok (p, ini, nlp) ∧ HypermeshCovers p ∧
      solveLap (-10 ^ 9) (10 ^ 9) v true bestOpt (goWithin lb ub n row row) = .ok lap ∧
      lap.success = true ∧ EvaluatedNodes v p ⟨lap.inputs, lap.controls⟩ node := by
  have hv' : v.WellFormed (goWithin lb ub n row row).controls.length := by
    simpa [goWithin] using hv
  obtain ⟨p, ini, nlp, h1, hset, hcov, k1, k2, -, -⟩ := go_data (v := v) (lb := lb) (ub := ub)
    (row := row) (row' := row) hv hl hr
  have hs : (bestOpt nlp).success = true := by
    refine bestOpt_success hv' hcf hset hcov (fun node hn => go_obeys h1 hdef hnd hlat hin
      (fun k hk => ⟨(ht 50 k hk).2, by rw [(ht 0 k hk).1, (ht 50 k hk).1, add_zero]⟩) (ha 50) hx node hn) ?_
    intro ins ctrls node node0 hfit hn hob hst hn0
    have g := (prepare_ok h1).2
    have hcl : p.isClosed = false := g.isClosed
    have hdi : p.isDirect = true := g.isDirect
    have hps : p.s = [0, 50] := g.s
    have hpi : p.inputs = [row, row] := g.inputs
    have hro : rightNode p 0 = 1 := by rw [rightNode, if_pos (by omega)]
    have hno : ∀ (st : Loaded ℝ) (nd : Nat → Node ℝ), EvaluatedNodes v p st nd → ∀ (i : Nat) (row : Row ℝ), i < 2 →
        st.inputs[i]? = some row → (nd i).s = (if i = 0 then 0 else 50) ∧ dtds v (nd i).eq = pace row := by
      intro st nd he i row hi hrow
      obtain ⟨r, s, u, e1, e2, e3, e4, e5⟩ := he i (by omega)
      rw [hrow] at e1
      obtain rfl := Option.some.inj e1
      rw [e5]
      refine ⟨?_, hpace row u s⟩
      rw [hps] at e2
      interval_cases i <;> simp at e2 <;> simp [← e2]
    have hsm : ∀ (nd : Nat → Node ℝ) (cs : List (CV ℝ)), FitsProblem p ⟨ins, cs⟩ → smoothing v p nd cs = 0 := by
      intro nd cs hfit'
      have hnil : cs.filter (fun c => c.kind = .fullMesh) = [] := by
        rw [List.filter_eq_nil_iff]
        intro c hc hk
        obtain ⟨d, hd, hfr⟩ := hfit'.mem (cv' := c) hc
        rw [g.controls] at hd
        simp [goWithin, meaningful, createDontOptimize] at hd
        have := hfr.kind
        rw [hd.2] at this
        simp [this] at hk
      simp [smoothing, hdi, overFullMesh, hnil]
    have hdu : ∀ (nd : Nat → Node ℝ) (a b : ℝ), (nd 0).s = 0 → (nd 1).s = 50 → dtds v (nd 0).eq = a →
        dtds v (nd 1).eq = b → lapDuration v p nd = 25 * (a + b) := by
      intro nd a b e1 e2 e3 e4
      have : p.opts.sigma = 1 / 2 := by rw [g.opts]; rfl
      simp only [lapDuration, quadrature, quadratureTo, k2, Finset.sum_range_one, hro, e3, e4, elementLength,
        if_pos (show 0 + 1 < p.nPoints by omega), e1, e2, Nat.zero_add]
      try rw [this]
      ring
    obtain ⟨row0, hr0⟩ : ∃ row, ins[0]? = some row := ⟨_, List.getElem?_eq_getElem (by rw [hfit.inputs]; omega)⟩
    obtain ⟨row1, hr1⟩ : ∃ row, ins[1]? = some row := ⟨_, List.getElem?_eq_getElem (by rw [hfit.inputs]; omega)⟩
    obtain ⟨a1, a2⟩ := hno _ _ hn 0 row0 (by omega) hr0
    obtain ⟨a3, a4⟩ := hno _ _ hn 1 row1 (by omega) hr1
    obtain ⟨b1, b2⟩ := hno _ _ hn0 0 row (by omega) (by simp [hpi])
    obtain ⟨b3, b4⟩ := hno _ _ hn0 1 row (by omega) (by simp [hpi])
    have hopt1 : Optimised p 1 := ⟨by unfold firstNode; split <;> omega, by omega⟩
    have pace0 : pace row0 = pace row := hdep row0 ((hst hcl).1 row0 row hr0 (by simp [hpi]))
    have pace1 : pace row ≤ pace row1 := by
      refine hmin row1 fun j hj hj1 hj2 => ?_
      have := hob.inputs 1 j row1 hopt1 hj hj1 hj2 hr1
      rw [g.opts] at this
      simp only [goWithin] at this
      exact ⟨by linarith [this.1], by linarith [this.2]⟩
    rw [hsm node ctrls hfit, hsm node0 p.controls ⟨hfit.inputs, rfl, (fits_self (prepare_shape h1)).frames⟩,
      hdu node _ _ a1 a3 (a2.trans pace0) a4, hdu node0 _ _ b1 b3 b2 b4]
    linarith
  obtain ⟨lap, g1, g2, _⟩ := (C189_returned _ _ v _ hv' p ini nlp hset hcov bestOpt bestOpt_sizes true).1 (Or.inl hs)
  obtain ⟨node, t0, -, -, -, -, hn, -⟩ := C190_own_times _ _ v _ hv' hcf p ini nlp hset hcov bestOpt bestOpt_sizes
    true lap g1
  exact ⟨p, ini, nlp, lap, node, hset, hcov, g1, g2.trans hs, hn⟩

/-- 50 m of `calmCar` at 60 m/s, which is the highest speed it is allowed, straight on. -/
theorem calm_best (lb ub : Nat → ℝ) (hin : ∀ j, lb j ≤ F1.straightInputs j ∧ F1.straightInputs j ≤ ub j)
    (h4 : 0 < lb 4 ∧ ub 4 = 60) (h13 : lb 13 = 0 ∧ ub 13 = 0) :
    ∃ (p : Problem ℝ) (ini : Initial ℝ) (nlp : Nlp ℝ) (lap : Lap ℝ) (node : Nat → Node ℝ),
    setUp (-10 ^ 9) (10 ^ 9) calmLap (goWithin lb ub 4 F1.straightInputs F1.straightInputs) = .ok (p, ini, nlp) ∧
    HypermeshCovers p ∧
    solveLap (-10 ^ 9) (10 ^ 9) calmLap true bestOpt (goWithin lb ub 4 F1.straightInputs F1.straightInputs) = .ok lap ∧
    lap.success = true ∧ EvaluatedNodes calmLap p ⟨lap.inputs, lap.controls⟩ node := by
  have hids : idsOf (F1.classify false) = ([0, 1, 2, 3, 4, 5, 6, 12, 13], [7, 8, 9, 10]) := by decide
  have hti : calmLap.timeIds = [0, 1, 2, 3, 4, 5, 6, 12, 13] := congrArg Prod.fst hids
  have hai : calmLap.algIds = [7, 8, 9, 10] := congrArg Prod.snd hids
  have hd (k : Nat) (hk : k ≠ 11) (s : ℝ) :
      (calmLap.eval F1.straightInputs calmLap.controlsDef s).dstates k = 0 := by
    rw [(calm_eval s).2, F1.calm_dstates, if_neg hk]
  have paceS : roadPace F1.exStraight F1.straightInputs = 1 / 60 := by
    simp only [roadPace, curvature]
    norm_num [F1.straightInputs, F1.exStraight]
  refine stay_best (v := calmLap) (f1_wf _ _ _ _ _ _) (f1_clockFree _ _ _ _ _ _) rfl
    (by norm_num [calmLap, f1Vehicle, straightTrack]) rfl (by decide)
    (by norm_num [calmLap, f1Vehicle, straightTrack, F1.straightInputs, F1.roadStart, F1.loadStart, F1.chassisStart,
      F1.rearStart, F1.frontStart]) hin (fun s k hk => ?_)
    (fun s k hk => hd k (by rintro rfl; rw [hai] at hk; simp at hk) s) calm_extra (roadPace F1.exStraight)
    (f1_dtds (fun _ => F1.calmCar) (6 / 10) 0 (fun _ => ⟨0, 0, 0⟩) true straightTrack) (fun q z => ?_) fun q z => ?_
  · have hk11 : k ≠ 11 := by rintro rfl; rw [hti] at hk; simp at hk
    rw [(calm_eval s).1, (calm_eval 0).1, hd k hk11]
    exact ⟨rfl, rfl⟩
  · simp only [roadPace, curvature, z 4 (by decide) (by decide), z 5 (by decide) (by decide), z 12 (by decide) (by decide),
      z 13 (by decide) (by decide)]
  · have q4 := z 4 (by decide) (by decide) (by decide)
    have q13 := z 13 (by decide) (by decide) (by decide)
    rw [h13.1, h13.2] at q13
    have e13 : q 13 = 0 := le_antisymm q13.2 q13.1
    have pace1 : roadPace F1.exStraight q = 1 / q 4 := by
      simp [roadPace, curvature, F1.exStraight, e13]
    rw [paceS, pace1]
    exact one_div_le_one_div_of_le (by linarith [q4.1, h4.1]) (by linarith [q4.2, h4.2])

theorem mirror_straight : F1.mirrorInputs F1.straightInputs = F1.straightInputs := by
  refine funext_below 14 (fun k hk => ?_) (fun k => rfl)
  interval_cases k <;> simp [F1.mirrorInputs, F1.straightInputs]

theorem mirror_go (lb ub row row' : Row ℝ) : mirrorRequestF1 (goWithin lb ub 4 row row') =
    goWithin (mirrorBound F1.mirrorInputs [5, 6, 12, 13] lb ub) (mirrorBound F1.mirrorInputs [5, 6, 12, 13] ub lb) 4
      (F1.mirrorInputs row) (F1.mirrorInputs row') := by
  have h1 : mirrorSteering (List.replicate 4 (createDontOptimize (K := ℝ))) = List.replicate 4 createDontOptimize := by
    simp [mirrorSteering, List.replicate, reverseControl, createDontOptimize]
  have h2 : mirrorBound F1.mirrorControls [0] (fun _ => (-1 : ℝ)) (fun _ => 1) = fun _ => -1 := by
    funext c
    rw [mirrorBound_controls]
    split <;> rfl
  have h3 : mirrorBound F1.mirrorControls [0] (fun _ => (1 : ℝ)) (fun _ => -1) = fun _ => 1 := by
    funext c
    rw [mirrorBound_controls]
    split
    · exact neg_neg _
    · rfl
  simp only [mirrorRequestF1, goWithin, h1, h2, h3, List.map_cons, List.map_nil]

theorem mirror_within {b o q : Row ℝ} (h : ∀ j, b j ≤ q j ∧ q j ≤ o j) (j : Nat) :
    mirrorBound F1.mirrorInputs [5, 6, 12, 13] b o j ≤ F1.mirrorInputs q j ∧
      F1.mirrorInputs q j ≤ mirrorBound F1.mirrorInputs [5, 6, 12, 13] o b j := by
  by_cases hj : j < 14
  · interval_cases j
    all_goals first
      | exact h _
      | exact ⟨neg_le_neg (h _).2, neg_le_neg (h _).1⟩
  · obtain ⟨k, rfl⟩ := Nat.exists_eq_add_of_le (not_lt.1 hj)
    rw [Nat.add_comm]
    exact h (k + 14)

theorem mirror_calm : mirrorF1 (fun _ => F1.calmCar) (6 / 10) 0 (fun _ => ⟨0, 0, 0⟩) true straightTrack = calmLap := by
  have h1 : F1.mirrorCar F1.calmCar = F1.calmCar := by
    simp [F1.mirrorCar, F1.calmCar, F1.exCar, F1.mirrorVec]
  have h2 : mirrorCircuit straightTrack = straightTrack := by
    simp [mirrorCircuit, straightTrack, F1.mirrorTrack, F1.exStraight, F1.mirrorVec]
  simp only [mirrorF1, h1, h2, calmLap]

/-- C247 on the lap of `calmCar` over the hill, which goes from more weight on the front left and rear right tyres to more
weight on the others: its mirror image goes the other way. -/
example : ∃ (p p' : Problem ℝ) (ins ins' : List (Row ℝ)) (ctrls' : List (CV ℝ)) (node node' : Nat → Node ℝ) (q q' : Row ℝ),
    ins[1]? = some q ∧ ins'[1]? = some q' ∧ q 8 < q 7 ∧ q' 7 < q' 8 ∧
    Obeys (f1Vehicle (fun _ => F1.mirrorCar F1.calmCar) (6 / 10) 0 (fun _ => ⟨0, 0, 0⟩) true (mirrorCircuit hillTrack)) p' 0 0
      ins' ctrls' node' ∧
    lapDuration (f1Vehicle (fun _ => F1.mirrorCar F1.calmCar) (6 / 10) 0 (fun _ => ⟨0, 0, 0⟩) true (mirrorCircuit hillTrack)) p'
      node' = lapDuration hillLap p node := by
  obtain ⟨p, ini, nlp, lap, q, h1, h2, h3, h4, h5, h6, h7, h8, h9⟩ := hill_lap
  have hwf : hillLap.WellFormed 4 := f1_wf _ _ _ _ _ _
  have hwf' : hillLap.WellFormed (goRequest 4 (warpInputs (1 / 20)) (warpInputs (-(1 / 20)))).controls.length := by
    simpa [goWithin] using hwf
  have hcf : ClockFree hillLap := f1_clockFree _ _ _ _ _ _
  obtain ⟨es, b, hr⟩ := setUp_ready hwf' h1 h2
  obtain ⟨node, t0, -, -, -, hfit, hn, -⟩ := C190_own_times _ _ hillLap _ hwf' hcf p ini nlp h1 h2 stayOpt stayOpt_sizes
    true lap h3
  have hob := C190_lap_obeys _ _ hillLap _ hwf' hcf p ini nlp h1 h2 stayOpt stayOpt_sizes 0 0 stayOpt_reliable true lap h3 h4
    node hn
  obtain ⟨p', node', -, -, -, k1, k2, -⟩ := C247_lap (fun _ => F1.calmCar) (6 / 10) 0 (fun _ => ⟨0, 0, 0⟩) true hillTrack
    (-10 ^ 9) (10 ^ 9) _ p hr.run.prepared 0 0 lap.inputs lap.controls node hfit hn hob
  have hrow := (h8 1 (by omega)).1
  have hlt : q 1 8 < q 1 7 := by
    rw [h9 1 8 (by omega) (by omega) (by omega), h9 1 7 (by omega) (by omega) (by omega)]
    norm_num [warpInputs]
  exact ⟨p, p', lap.inputs, _, _, node, node', q 1, F1.mirrorInputs (q 1), hrow, by simp [hrow], hlt, hlt, k1, k2⟩

/-- C247 on the best lap of 50 m of `calmCar` at up to 60 m/s, with lateral velocities to the left only, and on its
mirror image, with lateral velocities to the right only. -/
example : ∃ (lb ub : Row ℝ) (p p' : Problem ℝ) (lap lap' : Lap ℝ) (node node' : Nat → Node ℝ),
    lb 5 = -1 ∧ ub 5 = 0 ∧ p.opts.inputsUb 5 = 0 ∧ p'.opts.inputsLb 5 = 0 ∧ p'.opts.inputsUb 5 = 1 ∧
    solveLap (-10 ^ 9) (10 ^ 9) calmLap true bestOpt (goWithin lb ub 4 F1.straightInputs F1.straightInputs) = .ok lap ∧
    solveLap (-10 ^ 9) (10 ^ 9) (mirrorF1 (fun _ => F1.calmCar) (6 / 10) 0 (fun _ => ⟨0, 0, 0⟩) true straightTrack) true bestOpt
      (mirrorRequestF1 (goWithin lb ub 4 F1.straightInputs F1.straightInputs)) = .ok lap' ∧
    lap.success = true ∧ lap'.success = true ∧ lap'.laptime = lap.laptime ∧
    lapDuration (mirrorF1 (fun _ => F1.calmCar) (6 / 10) 0 (fun _ => ⟨0, 0, 0⟩) true straightTrack) p' node'
        + smoothing (mirrorF1 (fun _ => F1.calmCar) (6 / 10) 0 (fun _ => ⟨0, 0, 0⟩) true straightTrack) p' node' lap'.controls
      = lapDuration calmLap p node + smoothing calmLap p node lap.controls := by
  obtain ⟨lb, hlb⟩ : ∃ lb : Row ℝ, lb = fun j => if j = 4 then 1 else if j = 5 then -1 else if j = 13 then 0 else -1000 :=
    ⟨_, rfl⟩
  obtain ⟨ub, hub⟩ : ∃ ub : Row ℝ, ub = fun j => if j = 4 then 60 else if j = 5 then 0 else if j = 13 then 0 else 1000 :=
    ⟨_, rfl⟩
  have hin : ∀ j, lb j ≤ F1.straightInputs j ∧ F1.straightInputs j ≤ ub j := by
    intro j
    rw [hlb, hub]
    simp only [F1.straightInputs]
    split_ifs <;> norm_num at * <;> first | omega | (constructor <;> norm_num)
  obtain ⟨p, ini, nlp, lap, node, a1, a2, a3, a4, a5⟩ := calm_best lb ub hin (by rw [hlb, hub]; norm_num)
    (by rw [hlb, hub]; norm_num)
  have e4 : ∀ b o : Row ℝ, mirrorBound F1.mirrorInputs [5, 6, 12, 13] b o 4 = b 4 := fun b o => rfl
  have e5 : ∀ b o : Row ℝ, mirrorBound F1.mirrorInputs [5, 6, 12, 13] b o 5 = -o 5 := fun b o => rfl
  have e13 : ∀ b o : Row ℝ, mirrorBound F1.mirrorInputs [5, 6, 12, 13] b o 13 = -o 13 := fun b o => rfl
  have hin' := mirror_within hin
  rw [mirror_straight] at hin'
  obtain ⟨p', ini', nlp', lap', node', b1, b2, b3, b4, b5⟩ := calm_best _ _ hin' (by rw [e4, e4, hlb, hub]; norm_num)
    (by rw [e13, e13, hlb, hub]; norm_num)
  have hgo := mirror_go lb ub F1.straightInputs F1.straightInputs
  rw [mirror_straight] at hgo
  have hwf : calmLap.WellFormed 4 := f1_wf _ _ _ _ _ _
  have ho := (prepare_ok (setUp_ready (by simpa [goWithin] using hwf) a1 a2).choose_spec.choose_spec.run.prepared).2.opts
  have ho' := (prepare_ok (setUp_ready (by simpa [goWithin] using hwf) b1 b2).choose_spec.choose_spec.run.prepared).2.opts
  refine ⟨lb, ub, p, p', lap, lap', node, node', by rw [hlb]; norm_num, by rw [hub]; norm_num, ?_, ?_, ?_, a3,
    by rw [mirror_calm, hgo]; exact b3, a4, b4, ?_, ?_⟩
  · rw [ho, hub]; norm_num [goWithin]
  · rw [ho']
    simp only [goWithin, e5]
    rw [hub]; norm_num
  · rw [ho']
    simp only [goWithin, e5]
    rw [hlb]; norm_num
  · refine C247_laptime (fun _ => F1.calmCar) (6 / 10) 0 (fun _ => ⟨0, 0, 0⟩) true straightTrack (-10 ^ 9) (10 ^ 9)
      (goWithin lb ub 4 F1.straightInputs F1.straightInputs) (by simp [goWithin]) ?_ p ini nlp a1 a2 p' ini' nlp'
      (by rw [mirror_calm, hgo]; exact b1) b2 bestOpt bestOpt_sizes bestOpt_reliable bestOpt_minimises true lap lap' a3 a4
      (by rw [mirror_calm, hgo]; exact b3) b4
    intro c hc hk
    rw [List.eq_of_mem_replicate hc] at hk
    simp [createDontOptimize] at hk
  · exact C247_best (fun _ => F1.calmCar) (6 / 10) 0 (fun _ => ⟨0, 0, 0⟩) true straightTrack (-10 ^ 9) (10 ^ 9)
      (goWithin lb ub 4 F1.straightInputs F1.straightInputs) (by simp [goWithin]) p ini nlp a1 a2 p' ini' nlp'
      (by rw [mirror_calm, hgo]; exact b1) b2 bestOpt bestOpt_sizes bestOpt_reliable bestOpt_minimises true lap lap' a3 a4
      (by rw [mirror_calm, hgo]; exact b3) b4 node node' a5 (by rw [mirror_calm]; exact b5)

end ex

end Verif.LapVehicles
