import Verif.Lemmas.Propagation
import Verif.Lemmas.SteadyVehicles
import Verif.Props.LapVehicles

/-! Properties C212 and C213 of the command `propagate_vehicle`. -/

set_option autoImplicit false

namespace Verif.Propagation

open Verif.LapVehicles Verif.LapOptions Verif.Road Verif.Chassis
open Verif.SteadyVehicles (Holds After copyTo_ok)

theorem readArray_ok {n : Nat} {l r : List ℝ} : readArray n l = .ok r ↔ n ≤ l.length ∧ r = l.take n := by
  unfold readArray
  split
  · rename_i h
    exact ⟨fun e => ⟨h, (Res.ok.inj e).symm⟩, fun e => by rw [e.2]⟩
  · rename_i h
    exact ⟨fun e => by simp at e, fun e => absurd e.1 h⟩

theorem newInputs_ok {lion : Lion} {m : Motion} {mem : Arrays} {s ds : ℝ} {options : String} {q' : Nat → ℝ}
    (h : newInputs lion m mem s ds options = .ok q') :
    m.nInputs ≤ mem.q.length ∧ m.nControls ≤ mem.u.length ∧ m.nControls ≤ mem.uNext.length ∧
    ∃ opts, readOptions lion.texts lion.parse lion.defaults options = .ok opts ∧
      lion.step m opts (mem.u.take m.nControls) (mem.uNext.take m.nControls) (arrayOf (mem.q.take m.nInputs)) s ds
        = .ok q' := by
  unfold newInputs at h
  obtain ⟨q, h1, h⟩ := Res.bind_eq_ok.1 h
  obtain ⟨u, h2, h⟩ := Res.bind_eq_ok.1 h
  obtain ⟨u', h3, h⟩ := Res.bind_eq_ok.1 h
  obtain ⟨opts, h4, h⟩ := Res.bind_eq_ok.1 h
  obtain ⟨e1, rfl⟩ := readArray_ok.1 h1
  obtain ⟨e2, rfl⟩ := readArray_ok.1 h2
  obtain ⟨e3, rfl⟩ := readArray_ok.1 h3
  exact ⟨e1, e2, e3, opts, h4, h⟩

theorem computePropagation_ok {lion : Lion} {m : Motion} {mem after : Arrays} {s ds : ℝ} {options : String}
    (h : computePropagation lion m mem s ds options = ⟨after, .ok ()⟩) :
    ∃ q', newInputs lion m mem s ds options = .ok q' ∧ Replaces m.nInputs mem q' after := by
  unfold computePropagation at h
  rcases hq : newInputs lion m mem s ds options with q' | _ | _ <;> rw [hq] at h <;> try simp at h
  rcases hc : SteadyVehicles.copyTo ((List.range m.nInputs).map q') mem.q with l | _ | _ <;> rw [hc] at h <;> try simp at h
  subst h
  obtain ⟨g1, g2, g3, -⟩ := copyTo_ok hc
  simp only [List.length_map, List.length_range] at g1 g3
  refine ⟨q', rfl, fun k hk => ?_, g2, g3, rfl, rfl⟩
  show l[k]? = _
  rw [g1 k hk]
  simp [hk]

theorem optionsOf {lion : Lion} {text : String} {o : StepOptions}
    (hroot : ∀ doc, lion.parse text = .ok doc → doc.name = "options")
    (h : readOptions lion.texts lion.parse lion.defaults text = .ok o) : OptionsOf lion text o := by
  unfold readOptions at h
  split at h
  · rename_i ht
    exact .inl ⟨ht, (Res.ok.inj h).symm⟩
  · rename_i ht
    obtain ⟨doc, h0, h⟩ := Res.bind_eq_ok.1 h
    obtain ⟨a, h1, h⟩ := Res.bind_eq_ok.1 h
    obtain ⟨b, h2, h⟩ := Res.bind_eq_ok.1 h
    obtain ⟨c, h3, h⟩ := Res.bind_eq_ok.1 h
    obtain ⟨d, h4, h⟩ := Res.bind_eq_ok.1 h
    obtain rfl := Res.ok.inj h
    have hr := hroot doc h0
    exact .inr ⟨ht, doc, h0, hr, (setIf_ok hr).1 h1, (setIf_ok hr).1 h2, (setIf_ok hr).1 h3, (setIf_ok hr).1 h4⟩

/-- What a step that is returned did. -/
theorem step_laws {lion : Lion} (hl : Solves lion) {m : Motion} {mem after : Arrays} {s ds : ℝ} {options : String}
    (hroot : ∀ doc, lion.parse options = .ok doc → doc.name = "options")
    (h : computePropagation lion m mem s ds options = ⟨after, .ok ()⟩) :
    ∃ opts q', OptionsOf lion options opts ∧ Replaces m.nInputs mem q' after ∧ ∀ k, k < m.nInputs →
      Changes opts.sigma ds opts.tolerance
        ((m.eval (arrayOf (mem.q.take m.nInputs)) (mem.u.take m.nControls) s).1 k)
        ((m.eval q' (mem.uNext.take m.nControls) (s + ds)).1 k)
        ((m.eval (arrayOf (mem.q.take m.nInputs)) (mem.u.take m.nControls) s).2 k)
        ((m.eval q' (mem.uNext.take m.nControls) (s + ds)).2 k) := by
  obtain ⟨q', h1, h2⟩ := computePropagation_ok h
  obtain ⟨-, -, -, opts, h3, h4⟩ := newInputs_ok h1
  exact ⟨opts, q', optionsOf hroot h3, h2, hl _ _ _ _ _ _ _ _ h4⟩

/-! ## C212: a propagated vehicle obeys the laws of motion -/

section
variable {K : Type} {lion : Lion} (hl : Solves lion) (solve : Vec3 × Vec3 × Vec3 → Vec3 → Vec3)
  (r : Tables (ℝ → Kart.Vehicle) ((ℝ → F1.Car) × ℝ) Circuit K) (a : Step) (mem after : Arrays)
  (hroot : ∀ doc, lion.parse a.options = .ok doc → doc.name = "options")
  (h : propagate lion (vehicles solve) r a mem = ⟨after, .ok ()⟩)
include hl hroot h

/-- C212: an F1 car moved along a track, with or without elevation, obeys the laws of motion from `s` to `s + ds`. -/
theorem C212_f1_track (hk : r.kart a.name = none) {v} (hv : r.f1 a.name = some v) (hc : a.useCircuit = true)
    {t : Circuit} (ht : r.track a.track = some t) (hg : ∀ x, (v.car.1 x).chassis.g0 ≠ 0)
    (hm : ∀ x, (v.car.1 x).chassis.mass ≠ 0) :
    ∃ opts q', OptionsOf lion a.options opts ∧ Replaces 14 mem q' after ∧
      (roadPace (t.at_ a.s) (arrayOf (mem.q.take 14)) ≠ 0 → roadPace (t.at_ (a.s + a.ds)) q' ≠ 0 →
        F1Climb opts.sigma a.ds opts.tolerance (v.car.1 a.s) (t.at_ a.s) (arrayOf (mem.q.take 14))
          (arrayOf (mem.u.take 4)) (v.car.1 (a.s + a.ds)) (t.at_ (a.s + a.ds)) q' (arrayOf (mem.uNext.take 4)) ∧
        Changes opts.sigma a.ds opts.tolerance (mem.q.getD 11 0) (q' 11)
          (roadPace (t.at_ a.s) (arrayOf (mem.q.take 14))) (roadPace (t.at_ (a.s + a.ds)) q')) := by
  simp only [propagate, hk, hv, moved, hc, ht, if_true] at h
  obtain ⟨opts, q', h1, h2, h3⟩ := step_laws hl hroot h
  refine ⟨opts, q', h1, h2, fun hp hp' => ?_⟩
  have := f1_climb v.car.1 v.car.2 t _ _ _ _ _ _ hg hm hp hp' h3
  have e : arrayOf (mem.q.take 14) 11 = mem.q.getD 11 0 := by simp [arrayOf, List.getD]
  rw [e] at this
  exact this

/-- C212: an F1 car moved on a plane obeys the laws of motion over the time `ds`. -/
theorem C212_f1_plane (hk : r.kart a.name = none) {v} (hv : r.f1 a.name = some v) (hc : a.useCircuit = false)
    (hg : ∀ x, (v.car.1 x).chassis.g0 ≠ 0) (hm : ∀ x, (v.car.1 x).chassis.mass ≠ 0) :
    ∃ opts q', OptionsOf lion a.options opts ∧ Replaces 14 mem q' after ∧
      F1OnPlane opts.sigma a.ds opts.tolerance (v.car.1 a.s) (arrayOf (mem.q.take 14)) (arrayOf (mem.u.take 4))
        (v.car.1 (a.s + a.ds)) q' (arrayOf (mem.uNext.take 4)) := by
  simp only [propagate, hk, hv, moved, hc, Bool.false_eq_true, if_false] at h
  obtain ⟨opts, q', h1, h2, h3⟩ := step_laws hl hroot h
  exact ⟨opts, q', h1, h2, f1_onPlane v.car.1 _ _ _ _ _ _ hg hm h3⟩

/-- C212: a kart moved along a flat track obeys the laws of motion from `s` to `s + ds`. -/
theorem C212_kart_track {v} (hv : r.kart a.name = some v) (hc : a.useCircuit = true)
    {t : Circuit} (ht : r.track a.track = some t) (hf : ∀ x, F1.Flat (t.at_ x)) :
    ∃ opts q', OptionsOf lion a.options opts ∧ Replaces 13 mem q' after ∧
      (kartPace (t.at_ a.s) (arrayOf (mem.q.take 13)) ≠ 0 → kartPace (t.at_ (a.s + a.ds)) q' ≠ 0 →
        KartElement solve opts.sigma a.ds opts.tolerance (v.car a.s) (t.at_ a.s) (arrayOf (mem.q.take 13))
          (arrayOf (mem.u.take 2)) (v.car (a.s + a.ds)) (t.at_ (a.s + a.ds)) q' (arrayOf (mem.uNext.take 2)) ∧
        Changes opts.sigma a.ds opts.tolerance (mem.q.getD 10 0) (q' 10)
          (kartPace (t.at_ a.s) (arrayOf (mem.q.take 13))) (kartPace (t.at_ (a.s + a.ds)) q')) := by
  simp only [propagate, hv, moved, hc, ht, if_true] at h
  obtain ⟨opts, q', h1, h2, h3⟩ := step_laws hl hroot h
  refine ⟨opts, q', h1, h2, fun hp hp' => ?_⟩
  have := kart_element solve v.car t _ _ _ _ _ _ (hf _) (hf _) hp hp' h3
  have e : arrayOf (mem.q.take 13) 10 = mem.q.getD 10 0 := by simp [arrayOf, List.getD]
  rw [e] at this
  exact this

/-- C212: a kart moved on a plane obeys the laws of motion over the time `ds`. -/
theorem C212_kart_plane {v} (hv : r.kart a.name = some v) (hc : a.useCircuit = false) :
    ∃ opts q', OptionsOf lion a.options opts ∧ Replaces 13 mem q' after ∧
      KartOnPlane solve opts.sigma a.ds opts.tolerance (v.car a.s) (arrayOf (mem.q.take 13)) (arrayOf (mem.u.take 2))
        (v.car (a.s + a.ds)) q' (arrayOf (mem.uNext.take 2)) := by
  simp only [propagate, hv, moved, hc, Bool.false_eq_true, if_false] at h
  obtain ⟨opts, q', h1, h2, h3⟩ := step_laws hl hroot h
  exact ⟨opts, q', h1, h2, kart_onPlane solve v.car _ _ _ _ _ _ h3⟩

end

/-! ## C213: what a call of the command leaves behind -/

section
variable {Kart F1 Track K : Type} (lion : Lion) (how : Movers Kart F1 Track) (r : Tables Kart F1 Track K) (a : Step)
  (mem : Arrays)

theorem computePropagation_cases (m : Motion) (s ds : ℝ) (options : String) :
    (computePropagation lion m mem s ds options).mem = mem ∨
    (computePropagation lion m mem s ds options).result = .ok () := by
  unfold computePropagation
  split
  · split
    · exact .inr rfl
    · exact .inl rfl
  · exact .inl rfl
  · exact .inl rfl

/-- C213: a call that fails leaves the arrays of the caller as they were. -/
theorem C213_failure (h : (propagate lion how r a mem).result ≠ .ok ()) : (propagate lion how r a mem).mem = mem := by
  unfold propagate at h ⊢
  dsimp only at h ⊢
  split at h
  · split at h
    · exact (computePropagation_cases lion mem _ _ _ _).resolve_right h
    · rfl
    · rfl
  · split at h
    · exact (computePropagation_cases lion mem _ _ _ _).resolve_right h
    · rfl
    · rfl
  · rfl

theorem moves_eq {m : Motion} (h : Moves how r a m) :
    propagate lion how r a mem = computePropagation lion m mem a.s a.ds a.options := by
  rcases h with ⟨v, hv, ⟨hc, t, ht, rfl⟩ | ⟨hc, rfl⟩⟩ | ⟨hk, v, hv, ⟨hc, t, ht, rfl⟩ | ⟨hc, rfl⟩⟩
  · simp [propagate, hv, moved, hc, ht]
  · simp [propagate, hv, moved, hc]
  · simp [propagate, hk, hv, moved, hc, ht]
  · simp [propagate, hk, hv, moved, hc]

/-- C213: a call with arrays that are too short for the vehicle is undefined. -/
theorem C213_short {m : Motion} (h : Moves how r a m)
    (hs : mem.q.length < m.nInputs ∨ mem.u.length < m.nControls ∨ mem.uNext.length < m.nControls) :
    (propagate lion how r a mem).result = .ub := by
  rw [moves_eq lion how r a mem h]
  have : newInputs lion m mem a.s a.ds a.options = .ub := by
    unfold newInputs readArray
    by_cases h1 : m.nInputs ≤ mem.q.length
    · by_cases h2 : m.nControls ≤ mem.u.length
      · have h3 : ¬ m.nControls ≤ mem.uNext.length := by omega
        simp [h1, h2, h3, Res.bind]
      · simp [h1, h2, Res.bind]
    · simp [h1, Res.bind]
  simp [computePropagation, this]

/-- C213: with arrays that are long enough, a call takes the options first and then the step; it fails if either fails
and otherwise replaces the inputs by those of the step. -/
theorem C213_outcome {m : Motion} (h : Moves how r a m) (h1 : m.nInputs ≤ mem.q.length) (h2 : m.nControls ≤ mem.u.length)
    (h3 : m.nControls ≤ mem.uNext.length) (opts : StepOptions)
    (ho : readOptions lion.texts lion.parse lion.defaults a.options = .ok opts) :
    let s := lion.step m opts (mem.u.take m.nControls) (mem.uNext.take m.nControls) (arrayOf (mem.q.take m.nInputs)) a.s a.ds
    (∀ q', s = .ok q' → (propagate lion how r a mem).result = .ok () ∧
      Replaces m.nInputs mem q' (propagate lion how r a mem).mem) ∧
    (s = .throw → (propagate lion how r a mem).result = .throw) ∧ (s = .ub → (propagate lion how r a mem).result = .ub) := by
  intro s
  rw [moves_eq lion how r a mem h]
  have e : newInputs lion m mem a.s a.ds a.options = s := by
    simp [newInputs, readArray, h1, h2, h3, ho, Res.bind, s]
  refine ⟨fun q' hq => ?_, fun hq => ?_, fun hq => ?_⟩
  · rw [hq] at e
    have : (computePropagation lion m mem a.s a.ds a.options).result = .ok () := by
      simp [computePropagation, e, SteadyVehicles.copyTo, h1]
    refine ⟨this, ?_⟩
    have h' : computePropagation lion m mem a.s a.ds a.options =
        ⟨(computePropagation lion m mem a.s a.ds a.options).mem, .ok ()⟩ := by rw [← this]
    obtain ⟨q'', e', h''⟩ := computePropagation_ok h'
    rw [e] at e'
    obtain rfl := Res.ok.inj e'
    exact h''
  · rw [hq] at e; simp [computePropagation, e]
  · rw [hq] at e; simp [computePropagation, e]

/-- C213: options that cannot be read are reported. -/
theorem C213_options_failure {m : Motion} (h : Moves how r a m) (h1 : m.nInputs ≤ mem.q.length)
    (h2 : m.nControls ≤ mem.u.length) (h3 : m.nControls ≤ mem.uNext.length) (ht : a.options ≠ "")
    (ho : lion.parse a.options = .throw ∨ ∃ doc, lion.parse a.options = .ok doc ∧ doc.name = "options" ∧
      ∃ e, FirstChild doc "sigma" e ∧ lion.texts.num e.text = .throw) :
    (propagate lion how r a mem).result = .throw := by
  rw [moves_eq lion how r a mem h]
  have : readOptions lion.texts lion.parse lion.defaults a.options = .throw := by
    unfold readOptions
    rw [if_neg ht]
    rcases ho with ho | ⟨doc, ho, hr, e, he, hx⟩
    · rw [ho]; rfl
    · have : setIf lion.texts doc "sigma" lion.defaults.sigma = .throw := by
        unfold setIf
        rw [find_child hr, child_some.2 he]
        exact hx
      simp [ho, this, Res.bind]
  simp [computePropagation, newInputs, readArray, h1, h2, h3, this, Res.bind]

/-- C213: a track that does not exist is reported. -/
theorem C213_no_track (hv : r.kart a.name ≠ none ∨ r.f1 a.name ≠ none) (hc : a.useCircuit = true)
    (ht : r.track a.track = none) : (propagate lion how r a mem).result = .throw := by
  unfold propagate moved
  simp only [hc, ht, if_true]
  split
  · rfl
  · rfl
  · rename_i h1 h2
    rcases hv with hv | hv <;> contradiction

/-- C213 fails for the name of the vehicle: a vehicle that does not exist is not reported. -/
theorem C213_false (hk : r.kart a.name = none) (hf : r.f1 a.name = none) :
    propagate lion how r a mem = ⟨mem, .ok ()⟩ := by
  simp [propagate, hk, hf]

/-- C213: the options in a document with root `options` are those of the step (the part that is missing is
`C213_options_false`). -/
theorem C213_options_partial {m : Motion} (h : Moves how r a m) {after : Arrays}
    (hroot : ∀ doc, lion.parse a.options = .ok doc → doc.name = "options")
    (hok : propagate lion how r a mem = ⟨after, .ok ()⟩) :
    ∃ opts q', OptionsOf lion a.options opts ∧ Replaces m.nInputs mem q' after ∧
      lion.step m opts (mem.u.take m.nControls) (mem.uNext.take m.nControls) (arrayOf (mem.q.take m.nInputs)) a.s a.ds
        = .ok q' := by
  rw [moves_eq lion how r a mem h] at hok
  obtain ⟨q', h1, h2⟩ := computePropagation_ok hok
  obtain ⟨-, -, -, opts, h3, h4⟩ := newInputs_ok h1
  exact ⟨opts, q', optionsOf hroot h3, h2, h4⟩

/-- C213 fails for a document with another root: all its options are silently ignored. -/
theorem C213_options_false {m : Motion} (h : Moves how r a m) {after : Arrays} {doc : Node}
    (hd : lion.parse a.options = .ok doc) (hroot : doc.name ≠ "options")
    (hok : propagate lion how r a mem = ⟨after, .ok ()⟩) :
    ∃ q', Replaces m.nInputs mem q' after ∧
      lion.step m lion.defaults (mem.u.take m.nControls) (mem.uNext.take m.nControls) (arrayOf (mem.q.take m.nInputs))
        a.s a.ds = .ok q' := by
  rw [moves_eq lion how r a mem h] at hok
  obtain ⟨q', h1, h2⟩ := computePropagation_ok hok
  obtain ⟨-, -, -, opts, h3, h4⟩ := newInputs_ok h1
  have : readOptions lion.texts lion.parse lion.defaults a.options = .ok lion.defaults := by
    unfold readOptions
    simp [hd, setIf_other hroot, Res.bind]
  rw [this] at h3
  obtain rfl := Res.ok.inj h3
  exact ⟨q', h2, h4⟩

end

/-! ### Examples -/

section ex
open Classical

/-- A time step that returns the guess `g` if it is exact. -/
noncomputable def guesses (g : Nat → ℝ) : Lion where
  step m opts u u' q s ds :=
    if ∀ k, k < m.nInputs → Changes opts.sigma ds opts.tolerance ((m.eval q u s).1 k) ((m.eval g u' (s + ds)).1 k)
      ((m.eval q u s).2 k) ((m.eval g u' (s + ds)).2 k) then .ok g else .throw
  defaults := ⟨1 / 2, 1000, 0, 1⟩
  parse t := if t = "bad" then .throw else .ok (.mk "options" "" [] [.mk "sigma" t [] []])
  texts := ⟨fun _ => .throw, fun _ => .throw, fun t => if t = "one" then .ok 1 else .throw, fun _ => .throw, id⟩

theorem guesses_solves (g : Nat → ℝ) : Solves (guesses g) := by
  intro m opts u u' q s ds q' h
  simp only [guesses] at h
  split at h
  · rename_i hh
    obtain rfl := Res.ok.inj h
    exact hh
  · cases h

theorem guesses_root (g : Nat → ℝ) (t : String) : ∀ doc, (guesses g).parse t = .ok doc → doc.name = "options" := by
  intro doc h
  simp only [guesses] at h
  split at h
  · cases h
  · obtain rfl := Res.ok.inj h; rfl

/-- Constant derivatives `d`: the states go from `x` to `x + ds d`. -/
theorem linear {sigma ds x x' a b : ℝ} (ha : a = b) (hx : x' = x + ds * a) : Changes sigma ds 0 x x' a b := by
  subst ha hx
  unfold Changes
  rw [abs_le]
  constructor <;> nlinarith

/-- A car and a kart without tracks of their own; a straight track. -/
noncomputable def exTables : Tables (ℝ → Kart.Vehicle) ((ℝ → F1.Car) × ℝ) Circuit ℝ :=
  { kart := fun n => if n = "kart".toList then some (.new fun _ => rollKart) else none,
    f1 := fun n => if n = "car".toList then some (.new (fun _ => F1.calmCar, 0)) else none,
    track := fun n => if n = "track".toList then some straightTrack else none,
    scalar := fun _ => none, vector := fun _ => none }

/-- Arrays for the car: 60 m/s. -/
noncomputable def carArrays : Arrays :=
  ⟨(List.range 14).map F1.straightInputs, (List.range 4).map F1.straightControls, (List.range 4).map F1.straightControls⟩

theorem arrayOf_range {n : Nat} {f : Nat → ℝ} (hf : ∀ k, n ≤ k → f k = 0) : arrayOf (((List.range n).map f).take n) = f := by
  funext k
  rw [List.take_of_length_le (by simp), arrayOf]
  by_cases h : k < n
  · simp [List.getD, h]
  · simp [List.getD, h, hf k (by omega)]

theorem carQ : arrayOf (carArrays.q.take 14) = F1.straightInputs :=
  arrayOf_range fun k hk => by simp only [F1.straightInputs]; rw [if_neg (by omega), if_neg (by omega)]

theorem carU : carArrays.u.take 4 = calmLap.controlsDef ∧ carArrays.uNext.take 4 = calmLap.controlsDef := by
  rw [calm_defaults]
  constructor <;> simp [carArrays, F1.straightControls, List.range_succ]

/-- The car after 50 m: the clock has advanced. -/
noncomputable def carAfter : Nat → ℝ := fun k => if k = 11 then 50 / 60 else F1.straightInputs k

theorem car_rates (s : ℝ) (k : Nat) :
    (f1Eval (fun _ => F1.calmCar) 0 straightTrack F1.straightInputs calmLap.controlsDef s).dstates k =
      if k = 11 then 1 / 60 else 0 := by
  rw [← calm_evals, (calm_eval s).2]
  exact F1.calm_dstates k

theorem car_moves (s s' : ℝ) (k : Nat) :
    Changes (1 / 2) 50 0
      ((f1Eval (fun _ => F1.calmCar) 0 straightTrack F1.straightInputs calmLap.controlsDef s).states k)
      ((f1Eval (fun _ => F1.calmCar) 0 straightTrack carAfter calmLap.controlsDef s').states k)
      ((f1Eval (fun _ => F1.calmCar) 0 straightTrack F1.straightInputs calmLap.controlsDef s).dstates k)
      ((f1Eval (fun _ => F1.calmCar) 0 straightTrack carAfter calmLap.controlsDef s').dstates k) := by
  have hcl := f1Eval_clock (fun _ => F1.calmCar) 0 straightTrack carAfter F1.straightInputs calmLap.controlsDef s'
    (fun j _ hj => by simp [carAfter, hj])
  have h1 : (f1Eval (fun _ => F1.calmCar) 0 straightTrack carAfter calmLap.controlsDef s').dstates k =
      if k = 11 then 1 / 60 else 0 := by rw [hcl]; exact car_rates s' k
  refine linear (by rw [car_rates, h1]) ?_
  rw [car_rates]
  by_cases h : k = 11
  · subst h
    have e1 : (f1Eval (fun _ => F1.calmCar) 0 straightTrack carAfter calmLap.controlsDef s').states 11 = carAfter 11 := rfl
    have e2 : (f1Eval (fun _ => F1.calmCar) 0 straightTrack F1.straightInputs calmLap.controlsDef s).states 11 =
      F1.straightInputs 11 := rfl
    rw [e1, e2]
    norm_num [carAfter, F1.straightInputs]
  · rw [if_neg h, mul_zero, add_zero, hcl]
    simp only [getD_set_ne h, f1Eval, straightTrack]

theorem car_step (solve : Vec3 × Vec3 × Vec3 → Vec3 → Vec3) :
    ∃ after, propagate (guesses carAfter) (vehicles solve) exTables ⟨"car".toList, "track".toList, 10, 50, true, ""⟩ carArrays
      = ⟨after, .ok ()⟩ ∧ Replaces 14 carArrays carAfter after := by
  have hmv : Moves (vehicles solve) exTables ⟨"car".toList, "track".toList, 10, 50, true, ""⟩
      (f1OnTrack (fun _ => F1.calmCar) 0 straightTrack) :=
    .inr ⟨rfl, _, rfl, .inl ⟨rfl, straightTrack, rfl, rfl⟩⟩
  have hn : (f1OnTrack (fun _ => F1.calmCar) 0 straightTrack).nInputs = 14 := rfl
  have hu : (f1OnTrack (fun _ => F1.calmCar) 0 straightTrack).nControls = 4 := rfl
  have := (C213_outcome (guesses carAfter) (vehicles solve) exTables ⟨"car".toList, "track".toList, 10, 50, true, ""⟩
    carArrays hmv (by rw [hn]; simp [carArrays]) (by rw [hu]; simp [carArrays]) (by rw [hu]; simp [carArrays])
    (guesses carAfter).defaults rfl).1 carAfter (by
      rw [hn, hu, carQ, carU.1, carU.2]
      exact if_pos fun k _ => car_moves _ _ k)
  exact ⟨_, by rw [← this.1], this.2⟩

/-- C212 on a car that rolls straight at 60 m/s for 50 m: its clock advances by 5/6 s. -/
example (solve : Vec3 × Vec3 × Vec3 → Vec3 → Vec3) : ∃ after,
    propagate (guesses carAfter) (vehicles solve) exTables ⟨"car".toList, "track".toList, 10, 50, true, ""⟩ carArrays
      = ⟨after, .ok ()⟩ ∧ after.q[11]? = some (50 / 60) ∧
    ∃ opts q', opts = (guesses carAfter).defaults ∧ Replaces 14 carArrays q' after ∧ 
      F1Climb opts.sigma 50 opts.tolerance F1.calmCar F1.exStraight F1.straightInputs F1.straightControls F1.calmCar
        F1.exStraight q' F1.straightControls := by
  obtain ⟨after, h, hr⟩ := car_step solve
  have hc : arrayOf calmLap.controlsDef = F1.straightControls := calm_array
  obtain ⟨opts, q', h1, h2, h3⟩ := C212_f1_track (guesses_solves carAfter) solve exTables _ carArrays after
    (guesses_root carAfter "") h rfl rfl rfl rfl (fun _ => by norm_num [Mounted.new, F1.calmCar, F1.exCar])
    (fun _ => by norm_num [Mounted.new, F1.calmCar, F1.exCar])
  have hq : ∀ k, k < 14 → q' k = carAfter k := fun k hk => Option.some.inj ((h2.1 k hk).symm.trans (hr.1 k hk))
  have e11 : after.q[11]? = some (50 / 60) := by rw [hr.1 11 (by norm_num)]; rfl
  rw [carQ, carU.1, carU.2, hc] at h3
  refine ⟨after, h, e11, opts, q', ?_, h2, (h3 ?_ ?_).1⟩
  · rcases h1 with h1 | h1
    · exact h1.2
    · exact absurd rfl h1.1
  · simp [roadPace, curvature, straightTrack, F1.exStraight, F1.straightInputs]
  · simp [roadPace, curvature, straightTrack, F1.exStraight, F1.straightInputs, hq, carAfter]

/-! The same car on a plane for 2 s. -/

/-- The car after 2 s: 120 m further. -/
noncomputable def carAway : Nat → ℝ := fun k => if k = 11 then 120 else F1.straightInputs k

theorem plane_setState (q : Nat → ℝ) (hq : ∀ j, j < 14 → j ≠ 11 → q j = F1.straightInputs j) :
    planeOut F1.calmCar q F1.straightControls = F1.carUpdate F1.calmCar F1.calmMembers (F1.roadCartesian F1.calmMembers) := by
  unfold planeOut
  rw [setState_clock F1.calmCar q F1.straightInputs F1.straightControls hq, calm_members]
  rfl

/-- The states and the derivatives of the car that rolls straight. -/
theorem plane_rates : ∃ X : Nat → ℝ, ∀ (q : Nat → ℝ) (_ : ∀ j, j < 14 → j ≠ 11 → q j = F1.straightInputs j) (s : ℝ) (k : Nat),
    k < 14 → ((f1OnPlane fun _ => F1.calmCar).eval q calmLap.controlsDef s).1 k = (if k = 11 then q 11 else X k) ∧
    ((f1OnPlane fun _ => F1.calmCar).eval q calmLap.controlsDef s).2 k = if k = 11 then 60 else 0 := by
  obtain ⟨-, ⟨w1, w2, w3, w4⟩, -, hF, hT⟩ := F1.calm_out (F1.roadCartesian F1.calmMembers)
    (by simp [F1.roadCartesian, F1.calmMembers])
    (by apply vec_ext <;> simp [F1.roadCartesian, F1.calmMembers, omegaBody, rotZ])
    (by simp [F1.roadCartesian, F1.calmMembers])
  have hps := plane_setState
  generalize F1.carUpdate F1.calmCar F1.calmMembers (F1.roadCartesian F1.calmMembers) = o at *
  refine ⟨fun k => if k = 0 then (spin (f1Wheel F1.calmCar o .frontLeft)).1 else
    if k = 1 then (spin (f1Wheel F1.calmCar o .frontRight)).1 else if k = 2 then (spin (f1Wheel F1.calmCar o .rearLeft)).1 else
    if k = 3 then (spin (f1Wheel F1.calmCar o .rearRight)).1 else if 7 ≤ k ∧ k ≤ 10 then 0 else F1.straightInputs k, ?_⟩
  intro q hq s k hk
  have hr := plane_rows (fun _ => F1.calmCar) q calmLap.controlsDef s (by norm_num [F1.calmCar, F1.exCar])
    (by norm_num [F1.calmCar, F1.exCar])
  have hw := fun c => plane_wheel_rows (fun _ => F1.calmCar) q calmLap.controlsDef s c _ rfl
  dsimp only at hr
  simp only [calm_array, hps q hq, hF, hT] at hr hw
  obtain ⟨a4, a5, a6, a7, a8, a9, a10, a11, a12, a13⟩ := hr
  have e (j : Nat) (h1 : j < 14) (h2 : j ≠ 11) := hq j h1 h2
  have b0 := hw .frontLeft (by norm_num [f1Wheel, F1.calmCar, F1.exCar, F1.exAxle])
  have b1 := hw .frontRight (by norm_num [f1Wheel, F1.calmCar, F1.exCar, F1.exAxle])
  have b2 := hw .rearLeft (by norm_num [f1Wheel, F1.calmCar, F1.exCar, F1.exAxle])
  have b3 := hw .rearRight (by norm_num [f1Wheel, F1.calmCar, F1.exCar, F1.exAxle])
  have s0 : (spin (f1Wheel F1.calmCar o .frontLeft)).2 = 0 := by
    rw [← w1]; simp only [spin, f1Wheel, Tyre.wheelTorque]; ring
  have s1 : (spin (f1Wheel F1.calmCar o .frontRight)).2 = 0 := by
    rw [← w2]; simp only [spin, f1Wheel, Tyre.wheelTorque]; ring
  have s2 : (spin (f1Wheel F1.calmCar o .rearLeft)).2 = 0 := by
    rw [← w3]; simp only [spin, f1Wheel, Tyre.wheelTorque]; ring
  have s3 : (spin (f1Wheel F1.calmCar o .rearRight)).2 = 0 := by
    rw [← w4]; simp only [spin, f1Wheel, Tyre.wheelTorque]; ring
  rw [s0] at b0; rw [s1] at b1; rw [s2] at b2; rw [s3] at b3
  simp only [cornerIndex] at b0 b1 b2 b3
  simp only [e 4 (by decide) (by decide), e 5 (by decide) (by decide), e 6 (by decide) (by decide),
    e 13 (by decide) (by decide), e 12 (by decide) (by decide), excess, e 7 (by decide) (by decide),
    e 8 (by decide) (by decide), e 9 (by decide) (by decide), e 10 (by decide) (by decide)] at a4 a5 a6 a7 a8 a9 a10 a11 a12 a13
  interval_cases k
  · simpa using b0
  · simpa using b1
  · simpa using b2
  · simpa using b3
  all_goals simp only [a4, a5, a6, a7, a8, a9, a10, a11, a12, a13]; norm_num [F1.straightInputs]

/-- C212 on the car that rolls straight on a plane: after 2 s it is 120 m further. -/
example (solve : Vec3 × Vec3 × Vec3 → Vec3 → Vec3) : ∃ after,
    propagate (guesses carAway) (vehicles solve) exTables ⟨"car".toList, [], 0, 2, false, "one"⟩ carArrays
      = ⟨after, .ok ()⟩ ∧ after.q[11]? = some 120 ∧
    ∃ (opts : StepOptions) (q' : Nat → ℝ), opts.sigma = 1 ∧ Replaces 14 carArrays q' after ∧
      F1OnPlane opts.sigma 2 opts.tolerance F1.calmCar F1.straightInputs F1.straightControls F1.calmCar q'
        F1.straightControls := by
  have hmv : Moves (vehicles solve) exTables ⟨"car".toList, [], 0, 2, false, "one"⟩ (f1OnPlane fun _ => F1.calmCar) :=
    .inr ⟨rfl, _, rfl, .inr ⟨rfl, rfl⟩⟩
  have hn : (f1OnPlane fun _ => F1.calmCar).nInputs = 14 := rfl
  have hu : (f1OnPlane fun _ => F1.calmCar).nControls = 4 := rfl
  have ho : readOptions (guesses carAway).texts (guesses carAway).parse (guesses carAway).defaults "one" =
      .ok ⟨1, 1000, 0, 1⟩ := by
    simp [readOptions, guesses, setIf, Res.bind, find?, child?, descend, Node.name, Node.children, Node.text]
  obtain ⟨X, hX⟩ := plane_rates
  have := (C213_outcome (guesses carAway) (vehicles solve) exTables ⟨"car".toList, [], 0, 2, false, "one"⟩
    carArrays hmv (by rw [hn]; simp [carArrays]) (by rw [hu]; simp [carArrays]) (by rw [hu]; simp [carArrays])
    ⟨1, 1000, 0, 1⟩ ho).1 carAway (by
      rw [hn, hu, carQ, carU.1, carU.2]
      refine if_pos fun k hk => ?_
      have h1 := hX F1.straightInputs (fun _ _ _ => rfl) 0 k hk
      have h2 := hX carAway (fun j _ hj => by simp [carAway, hj]) (0 + 2) k hk
      refine linear (by rw [h1.2, h2.2]) ?_
      rw [h1.1, h2.1, h1.2]
      by_cases h : k = 11
      · simp [h, carAway, F1.straightInputs]; norm_num
      · simp [h])
  generalize hp : propagate (guesses carAway) (vehicles solve) exTables ⟨"car".toList, [], 0, 2, false, "one"⟩ carArrays = p at this
  obtain ⟨after, res⟩ := p
  obtain ⟨rfl, hr⟩ := this
  obtain ⟨opts, q', h1, h2, h3⟩ := C212_f1_plane (guesses_solves carAway) solve exTables _ carArrays after
    (guesses_root carAway "one") hp rfl rfl rfl (fun _ => by norm_num [Mounted.new, F1.calmCar, F1.exCar])
    (fun _ => by norm_num [Mounted.new, F1.calmCar, F1.exCar])
  rw [carQ, carU.1, carU.2, calm_array] at h3
  refine ⟨after, rfl, by rw [hr.1 11 (by rw [hn]; norm_num)]; simp [carAway], opts, q', ?_, h2, h3⟩
  rcases h1 with h1 | ⟨-, doc, hd, -, h1, -⟩
  · exact absurd h1.1 (by decide)
  · obtain rfl : doc = .mk "options" "" [] [.mk "sigma" "one" [] []] := by
      simpa [guesses] using hd.symm
    rcases h1 with ⟨e, ⟨b, c, hb, hn', -⟩, he⟩ | ⟨h1, -⟩
    · have : e = .mk "sigma" "one" [] [] := by
        have : e ∈ (LapOptions.Node.mk "options" "" [] [.mk "sigma" "one" [] []]).children := by rw [hb]; simp
        simpa [Node.children] using this
      subst this
      simpa [guesses, Node.text] using he.symm
    · exact absurd rfl (h1 (.mk "sigma" "one" [] []) (by simp [Node.children]))

/-! A kart that rolls at 10 m/s. -/

/-- Arrays for the kart. -/
noncomputable def kartArrays : Arrays := ⟨(List.range 13).map rollInputs, [0, 0], [0, 0]⟩

theorem kartQ : arrayOf (kartArrays.q.take 13) = rollInputs :=
  arrayOf_range fun k hk => by simp only [rollInputs]; rw [if_neg (by omega), if_neg (by omega), if_neg (by omega)]

theorem kart_members (q u : Nat → ℝ) (hu : u 0 = 0 ∧ u 1 = 0) (hq : ∀ j, j < 13 → j ≠ 10 → q j = rollInputs j) :
    Kart.setState q u = { rollMembers with road1 := q 10 } := by
  rw [kart_setState_clock q rollInputs u hq, roll_members u hu]
  rfl

/-- The derivatives of the kart that rolls straight, with those of the road. -/
theorem roll_rates {solve : Vec3 × Vec3 × Vec3 → Vec3 → Vec3} (hs : Kart.Solver solve) (x : ℝ) (r : Kart.RoadOut) (k : Nat) :
    (Kart.evaluate solve rollKart { rollMembers with road1 := x } r).dstates.getD k 0 =
      if k = 10 then r.rates.1 * r.dtimeds else if k = 11 then r.rates.2.1 * r.dtimeds else
      if k = 12 then r.rates.2.2 * r.dtimeds else 0 := by
  obtain ⟨r1, r2, r3, -⟩ := roll_out hs r.heading
  have g1 (m : Kart.Members) (x : ℝ) : Kart.frontAxle rollKart { m with road1 := x } = Kart.frontAxle rollKart m := rfl
  have g2 (m : Kart.Members) (x : ℝ) : Kart.rearAxle rollKart { m with road1 := x } = Kart.rearAxle rollKart m := rfl
  have g3 (m : Kart.Members) (x hd : ℝ) : Kart.aeroForce rollKart { m with road1 := x } hd =
    Kart.aeroForce rollKart m hd := rfl
  have h1 (m : Kart.Members) (x hd : ℝ) : Kart.dvdt rollKart { m with road1 := x } hd = Kart.dvdt rollKart m hd := by
    simp only [Kart.dvdt, Kart.totalForce, Kart.newtonLhs, g1, g2, g3]
  have h2 (m : Kart.Members) (x hd : ℝ) : Kart.angularAcceleration solve rollKart { m with road1 := x } hd =
    Kart.angularAcceleration solve rollKart m hd := by
    simp only [Kart.angularAcceleration, Kart.totalTorque, Kart.eulerM, Kart.eulerLhs, Kart.comPosition, g1, g2, g3, h1]
  have h3 (m : Kart.Members) (x : ℝ) : Kart.axleAcceleration rollKart { m with road1 := x } =
    Kart.axleAcceleration rollKart m := by
    simp only [Kart.axleAcceleration, g2]
  simp only [Kart.evaluate, Kart.allStates, h1, h2, h3, r1, r2, r3]
  match k with
  | 0 | 1 | 2 | 3 | 4 | 5 | 6 | 7 | 8 | 9 | 10 | 11 | 12 => simp [rollMembers]
  | k + 13 => simp

theorem roll_states (solve : Vec3 × Vec3 × Vec3 → Vec3 → Vec3) (c : Kart.Vehicle) (q u : Nat → ℝ) (r : Kart.RoadOut)
    (k : Nat) (hk : k < 13) : (Kart.evaluate solve c (Kart.setState q u) r).states.getD k 0 = q k := by
  interval_cases k <;> rfl

/-- The kart `d` further, or later. -/
noncomputable def kartAfter (d : ℝ) : Nat → ℝ := fun k => if k = 10 then d else rollInputs k

theorem roll_step {solve : Vec3 × Vec3 × Vec3 → Vec3 → Vec3} {d L : ℝ} {a : Step} {m : Motion}
    (hmv : Moves (vehicles solve) exTables a m) (hn : m.nInputs = 13) (hu : m.nControls = 2) (ho : a.options = "")
    (hL : a.ds = L) {rate : ℝ} (hd : d = L * rate)
    (he1 : ∀ q s k, k < 13 → (m.eval q [0, 0] s).1 k = q k)
    (he2 : ∀ q s k, k < 13 → (∀ j, j < 13 → j ≠ 10 → q j = rollInputs j) →
      (m.eval q [0, 0] s).2 k = if k = 10 then rate else 0) :
    ∃ after, propagate (guesses (kartAfter d)) (vehicles solve) exTables a kartArrays = ⟨after, .ok ()⟩ ∧
      Replaces 13 kartArrays (kartAfter d) after := by
  have := (C213_outcome (guesses (kartAfter d)) (vehicles solve) exTables a kartArrays hmv (by rw [hn]; simp [kartArrays])
    (by rw [hu]; simp [kartArrays]) (by rw [hu]; simp [kartArrays]) (guesses (kartAfter d)).defaults
    (by rw [ho]; rfl)).1 (kartAfter d) (by
      rw [hn, hu, kartQ]
      refine if_pos fun k hk => ?_
      rw [hn] at hk
      show Changes _ _ _ ((m.eval rollInputs [0, 0] _).1 k) ((m.eval (kartAfter d) [0, 0] _).1 k)
        ((m.eval rollInputs [0, 0] _).2 k) ((m.eval (kartAfter d) [0, 0] _).2 k)
      rw [he1 _ _ _ hk, he1 _ _ _ hk, he2 _ _ _ hk (fun _ _ _ => rfl),
        he2 _ _ _ hk (fun j _ hj => by simp [kartAfter, hj])]
      refine linear rfl ?_
      by_cases h : k = 10
      · simp [h, kartAfter, rollInputs, hL, hd]
      · simp [h, kartAfter])
  rw [hn] at this
  exact ⟨_, by rw [← this.1], this.2⟩

/-- C212 on the kart on a plane: after 3 s it is 30 m further. -/
example {solve : Vec3 × Vec3 × Vec3 → Vec3 → Vec3} (hs : Kart.Solver solve) : ∃ after,
    propagate (guesses (kartAfter 30)) (vehicles solve) exTables ⟨"kart".toList, [], 0, 3, false, ""⟩ kartArrays
      = ⟨after, .ok ()⟩ ∧ after.q[10]? = some 30 ∧
    ∃ (opts : StepOptions) (q' : Nat → ℝ), Replaces 13 kartArrays q' after ∧
      KartOnPlane solve opts.sigma 3 opts.tolerance rollKart rollInputs (arrayOf [0, 0]) rollKart q' (arrayOf [0, 0]) := by
  obtain ⟨after, h, hr⟩ := roll_step (solve := solve) (d := 30) (L := 3) (rate := 10)
    (a := ⟨"kart".toList, [], 0, 3, false, ""⟩) (m := kartOnPlane solve fun _ => rollKart) (.inl ⟨_, rfl, .inr ⟨rfl, rfl⟩⟩)
    rfl rfl rfl rfl (by norm_num) (fun q s k hk => roll_states solve _ q _ _ k hk)
    (fun q s k hk hq => by
      show (Kart.evaluate solve rollKart (Kart.setState q (arrayOf [0, 0])) _).dstates.getD k 0 = _
      rw [kart_members q _ ⟨rfl, rfl⟩ hq, roll_rates hs]
      simp only [Kart.roadCartesian, cartesian, rollMembers]
      split_ifs <;> simp)
  obtain ⟨opts, q', -, h2, h3⟩ := C212_kart_plane (guesses_solves _) solve exTables _ kartArrays after
    (guesses_root _ "") h rfl rfl
  rw [kartQ] at h3
  exact ⟨after, h, by rw [hr.1 10 (by norm_num)]; simp [kartAfter], opts, q', h2, h3⟩

/-- C212 on the kart along a straight track: after 20 m its clock shows 2 s. -/
example {solve : Vec3 × Vec3 × Vec3 → Vec3 → Vec3} (hs : Kart.Solver solve) : ∃ after,
    propagate (guesses (kartAfter 2)) (vehicles solve) exTables ⟨"kart".toList, "track".toList, 10, 20, true, ""⟩ kartArrays
      = ⟨after, .ok ()⟩ ∧ after.q[10]? = some 2 ∧
    ∃ (opts : StepOptions) (q' : Nat → ℝ), Replaces 13 kartArrays q' after ∧
      KartElement solve opts.sigma 20 opts.tolerance rollKart F1.exStraight rollInputs (arrayOf [0, 0]) rollKart
        F1.exStraight q' (arrayOf [0, 0]) := by
  obtain ⟨after, h, hr⟩ := roll_step (solve := solve) (d := 2) (L := 20) (rate := 1 / 10)
    (a := ⟨"kart".toList, "track".toList, 10, 20, true, ""⟩) (m := kartOnTrack solve (fun _ => rollKart) straightTrack)
    (.inl ⟨_, rfl, .inl ⟨rfl, straightTrack, rfl, rfl⟩⟩)
    rfl rfl rfl rfl (by norm_num) (fun q s k hk => roll_states solve _ q _ _ k hk)
    (fun q s k hk hq => by
      show (Kart.evaluate solve rollKart (Kart.setState q (arrayOf [0, 0])) _).dstates.getD k 0 = _
      rw [kart_members q _ ⟨rfl, rfl⟩ hq, roll_rates hs]
      simp only [Kart.roadCurvilinear, Road.update, curvature, straightTrack, F1.exStraight, rollMembers]
      split_ifs <;> simp)
  obtain ⟨opts, q', -, h2, h3⟩ := C212_kart_track (guesses_solves _) solve exTables _ kartArrays after
    (guesses_root _ "") h rfl rfl rfl (fun _ => ⟨rfl, rfl, rfl, rfl⟩)
  have hq : ∀ k, k < 13 → q' k = kartAfter 2 k := fun k hk => Option.some.inj ((h2.1 k hk).symm.trans (hr.1 k hk))
  rw [kartQ] at h3
  refine ⟨after, h, by rw [hr.1 10 (by norm_num)]; simp [kartAfter], opts, q', h2, (h3 ?_ ?_).1⟩
  · norm_num [kartPace, pace, straightTrack, F1.exStraight, rollInputs]
  · norm_num [kartPace, pace, straightTrack, F1.exStraight, rollInputs, hq, kartAfter]

/-- C213 on calls that fail: options that are not a document, a track that is missing, arrays that are too short, and a
vehicle that is missing. -/
example (solve : Vec3 × Vec3 × Vec3 → Vec3 → Vec3) :
    (propagate (guesses carAfter) (vehicles solve) exTables ⟨"car".toList, [], 0, 2, false, "bad"⟩ carArrays).result = .throw ∧
    (propagate (guesses carAfter) (vehicles solve) exTables ⟨"car".toList, [], 0, 2, true, ""⟩ carArrays).mem = carArrays ∧
    (propagate (guesses carAfter) (vehicles solve) exTables ⟨"car".toList, [], 0, 2, false, ""⟩ kartArrays).result = .ub ∧
    propagate (guesses carAfter) (vehicles solve) exTables ⟨"cat".toList, [], 0, 2, false, ""⟩ carArrays = ⟨carArrays, .ok ()⟩ := by
  have hmv (o : String) : Moves (vehicles solve) exTables ⟨"car".toList, [], 0, 2, false, o⟩ (f1OnPlane fun _ => F1.calmCar) :=
    .inr ⟨rfl, _, rfl, .inr ⟨rfl, rfl⟩⟩
  have hn : (f1OnPlane fun _ => F1.calmCar).nInputs = 14 := rfl
  have hu : (f1OnPlane fun _ => F1.calmCar).nControls = 4 := rfl
  refine ⟨C213_options_failure _ _ _ _ _ (hmv _) (by rw [hn]; simp [carArrays]) (by rw [hu]; simp [carArrays])
    (by rw [hu]; simp [carArrays]) (by simp) (.inl (by simp [guesses])), C213_failure _ _ _ _ _ ?_,
    C213_short _ _ _ _ _ (hmv _) (.inl (by rw [hn]; simp [kartArrays])), C213_false _ _ _ _ _ rfl rfl⟩
  rw [C213_no_track _ _ _ _ _ (.inr (by simp [exTables])) rfl (by simp [exTables])]
  simp

end ex

end Verif.Propagation
