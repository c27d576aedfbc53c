import Verif.Spec.LapTurned
import Verif.Lemmas.Outputs
import Verif.Props.LapOutputs
import Verif.Props.LapMirror
import Verif.Props.Track

/-! Property C255: laps do not depend on where a circuit lies, nor on the direction it faces if the wind turns with it.
Property C256: the data of a turned circuit give the turned track. -/

set_option autoImplicit false

namespace Verif.LapVehicles

open Verif.Road Verif.Chassis Verif.Outputs Real

/-! ### The wind -/

theorem toBody_turn (θ : ℝ) (p : Aero) (a : Attitude) :
    toBody { a with yaw := a.yaw + θ } ((turnWind θ p).eastward, -(turnWind θ p).northward, 0) =
      toBody a (p.eastward, -p.northward, 0) := by
  have e : rotZ (-(a.yaw + θ)) ((turnWind θ p).eastward, -(turnWind θ p).northward, 0) =
      rotZ (-a.yaw) (p.eastward, -p.northward, 0) := by
    have h := sin_sq_add_cos_sq θ
    apply vec_ext <;> simp only [rotZ, turnWind, cos_neg, sin_neg, sin_add, cos_add]
    · linear_combination (cos a.yaw * p.eastward - sin a.yaw * p.northward) * h
    · linear_combination (-sin a.yaw * p.eastward - cos a.yaw * p.northward) * h
  simp only [toBody, e]

theorem aeroForces_turn (θ : ℝ) (p : Aero) (a : Attitude) (v : Vec3) :
    aeroForces (turnWind θ p) { a with yaw := a.yaw + θ } v = aeroForces p a v := by
  simp only [aeroForces, toBody_turn]
  rfl

theorem aeroForces_kart (θ : ℝ) (p : Aero) (h : ℝ) (v : Vec3) :
    aeroForces (turnWind θ p) ⟨0, 0, 0, h + θ⟩ v = aeroForces p ⟨0, 0, 0, h⟩ v := by
  have e : ∀ (q : Aero) (x : ℝ), aeroForces q ⟨0, 0, 0, x⟩ v = aeroForces q ⟨x, 0, 0, 0⟩ v := fun q x => by
    rw [Kart.C169_heading q x 0, add_zero]
  rw [e, e]
  exact aeroForces_turn θ p ⟨h, 0, 0, 0⟩ v

/-! ### The vehicles -/

theorem f1_setState (θ : ℝ) (c : F1.Car) (q u : Nat → ℝ) : F1.setState (windF1 θ c) q u = F1.setState c q u := rfl

theorem f1_carUpdate (θ : ℝ) (d : Vec3) (c : F1.Car) (m : F1.Members) (f : TrackPoint) :
    let o := F1.carUpdate c m (F1.roadCurvilinear f m)
    F1.carUpdate (windF1 θ c) m (F1.roadCurvilinear (turnPoint θ d f) m) =
      { o with input := { o.input with att := { o.input.att with yaw := o.input.att.yaw + θ } } } := by
  intro o
  have ha : Chassis.aeroForce (windF1 θ c).chassis
      (F1.carUpdate (windF1 θ c) m (F1.roadCurvilinear (turnPoint θ d f) m)).input = Chassis.aeroForce c.chassis o.input := by
    have := aeroForces_turn θ c.chassis.aero o.input.att (o.input.u, o.input.v, o.input.groundVz)
    simp only [Chassis.aeroForce]
    rw [← this]
    rfl
  have hT : ∀ x y, Chassis.totalTorque (windF1 θ c).chassis
      (F1.carUpdate (windF1 θ c) m (F1.roadCurvilinear (turnPoint θ d f) m)).input x y =
      Chassis.totalTorque c.chassis o.input x y := by
    intro x y
    simp only [Chassis.totalTorque, ha]
    rfl
  have hu : ∀ x y, Chassis.update (windF1 θ c).chassis
      (F1.carUpdate (windF1 θ c) m (F1.roadCurvilinear (turnPoint θ d f) m)).input x y =
      Chassis.update c.chassis o.input x y := by
    intro x y
    simp only [Chassis.update, ha, hT]
    rfl
  have e : F1.carUpdate (windF1 θ c) m (F1.roadCurvilinear (turnPoint θ d f) m) =
      ⟨(F1.carUpdate (windF1 θ c) m (F1.roadCurvilinear (turnPoint θ d f) m)).input, o.front, o.rear,
        Chassis.update (windF1 θ c).chassis (F1.carUpdate (windF1 θ c) m (F1.roadCurvilinear (turnPoint θ d f) m)).input
          o.front.forces o.rear.forces⟩ := rfl
  rw [e, hu]
  rfl

theorem f1_eval (θ : ℝ) (d : Vec3) (car : ℝ → F1.Car) (power : ℝ) (t : Circuit) :
    f1Eval (fun s => windF1 θ (car s)) power (turnCircuit θ d t) = f1Eval car power t := by
  funext q u s
  obtain ⟨m, hm⟩ : ∃ m, m = F1.setState (car s) q (arrayOf u) := ⟨_, rfl⟩
  have hc := f1_carUpdate θ d (car s) m (t.at_ s)
  have he : F1.evaluate (windF1 θ (car s)) m (F1.roadCurvilinear (turnPoint θ d (t.at_ s)) m) =
      F1.evaluate (car s) m (F1.roadCurvilinear (t.at_ s) m) := by
    have hall : F1.allStates (windF1 θ (car s)) m (F1.roadCurvilinear (turnPoint θ d (t.at_ s)) m)
        (F1.carUpdate (windF1 θ (car s)) m (F1.roadCurvilinear (turnPoint θ d (t.at_ s)) m)) =
        F1.allStates (car s) m (F1.roadCurvilinear (t.at_ s) m) (F1.carUpdate (car s) m (F1.roadCurvilinear (t.at_ s) m)) := by
      rw [hc]
      rfl
    simp only [F1.evaluate, hall]
    rfl
  simp only [f1Eval, f1_setState, ← hm]
  rw [show (turnCircuit θ d t).at_ s = turnPoint θ d (t.at_ s) from rfl, he, hc]
  rfl

theorem kart_aero (θ : ℝ) (c : Kart.Vehicle) (m : Kart.Members) (h : ℝ) :
    Kart.aeroForce (windKart θ c) m (h + θ) = Kart.aeroForce c m h := by
  simp only [Kart.aeroForce, windKart, aeroForces_kart]

theorem kart_force (θ : ℝ) (c : Kart.Vehicle) (m : Kart.Members) (h : ℝ) :
    Kart.totalForce (windKart θ c) m (h + θ) = Kart.totalForce c m h := by
  simp only [Kart.totalForce, kart_aero]
  rfl

theorem kart_torque (θ : ℝ) (c : Kart.Vehicle) (m : Kart.Members) (h : ℝ) :
    Kart.totalTorque (windKart θ c) m (h + θ) = Kart.totalTorque c m h := by
  simp only [Kart.totalTorque, kart_aero]
  rfl

theorem kart_dvdt (θ : ℝ) (c : Kart.Vehicle) (m : Kart.Members) (h : ℝ) :
    Kart.dvdt (windKart θ c) m (h + θ) = Kart.dvdt c m h := by
  simp only [Kart.dvdt, kart_force]
  rfl

theorem kart_angular (solve : Vec3 × Vec3 × Vec3 → Vec3 → Vec3) (θ : ℝ) (c : Kart.Vehicle) (m : Kart.Members) (h : ℝ) :
    Kart.angularAcceleration solve (windKart θ c) m (h + θ) = Kart.angularAcceleration solve c m h := by
  simp only [Kart.angularAcceleration, kart_dvdt, kart_torque]
  rfl

theorem kart_eval (solve : Vec3 × Vec3 × Vec3 → Vec3 → Vec3) (θ : ℝ) (d : Vec3) (kart : ℝ → Kart.Vehicle) (t : Circuit) :
    kartEval solve (fun s => windKart θ (kart s)) (turnCircuit θ d t) = kartEval solve kart t := by
  funext q u s
  have hh : ∀ m, (Kart.roadCurvilinear (turnPoint θ d (t.at_ s)) m).heading =
      (Kart.roadCurvilinear (t.at_ s) m).heading + θ := fun m => by
    simp only [Kart.roadCurvilinear, turnPoint]
    ring
  have hall : ∀ m, Kart.allStates solve (windKart θ (kart s)) m (Kart.roadCurvilinear (turnPoint θ d (t.at_ s)) m) =
      Kart.allStates solve (kart s) m (Kart.roadCurvilinear (t.at_ s) m) := by
    intro m
    simp only [Kart.allStates, hh, kart_dvdt, kart_angular]
    rfl
  have he : ∀ m, Kart.evaluate solve (windKart θ (kart s)) m (Kart.roadCurvilinear (turnPoint θ d (t.at_ s)) m) =
      Kart.evaluate solve (kart s) m (Kart.roadCurvilinear (t.at_ s) m) := by
    intro m
    simp only [Kart.evaluate, hall]
    rfl
  simp only [kartEval]
  rw [show (turnCircuit θ d t).at_ s = turnPoint θ d (t.at_ s) from rfl, he]
  rfl

/-- C255: turned about the vertical together with the wind, and moved anywhere, a circuit has the same laps of the F1 car: for
every request and every optimiser the same lap is returned, or the same error. -/
theorem C255_f1 (lowest max θ : ℝ) (d : Vec3) (car : ℝ → F1.Car) (bias0 power : ℝ) (junk : Nat → F1.Limits) (ready tf : Bool)
    (t : Circuit) (opt : Transcription.Optimiser ℝ) (r : Transcription.Request ℝ) :
    Transcription.solveLap lowest max (f1Vehicle (fun s => windF1 θ (car s)) bias0 power junk ready (turnCircuit θ d t)) tf opt r =
      Transcription.solveLap lowest max (f1Vehicle car bias0 power junk ready t) tf opt r := by
  have : f1Vehicle (fun s => windF1 θ (car s)) bias0 power junk ready (turnCircuit θ d t) =
      f1Vehicle car bias0 power junk ready t := by
    simp only [f1Vehicle, f1_eval]
    rfl
  rw [this]

/-- C255 for the kart. -/
theorem C255_kart (lowest max θ : ℝ) (d : Vec3) (solve : Vec3 × Vec3 × Vec3 → Vec3 → Vec3) (kart : ℝ → Kart.Vehicle)
    (directTorque : Bool) (junk : Nat → F1.Limits) (ready tf : Bool) (t : Circuit) (opt : Transcription.Optimiser ℝ)
    (r : Transcription.Request ℝ) :
    Transcription.solveLap lowest max (kartVehicle solve (fun s => windKart θ (kart s)) directTorque junk ready (turnCircuit θ d t))
        tf opt r =
      Transcription.solveLap lowest max (kartVehicle solve kart directTorque junk ready t) tf opt r := by
  have : kartVehicle solve (fun s => windKart θ (kart s)) directTorque junk ready (turnCircuit θ d t) =
      kartVehicle solve kart directTorque junk ready t := by
    simp only [kartVehicle, kart_eval]
    rfl
  rw [this]

/-! ### The outputs -/

theorem placed_add (θ : ℝ) (d v w : Vec3) : placed θ d (v + w) = placed θ d v + rotZ θ w := by
  apply vec_ext <;> simp [placed, rotZ] <;> ring

theorem placed_zero (θ : ℝ) (v : Vec3) : placed θ 0 v = rotZ θ v := by
  apply vec_ext <;> simp [placed, rotZ]

theorem absolute_turn (θ : ℝ) (a : Attitude) (v : Vec3) :
    absolute { a with yaw := a.yaw + θ } v = rotZ θ (absolute a v) := by
  apply vec_ext <;> simp only [absolute, rotZ, sin_add, cos_add] <;> ring

/-- The state of the turned vehicle. -/
noncomputable def turnState (θ : ℝ) (d : Vec3) (s : State) : State :=
  { chassis := { s.chassis with ground := placed θ d s.chassis.ground, att := { s.chassis.att with yaw := s.chassis.att.yaw + θ },
                                aero := turnWind θ s.chassis.aero }
    fl := { s.fl with position := placed θ d s.fl.position }, fr := { s.fr with position := placed θ d s.fr.position }
    rl := { s.rl with position := placed θ d s.rl.position }, rr := { s.rr with position := placed θ d s.rr.position } }

theorem update_turn (θ : ℝ) (d : Vec3) (f : TrackPoint) (n alpha u v omega : ℝ) :
    (Road.update (turnPoint θ d f) n alpha u v omega).position = placed θ d (Road.update f n alpha u v omega).position := by
  simp only [Road.update]
  rw [placed_add]
  have : n • normal (turnPoint θ d f) = rotZ θ (n • normal f) := by
    apply vec_ext <;> simp [normal, turnPoint, rotZ, sin_add, cos_add] <;> ring
  rw [this]
  rfl

theorem f1_track (θ : ℝ) (d : Vec3) (c : F1.Car) (f : TrackPoint) (q u : Nat → ℝ) :
    f1Track (windF1 θ c) (turnPoint θ d f) q u = turnState θ d (f1Track c f q u) := by
  obtain ⟨m, hm⟩ : ∃ m, m = F1.setState c q u := ⟨_, rfl⟩
  have hc := f1_carUpdate θ d c m f
  have ht : ∀ (R0 : ℝ) (g : Vec3) (a : Attitude) (x : Vec3) (y delta : ℝ) (vel om : Vec3) (w : F1.WheelOut),
      f1Tyre R0 (placed θ d g) { a with yaw := a.yaw + θ } x y delta vel om w =
        { f1Tyre R0 g a x y delta vel om w with position := placed θ d (f1Tyre R0 g a x y delta vel om w).position } := by
    intro R0 g a x y delta vel om w
    simp only [f1Tyre, placed_add, absolute_turn]
  simp only [f1Track, f1_setState, ← hm, update_turn]
  simp only [f1State, hc, turnState]
  have hr : (F1.roadCurvilinear (turnPoint θ d f) m) =
      { F1.roadCurvilinear f m with att := { (F1.roadCurvilinear f m).att with yaw := (F1.roadCurvilinear f m).att.yaw + θ } } := rfl
  rw [hr]
  simp only [ht]
  rfl

theorem kart_track (solve : Vec3 × Vec3 × Vec3 → Vec3 → Vec3) (θ : ℝ) (d : Vec3) (c : Kart.Vehicle) (f : TrackPoint)
    (q u : Nat → ℝ) : kartTrack solve (windKart θ c) (turnPoint θ d f) q u = turnState θ d (kartTrack solve c f q u) := by
  have ht : ∀ (R0 : ℝ) (g : Vec3) (a : Attitude) (x dx : Vec3) (y h dh delta : ℝ) (vel om : Vec3) (w : F1.WheelOut),
      kartTyre R0 (placed θ d g) { a with yaw := a.yaw + θ } x dx y h dh delta vel om w =
        { kartTyre R0 g a x dx y h dh delta vel om w with
          position := placed θ d (kartTyre R0 g a x dx y h dh delta vel om w).position } := by
    intro R0 g a x dx y h dh delta vel om w
    simp only [kartTyre, placed_add, absolute_turn]
  have hx : ∀ (m : Kart.Members) (k : Kart.AxleK) (x : Vec3) (delta : ℝ) (o : Kart.AxleOut) (g : Vec3) (a : Attitude),
      kartAxle (windKart θ c) m k x delta o (placed θ d g) { a with yaw := a.yaw + θ } =
        ({ (kartAxle c m k x delta o g a).1 with position := placed θ d (kartAxle c m k x delta o g a).1.position },
         { (kartAxle c m k x delta o g a).2 with position := placed θ d (kartAxle c m k x delta o g a).2.position }) := by
    intro m k x delta o g a
    simp only [kartAxle, ht]
    rfl
  simp only [kartTrack, update_turn]
  have hf : ∀ m, Kart.frontAxle (windKart θ c) m = Kart.frontAxle c m := fun _ => rfl
  have hr : ∀ m, Kart.rearAxle (windKart θ c) m = Kart.rearAxle c m := fun _ => rfl
  have hy : ∀ x : ℝ, f.yaw + θ + x = f.yaw + x + θ := fun x => by ring
  have hp : (turnPoint θ d f).yaw = f.yaw + θ := rfl
  have hx' : ∀ (m : Kart.Members) (k : Kart.AxleK) (x : Vec3) (delta : ℝ) (o : Kart.AxleOut) (g : Vec3) (b : ℝ),
      kartAxle (windKart θ c) m k x delta o (placed θ d g) ⟨f.yaw + θ, 0, 0, b⟩ =
        ({ (kartAxle c m k x delta o g ⟨f.yaw, 0, 0, b⟩).1 with
            position := placed θ d (kartAxle c m k x delta o g ⟨f.yaw, 0, 0, b⟩).1.position },
         { (kartAxle c m k x delta o g ⟨f.yaw, 0, 0, b⟩).2 with
            position := placed θ d (kartAxle c m k x delta o g ⟨f.yaw, 0, 0, b⟩).2.position }) := fun m k x delta o g b =>
    hx m k x delta o g ⟨f.yaw, 0, 0, b⟩
  simp only [kartState, hp, hy, kart_force, kart_torque, kart_angular, hf, hr, hx', turnState]
  rfl

theorem mem_tyre_turn {θ : ℝ} {d : Vec3} {s : State} {i : Outputs.Corner} {n : String} {x : ℝ}
    (h : (n, x) ∈ tyreValues i.name s.chassis.att (s.tyre i)) (hn : ¬ TellsPlace n) :
    (n, x) ∈ tyreValues i.name (turnState θ d s).chassis.att ((turnState θ d s).tyre i) := by
  have hne : ∀ y ∈ [i.name ++ ".position.x", i.name ++ ".position.y", i.name ++ ".position.z",
      i.name ++ ".force.inertial.x", i.name ++ ".force.inertial.y"], n ≠ y := fun y hy h => hn (Or.inr ⟨i, h ▸ hy⟩)
  obtain ⟨t, ht⟩ : ∃ t, t = s.tyre i := ⟨_, rfl⟩
  have htt : (turnState θ d s).tyre i = { t with position := placed θ d t.position } := by
    subst ht
    cases i <;> rfl
  have hz : ∀ w, (absolute (turnState θ d s).chassis.att w).2.2 = (absolute s.chassis.att w).2.2 := fun w => by
    rw [show (turnState θ d s).chassis.att = { s.chassis.att with yaw := s.chassis.att.yaw + θ } from rfl, absolute_turn]
    rfl
  rw [← ht] at h
  rw [htt]
  simp only [tyreValues, List.mem_cons, Prod.mk.injEq, List.not_mem_nil, or_false] at h ⊢
  simp only [hz]
  simp only [List.mem_cons, List.not_mem_nil, or_false, forall_eq_or_imp, forall_eq] at hne
  obtain ⟨n1, n2, n3, n4, n5⟩ := hne
  simp only [n1, n2, n3, n4, n5, false_and, false_or] at h ⊢
  exact h

theorem outputs_turn (θ : ℝ) (d : Vec3) (s : State) : TurnedOutputs θ d (values s) (values (turnState θ d s)) where
  chassis := by
    simp only [chassis_position_x, chassis_position_y]
    exact ⟨rfl, rfl⟩
  heading := by
    simp only [chassis_attitude_yaw, turnState]
    ring
  tyres := fun i => by
    rw [tyre_position, tyre_position]
    cases i <;> rfl
  forces := fun i => by
    rw [tyre_inertial, tyre_inertial, placed_zero]
    have hi : ((turnState θ d s).tyre i).delta = (s.tyre i).delta ∧ ((turnState θ d s).tyre i).force = (s.tyre i).force := by
      cases i <;> exact ⟨rfl, rfl⟩
    rw [hi.1, hi.2]
    exact absolute_turn θ s.chassis.att _
  others := by
    intro n hn hp
    rw [← keys_values s] at hn
    obtain ⟨⟨n', x⟩, hm, rfl⟩ := List.mem_map.1 hn
    rw [value_mem hm]
    refine value_mem ?_
    rw [values_eq] at hm ⊢
    simp only [List.mem_append] at hm ⊢
    rcases hm with (h | h | h) | h | h
    · left; left
      have hne : ∀ y ∈ ["chassis.position.x", "chassis.position.y", "chassis.attitude.yaw"], n' ≠ y := fun y hy h =>
        hp (Or.inl (h ▸ hy))
      have ha : aeroForces (turnState θ d s).chassis.aero (turnState θ d s).chassis.att
          ((turnState θ d s).chassis.u, (turnState θ d s).chassis.v, (turnState θ d s).chassis.groundVz) =
          aeroForces s.chassis.aero s.chassis.att (s.chassis.u, s.chassis.v, s.chassis.groundVz) := aeroForces_turn θ _ _ _
      simp only [chassisValues, ha, List.mem_cons, Prod.mk.injEq, List.not_mem_nil, or_false] at h ⊢
      simp only [List.mem_cons, List.not_mem_nil, or_false, forall_eq_or_imp, forall_eq] at hne
      obtain ⟨n1, n2, n3⟩ := hne
      simp only [n1, n2, n3, false_and, false_or] at h ⊢
      exact h
    · left; right; left
      exact mem_tyre_turn (i := .frontLeft) h hp
    · left; right; right
      exact mem_tyre_turn (i := .frontRight) h hp
    · right; left
      exact mem_tyre_turn (i := .rearLeft) h hp
    · right; right
      exact mem_tyre_turn (i := .rearRight) h hp

/-- C255: at every point of the lap the outputs of the F1 car are turned and moved with the circuit. -/
theorem C255_outputs_f1 (θ : ℝ) (d : Vec3) (c : F1.Car) (f : TrackPoint) (q u : Nat → ℝ) :
    TurnedOutputs θ d (values (f1Track c f q u)) (values (f1Track (windF1 θ c) (turnPoint θ d f) q u)) := by
  rw [f1_track]
  exact outputs_turn θ d _

/-- C255: and so are those of the kart. -/
theorem C255_outputs_kart (solve : Vec3 × Vec3 × Vec3 → Vec3 → Vec3) (θ : ℝ) (d : Vec3) (c : Kart.Vehicle) (f : TrackPoint)
    (q u : Nat → ℝ) :
    TurnedOutputs θ d (values (kartTrack solve c f q u)) (values (kartTrack solve (windKart θ c) (turnPoint θ d f) q u)) := by
  rw [kart_track]
  exact outputs_turn θ d _

/-! ### C256: the data of a circuit -/

theorem line_affine {α : Type} (f g h : α → ℝ) (a b k : ℝ) (hh : ∀ p, h p = a * f p + b * g p + k) (t : ℝ) :
    ∀ (s : List ℝ) (pts : List α), Track.line s (pts.map h) t =
      (Track.line s (pts.map f) t).bind fun x => (Track.line s (pts.map g) t).map fun y => a * x + b * y + k
  | s0 :: s1 :: s, p0 :: p1 :: pts => by
    have ih := line_affine f g h a b k hh t (s1 :: s) (p1 :: pts)
    simp only [List.map_cons] at ih ⊢
    unfold Track.line
    by_cases h1 : t < s0
    · simp [h1]
    · by_cases h2 : t ≤ s1
      · simp only [h1, h2, if_true, if_false, Option.bind_some, Option.map_some, hh]
        congr 1
        ring
      · simp only [h1, h2, if_false]
        exact ih
  | [], _ => by simp [Track.line]
  | [_], _ => by simp [Track.line]
  | _ :: _ :: _, [] => by simp [Track.line]
  | _ :: _ :: _, [_] => by simp [Track.line]

theorem line_shift {α : Type} (f h : α → ℝ) (k : ℝ) (hh : ∀ p, h p = f p + k) (t : ℝ) (s : List ℝ) (pts : List α) :
    Track.line s (pts.map h) t = (Track.line s (pts.map f) t).map (· + k) := by
  rw [line_affine f f h 1 0 k (fun p => by rw [hh]; ring)]
  cases Track.line s (pts.map f) t <;> simp

theorem closeWith_map {α β : Type} (f : α → β) (closed : Bool) (l : List α) :
    Track.closeWith closed (l.map f) = (Track.closeWith closed l).map (List.map f) := by
  cases closed <;> cases l <;> simp [Track.closeWith, Res.map]

/-- C256: the data of a turned and moved circuit are accepted if those of the circuit are, and give the turned and moved track,
with the same edges and length. It is elevated if the circuit is, unless it is moved vertically. -/
theorem C256_track_partial (θ : ℝ) (d : Vec3) (c : Track.Circuit) :
    (Track.build (turnData θ d c) = .throw ↔ Track.build c = .throw) ∧
    (Track.build (turnData θ d c) = .ub ↔ Track.build c = .ub) ∧
    ∀ P, Track.build c = .ok P → ∃ P', Track.build (turnData θ d c) = .ok P' ∧
      (∀ t, P'.at t = (P.at t).map (turnPoint θ d)) ∧ (∀ k t, P'.leftLimit k t = P.leftLimit k t) ∧
      (∀ k t, P'.rightLimit k t = P.rightLimit k t) ∧ P'.totalLength = P.totalLength ∧
      (d.2.2 = 0 → ∀ tol, P'.hasElevation tol = P.hasElevation tol) := by
  have hnl : (turnData θ d c).pts.map Preprocessor.Point.nl = c.pts.map Preprocessor.Point.nl := by
    simp only [turnData, List.map_map]
    rfl
  have hnr : (turnData θ d c).pts.map Preprocessor.Point.nr = c.pts.map Preprocessor.Point.nr := by
    simp only [turnData, List.map_map]
    rfl
  have hpts : Track.closeWith (turnData θ d c).closed (turnData θ d c).pts =
      (Track.closeWith c.closed c.pts).map (List.map (turnNode θ d)) := closeWith_map _ _ _
  unfold Track.build
  rw [hnl, hnr, hpts]
  rw [show (turnData θ d c).leftKerbs = c.leftKerbs from rfl, show (turnData θ d c).rightKerbs = c.rightKerbs from rfl,
    show (turnData θ d c).closed = c.closed from rfl, show (turnData θ d c).s = c.s from rfl,
    show (turnData θ d c).trackLength = c.trackLength from rfl,
    show (turnData θ d c).withElevation = c.withElevation from rfl]
  cases Kerbs.augmentAll c.leftKerbs c.s (c.pts.map Preprocessor.Point.nl) with
  | throw => simp [Res.bind]
  | ub => simp [Res.bind]
  | ok nl =>
  cases Kerbs.augmentAll c.rightKerbs c.s (c.pts.map Preprocessor.Point.nr) with
  | throw => simp [Res.bind]
  | ub => simp [Res.bind]
  | ok nr =>
  simp only [Res.bind_ok]
  cases Track.closeWith c.closed c.pts with
  | throw => simp [Res.bind, Res.map]
  | ub => simp [Res.bind, Res.map]
  | ok pts =>
  cases Track.closeWith c.closed nl with
  | throw => simp [Res.bind, Res.map]
  | ub => simp [Res.bind, Res.map]
  | ok nl =>
  cases Track.closeWith c.closed nr with
  | throw => simp [Res.bind, Res.map]
  | ub => simp [Res.bind, Res.map]
  | ok nr =>
  simp only [Res.map, Res.bind_ok]
  generalize (if c.closed = true then c.s ++ [c.trackLength] else c.s) = s
  cases s.head? with
  | none => simp
  | some a =>
  cases s.getLast? with
  | none => simp
  | some b =>
  refine ⟨by simp, by simp, ?_⟩
  intro P hP
  obtain rfl := Res.ok.inj hP
  refine ⟨_, rfl, ?_, fun _ _ => rfl, fun _ _ => rfl, rfl, ?_⟩
  · intro t
    have hx := line_affine Preprocessor.Point.x Preprocessor.Point.y (fun p => (turnNode θ d p).x) (cos θ) (-sin θ) d.1
      (fun p => by simp only [turnNode]; ring) t s pts
    have hy := line_affine Preprocessor.Point.x Preprocessor.Point.y (fun p => (turnNode θ d p).y) (sin θ) (cos θ) d.2.1
      (fun p => by simp only [turnNode]) t s pts
    have hz := line_shift Preprocessor.Point.z (fun p => (turnNode θ d p).z) d.2.2 (fun p => rfl) t s pts
    have hyaw := line_shift Preprocessor.Point.yaw (fun p => (turnNode θ d p).yaw) θ (fun p => rfl) t s pts
    simp only [Track.Polys.at, List.map_map, Function.comp_def]
    rw [hx, hy, hz, hyaw]
    cases Track.line s (pts.map Preprocessor.Point.x) t with
    | none => simp
    | some x =>
    cases Track.line s (pts.map Preprocessor.Point.y) t with
    | none => simp
    | some y =>
    cases Track.line s (pts.map Preprocessor.Point.z) t with
    | none => simp
    | some z =>
    cases Track.line s (pts.map Preprocessor.Point.yaw) t with
    | none => simp
    | some yaw =>
    simp only [Option.bind_some, Option.map_some, turnNode]
    rw [Option.map_bind]
    congr 1
    funext dyaw
    simp only [Function.comp]
    rw [Option.map_bind]
    congr 1
    funext pitch
    simp only [Function.comp]
    rw [Option.map_bind]
    congr 1
    funext roll
    simp only [Function.comp]
    rw [Option.map_bind]
    congr 1
    funext dpitch
    simp only [Function.comp, Option.map_map]
    congr 1
    funext droll
    simp only [Function.comp, turnPoint, placed]
    rw [neg_mul, ← sub_eq_add_neg]
  · intro hd tol
    simp only [Track.Polys.hasElevation, List.map_map]
    have e : (Preprocessor.Point.z ∘ turnNode θ d) = Preprocessor.Point.z := by
      funext p
      simp [turnNode, hd]
    rw [e]
    rfl

/-- C256 in full fails for circuits that are moved vertically: a flat ring is not elevated, the same ring one metre higher is,
so that the F1 car is driven by other equations and the kart rejects it (disagreement with the claim: the height is compared with
zero). -/
theorem C256_false (tol : ℝ) (ht : 0 ≤ tol) : ∃ (c : Track.Circuit) (P P' : Track.Polys),
    Track.build c = .ok P ∧ Track.build (turnData 0 (0, 0, 1) c) = .ok P' ∧ P.hasElevation tol = false ∧ P'.hasElevation tol = true ∧
    F1.classify (P.hasElevation tol) ≠ F1.classify (P'.hasElevation tol) ∧
    Kart.construct (fun T : Track.Polys => T.hasElevation tol) P = .ok P ∧
    Kart.construct (fun T : Track.Polys => T.hasElevation tol) P' = .throw := by
  have hm : Track.Meshed (turnData 0 (0, 0, 1) Track.ring2) :=
    ⟨rfl, Track.ring2_meshed.2, fun _ => Track.ring2_meshed.3 rfl, by simp [turnData, Track.ring2]⟩
  obtain ⟨P, h1, h2, -⟩ := Track.C127_elevation Track.ring2 Track.ring2_meshed tol ht
  have he : P.hasElevation tol = false := h2 rfl (by intro p hp; simp [Track.ring2] at hp; rcases hp with rfl | rfl <;> rfl)
  obtain ⟨a, b, -, -, h3⟩ := Track.build_eq _ hm
  have he' : (Track.built (turnData 0 (0, 0, 1) Track.ring2) a b).hasElevation tol = true := by
    unfold Track.Polys.hasElevation Track.built
    rw [decide_eq_true_iff]
    right; right; left
    intro h
    have := h 1 (by simp [turnData, Track.ring2, Track.Circuit.wrap, turnNode])
    norm_num at this
  refine ⟨Track.ring2, P, _, h1, h3, he, he', ?_, by simp [Kart.construct, he], by simp [Kart.construct, he']⟩
  rw [he, he']
  decide

open Transcription in
/-- C255 on the best lap of 50 m of `calmCar`, on the straight track turned to the north and moved by a kilometre. -/
example : ∃ (lb ub : Row ℝ) (lap : Lap ℝ),
    solveLap (-10 ^ 9) (10 ^ 9) (f1Vehicle (fun _ => windF1 (π / 2) F1.calmCar) (6 / 10) 0 (fun _ => ⟨0, 0, 0⟩) true
      (turnCircuit (π / 2) (1000, 0, 0) straightTrack)) true bestOpt (goWithin lb ub 4 F1.straightInputs F1.straightInputs) = .ok lap ∧
    lap.success = true ∧ (straightTrack.at_ 0).yaw = 0 ∧ ((turnCircuit (π / 2) (1000, 0, 0) straightTrack).at_ 0).yaw = π / 2 := by
  obtain ⟨lb, hlb⟩ : ∃ lb : Row ℝ, lb = fun j => if j = 4 then 1 else if j = 13 then 0 else -1000 := ⟨_, rfl⟩
  obtain ⟨ub, hub⟩ : ∃ ub : Row ℝ, ub = fun j => if j = 4 then 60 else if j = 13 then 0 else 1000 := ⟨_, rfl⟩
  have hin : ∀ j, lb j ≤ F1.straightInputs j ∧ F1.straightInputs j ≤ ub j := by
    intro j
    rw [hlb, hub]
    simp only [F1.straightInputs]
    split_ifs <;> norm_num at * <;> first | omega | (constructor <;> norm_num)
  obtain ⟨p, ini, nlp, lap, node, a1, a2, a3, a4, a5⟩ := calm_best lb ub hin (by rw [hlb, hub]; norm_num)
    (by rw [hlb, hub]; norm_num)
  refine ⟨lb, ub, lap, ?_, a4, rfl, by simp [turnCircuit, turnPoint, straightTrack, F1.exStraight]⟩
  rw [C255_f1]
  exact a3

/-- C255 on a car in a wind of 10 m/s along the track: it is pushed as much if track and wind turn to the north, and its other
forces point there. -/
example (q u : Nat → ℝ) :
    let c : F1.Car := { F1.exCar with chassis := { F1.exCar.chassis with aero := { F1.exCar.chassis.aero with eastward := 10 } } }
    (windF1 (π / 2) c).chassis.aero.eastward = 0 ∧ (windF1 (π / 2) c).chassis.aero.northward = -10 ∧
    value (values (f1Track (windF1 (π / 2) c) (turnPoint (π / 2) (1000, 0, 0) F1.exStraight) q u)) "chassis.aerodynamics.drag" =
      value (values (f1Track c F1.exStraight q u)) "chassis.aerodynamics.drag" := by
  intro c
  have h := C255_outputs_f1 (π / 2) (1000, 0, 0) c F1.exStraight q u
  refine ⟨by simp [windF1, turnWind, c, F1.exCar], by simp [windF1, turnWind, c, F1.exCar],
    h.others _ (by rw [outputNames_eq]; exact List.mem_of_getElem? (i := 15) rfl) ?_⟩
  rintro (h' | ⟨i, h'⟩)
  · revert h'; decide
  · revert h'; cases i <;> decide

/-- C256 on a closed ring, turned and moved: its points are turned and moved, and it is still without elevation. -/
example (tol : ℝ) (ht : 0 ≤ tol) : ∃ P P', Track.build Track.ring2 = .ok P ∧
    Track.build (turnData 1 (100, 200, 0) Track.ring2) = .ok P' ∧ P'.hasElevation tol = false ∧
    ∀ t, P'.at t = (P.at t).map (turnPoint 1 (100, 200, 0)) := by
  obtain ⟨P, h1, h2, -⟩ := Track.C127_elevation Track.ring2 Track.ring2_meshed tol ht
  have he : P.hasElevation tol = false := h2 rfl (by intro p hp; simp [Track.ring2] at hp; rcases hp with rfl | rfl <;> rfl)
  obtain ⟨P', k1, k2, -, -, -, k3⟩ := (C256_track_partial 1 (100, 200, 0) Track.ring2).2.2 P h1
  exact ⟨P, P', h1, k1, by rw [k3 rfl tol, he], k2⟩

end Verif.LapVehicles
