import Verif.Lemmas.Outputs
import Verif.Props.Chassis
import Verif.Props.Road
import Verif.Props.F1Layout
import Verif.Props.Kart

/-! Property theorems C222-C229: the outputs of a vehicle. -/

set_option autoImplicit false

namespace Verif.Outputs

open Verif.Road Verif.Chassis Real

/-! ## C222: which outputs can be asked for -/

theorem copyArray_ok {n : Nat} {l : List ℝ} (h : n ≤ l.length) : copyArray n l = .ok (entries l) := by
  unfold copyArray
  rw [if_neg (by omega)]
  rfl

theorem find_values (s : State) (key : Name) :
    (∀ n ∈ VehicleNames.outputNames, key = n.toList → find (values s) key = .ok (value (values s) n)) ∧
    ((∀ n ∈ VehicleNames.outputNames, key ≠ n.toList) → find (values s) key = .throw) := by
  constructor
  · rintro n hn rfl
    rw [← keys_values s] at hn
    obtain ⟨e, he, rfl⟩ := List.mem_map.1 hn
    rw [value_mem (s := s) (k := e.1) (x := e.2) he]
    exact find_mem (values_nodup s) he
  · intro h
    refine find_not_mem ?_
    rw [keys_values]
    intro hm
    obtain ⟨n, hn, rfl⟩ := List.mem_map.1 hm
    exact h n hn rfl

/-- C222, F1 cars: the names of the list of outputs have a value, whatever the inputs, and any other name is an error. -/
theorem C222_f1 (l : Library) (vehicle : Name) (c : ℝ → F1.Car) (t : ℝ → TrackPoint) (hk : l.kart vehicle = none)
    (hv : l.f1 vehicle = some (c, t)) (q u : List ℝ) (hq : 14 ≤ q.length) (hu : 4 ≤ u.length) (s : ℝ) (key : Name) :
    (∀ n ∈ VehicleNames.outputNames, key = n.toList →
      getOutput l vehicle q u s key = .ok (value (values (f1Track (c s) (t s) (entries q) (entries u))) n)) ∧
    ((∀ n ∈ VehicleNames.outputNames, key ≠ n.toList) → getOutput l vehicle q u s key = .throw) := by
  have e : getOutput l vehicle q u s key = find (values (f1Track (c s) (t s) (entries q) (entries u))) key := by
    simp only [getOutput, hk, hv, getProperty]
    rw [copyArray_ok (by exact hq), copyArray_ok (by exact hu)]
    simp only [Res.bind_ok]
  rw [e]
  exact find_values _ _

/-- C222, karts. -/
theorem C222_kart (l : Library) (vehicle : Name) (c : ℝ → Kart.Vehicle) (t : ℝ → TrackPoint)
    (hv : l.kart vehicle = some (c, t)) (q u : List ℝ) (hq : 13 ≤ q.length) (hu : 2 ≤ u.length) (s : ℝ) (key : Name) :
    (∀ n ∈ VehicleNames.outputNames, key = n.toList →
      getOutput l vehicle q u s key = .ok (value (values (kartTrack l.solve (c s) (t s) (entries q) (entries u))) n)) ∧
    ((∀ n ∈ VehicleNames.outputNames, key ≠ n.toList) → getOutput l vehicle q u s key = .throw) := by
  have e : getOutput l vehicle q u s key = find (values (kartTrack l.solve (c s) (t s) (entries q) (entries u))) key := by
    simp only [getOutput, hv, getProperty]
    rw [copyArray_ok (by exact hq), copyArray_ok (by exact hu)]
    simp only [Res.bind_ok]
  rw [e]
  exact find_values _ _

/-- C222: a vehicle that is not in the library is an error. -/
theorem C222_unknown (l : Library) (vehicle : Name) (hk : l.kart vehicle = none) (hv : l.f1 vehicle = none)
    (q u : List ℝ) (s : ℝ) (key : Name) : getOutput l vehicle q u s key = .throw := by
  simp only [getOutput, hk, hv]

/-- C222: inputs or controls that are too few are read out of bounds. -/
theorem C222_short (l : Library) (vehicle : Name) (c : ℝ → F1.Car) (t : ℝ → TrackPoint) (hk : l.kart vehicle = none)
    (hv : l.f1 vehicle = some (c, t)) (q u : List ℝ) (h : q.length < 14 ∨ u.length < 4) (s : ℝ) (key : Name) :
    getOutput l vehicle q u s key = .ub := by
  simp only [getOutput, hk, hv, getProperty]
  by_cases hq : q.length < 14
  · have : copyArray F1.nInputs q = .ub := by unfold copyArray; exact if_pos hq
    rw [this]; rfl
  · rw [copyArray_ok (n := F1.nInputs) (show 14 ≤ q.length by omega)]
    have : copyArray F1.nControls u = .ub := by unfold copyArray; exact if_pos (h.resolve_left hq)
    rw [Res.bind_ok, this]; rfl

/-! ## C223: the motion of a tyre as it is reported -/

theorem f1_tyre (c : F1.Car) (f : TrackPoint) (q u : Nat → ℝ) (i : Corner) :
    let s := f1Track c f q u
    let m := F1.setState c q u
    let r := F1.roadCurvilinear f m
    (s.tyre i).delta = i.steered (u 0) ∧
    (s.tyre i).position = f.position + q 12 • normal f + toWorld (attitude f (q 13)) (i.centre c) ∧
    (s.tyre i).velocity = rotZ (-(i.steered (u 0)))
      ((q 4, q 5, r.groundVz) + cross r.omega ((i.centre c).1, (i.centre c).2.1, 0)) ∧
    s.chassis.att = attitude f (q 13) := by
  intro s m r
  have hc : ∀ (x : Vec3) (y R0 : ℝ), x + (0, y, R0 - (x.2.2 + R0)) = (x.1, x.2.1 + y, 0) := by
    intro x y R0
    refine Prod.ext ?_ (Prod.ext ?_ ?_) <;> simp
  cases i
  all_goals
    refine ⟨rfl, ?_, ?_, rfl⟩
  · show _ + toWorld _ _ = _
    congr 1
    congr 1
    refine Prod.ext ?_ (Prod.ext ?_ ?_) <;> simp [Corner.centre]
    ring
  · show rotZ _ (_ + cross _ (c.chassis.xFront + (0, _, c.front.R0 - (c.chassis.xFront.2.2 + c.front.R0)))) = _
    rw [hc]
    have : c.chassis.xFront.2.1 + -(1 / 2) * c.front.track = c.chassis.xFront.2.1 - c.front.track / 2 := by ring
    rw [this]
    simp only [Corner.centre, Prod.fst_sub, Prod.snd_sub, sub_zero]
    rfl
  · show _ + toWorld _ _ = _
    congr 1
    congr 1
    refine Prod.ext ?_ (Prod.ext ?_ ?_) <;> simp [Corner.centre]
    ring
  · show rotZ _ (_ + cross _ (c.chassis.xFront + (0, _, c.front.R0 - (c.chassis.xFront.2.2 + c.front.R0)))) = _
    rw [hc]
    have : c.chassis.xFront.2.1 + 1 / 2 * c.front.track = c.chassis.xFront.2.1 + c.front.track / 2 := by ring
    rw [this]
    simp only [Corner.centre, Prod.fst_add, Prod.snd_add, add_zero]
    rfl
  · show _ + toWorld _ _ = _
    congr 1
    congr 1
    refine Prod.ext ?_ (Prod.ext ?_ ?_) <;> simp [Corner.centre]
    ring
  · show rotZ _ (_ + cross _ (c.chassis.xRear + (0, _, c.rear.R0 - (c.chassis.xRear.2.2 + c.rear.R0)))) = _
    rw [hc]
    have : c.chassis.xRear.2.1 + -(1 / 2) * c.rear.track = c.chassis.xRear.2.1 - c.rear.track / 2 := by ring
    rw [this]
    simp only [Corner.centre, Prod.fst_sub, Prod.snd_sub, sub_zero]
    rfl
  · show _ + toWorld _ _ = _
    congr 1
    congr 1
    refine Prod.ext ?_ (Prod.ext ?_ ?_) <;> simp [Corner.centre]
    ring
  · show rotZ _ (_ + cross _ (c.chassis.xRear + (0, _, c.rear.R0 - (c.chassis.xRear.2.2 + c.rear.R0)))) = _
    rw [hc]
    have : c.chassis.xRear.2.1 + 1 / 2 * c.rear.track = c.chassis.xRear.2.1 + c.rear.track / 2 := by ring
    rw [this]
    simp only [Corner.centre, Prod.fst_add, Prod.snd_add, add_zero]
    rfl

theorem f1_slip (c : F1.Car) (f : TrackPoint) (q u : Nat → ℝ) (i : Corner) :
    let t := (f1Track c f q u).tyre i
    t.omega = (1 + t.kappa) * t.velocity.1 / i.radius c ∧ t.lambda = -t.velocity.2.1 / t.velocity.1 ∧
    t.dissipation = t.force.1 * (t.velocity.1 - t.omega * i.radius c) + t.force.2.1 * t.velocity.2.1 := by
  cases i <;> exact ⟨rfl, rfl, rfl⟩

/-- C223, F1 car: the velocity reported for a tyre in the axes of the car is that of the point of the road below the
wheel, moving with the car; the other velocity is the same in the axes of the wheel; the two slips, the angular speed and
the dissipation are those of that velocity. -/
theorem C223_f1 (c : F1.Car) (f : TrackPoint) (q u : Nat → ℝ) (i : Corner) (hR : i.radius c ≠ 0) :
    let o := values (f1Track c f q u)
    let r := F1.roadCurvilinear f (F1.setState c q u)
    let v := vector o (i.name ++ ".velocity")
    let F := vector o (i.name ++ ".force")
    vector o (i.name ++ ".velocity.car_frame")
      = (q 4, q 5, r.groundVz) + cross r.omega ((i.centre c).1, (i.centre c).2.1, 0) ∧
    rotZ (i.steered (u 0)) v = vector o (i.name ++ ".velocity.car_frame") ∧
    value o (i.name ++ ".omega") * i.radius c = (1 + value o (i.name ++ ".true_kappa")) * v.1 ∧
    (v.1 ≠ 0 → value o (i.name ++ ".lambda") * v.1 = -v.2.1) ∧
    value o (i.name ++ ".dissipation") = F.1 * (v.1 - value o (i.name ++ ".omega") * i.radius c) + F.2.1 * v.2.1 := by
  intro o r v F
  obtain ⟨h1, -, h3, -⟩ := f1_tyre c f q u i
  obtain ⟨k1, k2, k3⟩ := f1_slip c f q u i
  have hv : v = ((f1Track c f q u).tyre i).velocity := tyre_velocity _ i
  have hF : F = ((f1Track c f q u).tyre i).force := tyre_force _ i
  have ho : value o (i.name ++ ".omega") = ((f1Track c f q u).tyre i).omega := tyre_omega _ i
  have hk : value o (i.name ++ ".true_kappa") = ((f1Track c f q u).tyre i).kappa := tyre_kappa _ i
  have hl : value o (i.name ++ ".lambda") = ((f1Track c f q u).tyre i).lambda := tyre_lambda _ i
  have hd : value o (i.name ++ ".dissipation") = ((f1Track c f q u).tyre i).dissipation := tyre_dissipation _ i
  have hc : vector o (i.name ++ ".velocity.car_frame") = _ := tyre_carFrame _ i
  refine ⟨?_, ?_, ?_, ?_, ?_⟩
  · rw [hc, h1, h3, rotZ_neg]
  · rw [hc, h1, hv]
  · rw [ho, hk, hv, k1]
    field_simp
  · intro hx
    rw [hl, hv, k2]
    rw [hv] at hx
    field_simp
  · rw [hd, hF, ho, hv]
    exact k3

/-- C223, F1 car, flat road: the velocity of the wheel in the plane is that of a body with the velocity and the yaw rate of
the car. -/
theorem C223_f1_flat (c : F1.Car) (f : TrackPoint) (hf : Level f) (q u : Nat → ℝ) (i : Corner) :
    vector (values (f1Track c f q u)) (i.name ++ ".velocity.car_frame")
      = (q 4 - q 6 * (i.centre c).2.1, q 5 + q 6 * (i.centre c).1, 0) := by
  obtain ⟨h1, -, h3, -⟩ := f1_tyre c f q u i
  rw [tyre_carFrame, h1, h3, rotZ_neg]
  obtain ⟨f1, f2, f3, f4⟩ := hf
  have hy := C95_yaw_rate f (q 12) (q 4) (q 5) (q 6) (attitude f (q 13)) rfl rfl
  have e : (F1.roadCurvilinear f (F1.setState c q u)).omega = (0, 0, q 6) := by
    refine Prod.ext ?_ (Prod.ext ?_ hy)
    · simp [F1.roadCurvilinear, omegaBody, eulerAnglesDot, f1, f2, f3, f4, rotZ]
    · simp [F1.roadCurvilinear, omegaBody, eulerAnglesDot, f1, f2, f3, f4, rotZ]
  have e2 : (F1.roadCurvilinear f (F1.setState c q u)).groundVz = 0 := by
    simp [F1.roadCurvilinear, Road.update, curvature, f1, f2, f3, f4]
  rw [e, e2]
  refine Prod.ext ?_ (Prod.ext ?_ ?_) <;> (simp [cross]; try ring)

theorem kart_slip (solve : Vec3 × Vec3 × Vec3 → Vec3 → Vec3) (c : Kart.Vehicle) (f : TrackPoint) (q u : Nat → ℝ)
    (i : Corner) :
    let t := (kartTrack solve c f q u).tyre i
    t.delta = i.steered (u 0) ∧
    t.kappa = (t.omega * i.kartRadius c - t.velocity.1) / t.velocity.1 ∧ t.lambda = -t.velocity.2.1 / t.velocity.1 ∧
    t.dissipation = t.force.1 * (t.velocity.1 - t.omega * i.kartRadius c) + t.force.2.1 * t.velocity.2.1 := by
  cases i <;> exact ⟨rfl, rfl, rfl, rfl⟩

/-- C223, kart: the same relations. -/
theorem C223_kart (solve : Vec3 × Vec3 × Vec3 → Vec3 → Vec3) (c : Kart.Vehicle) (f : TrackPoint) (q u : Nat → ℝ)
    (i : Corner) :
    let o := values (kartTrack solve c f q u)
    let v := vector o (i.name ++ ".velocity")
    let F := vector o (i.name ++ ".force")
    rotZ (i.steered (u 0)) v = vector o (i.name ++ ".velocity.car_frame") ∧
    (v.1 ≠ 0 → value o (i.name ++ ".omega") * i.kartRadius c = (1 + value o (i.name ++ ".true_kappa")) * v.1) ∧
    (v.1 ≠ 0 → value o (i.name ++ ".lambda") * v.1 = -v.2.1) ∧
    value o (i.name ++ ".dissipation")
      = F.1 * (v.1 - value o (i.name ++ ".omega") * i.kartRadius c) + F.2.1 * v.2.1 := by
  intro o v F
  obtain ⟨h1, k1, k2, k3⟩ := kart_slip solve c f q u i
  have hv : v = ((kartTrack solve c f q u).tyre i).velocity := tyre_velocity _ i
  have hF : F = ((kartTrack solve c f q u).tyre i).force := tyre_force _ i
  have ho : value o (i.name ++ ".omega") = ((kartTrack solve c f q u).tyre i).omega := tyre_omega _ i
  have hk : value o (i.name ++ ".true_kappa") = ((kartTrack solve c f q u).tyre i).kappa := tyre_kappa _ i
  have hl : value o (i.name ++ ".lambda") = ((kartTrack solve c f q u).tyre i).lambda := tyre_lambda _ i
  have hd : value o (i.name ++ ".dissipation") = ((kartTrack solve c f q u).tyre i).dissipation := tyre_dissipation _ i
  have hc : vector o (i.name ++ ".velocity.car_frame") = _ := tyre_carFrame _ i
  refine ⟨?_, ?_, ?_, ?_⟩
  · rw [hc, h1, hv]
  · intro hx
    rw [ho, hk, hv, k1]
    rw [hv] at hx
    field_simp
    ring
  · intro hx
    rw [hl, hv, k2]
    rw [hv] at hx
    field_simp
  · rw [hd, hF, ho, hv]
    exact k3

/-- C223, kart: the velocity of a tyre in the plane is that of a body with the velocity and the yaw rate of the kart. -/
theorem C223_kart_plane (solve : Vec3 × Vec3 × Vec3 → Vec3 → Vec3) (c : Kart.Vehicle) (f : TrackPoint) (q u : Nat → ℝ) :
    let o := values (kartTrack solve c f q u)
    let v := fun i : Corner => vector o (i.name ++ ".velocity.car_frame")
    let x := fun p : Vec3 => c.xCom + p
    ((v .frontLeft).1 = q 1 - q 3 * ((x c.xFront).2.1 - c.front.susp.track / 2) ∧
      (v .frontLeft).2.1 = q 2 + q 3 * (x c.xFront).1) ∧
    ((v .frontRight).1 = q 1 - q 3 * ((x c.xFront).2.1 + c.front.susp.track / 2) ∧
      (v .frontRight).2.1 = q 2 + q 3 * (x c.xFront).1) ∧
    ((v .rearLeft).1 = q 1 - q 3 * ((x c.xRear).2.1 - c.rear.susp.track / 2) ∧
      (v .rearLeft).2.1 = q 2 + q 3 * (x c.xRear).1) ∧
    ((v .rearRight).1 = q 1 - q 3 * ((x c.xRear).2.1 + c.rear.susp.track / 2) ∧
      (v .rearRight).2.1 = q 2 + q 3 * (x c.xRear).1) := by
  intro o v x
  have hv : ∀ i, v i = rotZ (i.steered (u 0)) ((kartTrack solve c f q u).tyre i).velocity := fun i =>
    (tyre_carFrame _ i).trans (by rw [(kart_slip solve c f q u i).1])
  refine ⟨?_, ?_, ?_, ?_⟩
  all_goals
    rw [hv]
    simp only [State.tyre, kartTrack, kartState, kartAxle, kartTyre, Corner.steered, Kart.setState, Kart.cSteering,
      Kart.frontAxle, Kart.rearAxle, Kart.axleUpdate, neg_zero]
  · rw [rotZ_neg]
    constructor <;> (simp [cross, Kart.comPosition, Kart.axlePosition, Kart.axleVelocity, Kart.iChassis, Kart.iAxle, x]; try ring)
  · rw [rotZ_neg]
    constructor <;> (simp [cross, Kart.comPosition, Kart.axlePosition, Kart.axleVelocity, Kart.iChassis, Kart.iAxle, x]; try ring)
  · constructor <;> (simp [rotZ, cross, Kart.comPosition, Kart.axlePosition, Kart.axleVelocity, Kart.iChassis, Kart.iAxle, x]; try ring)
  · constructor <;> (simp [rotZ, cross, Kart.comPosition, Kart.axlePosition, Kart.axleVelocity, Kart.iChassis, Kart.iAxle, x]; try ring)

/-! ## C224: the reported forces -/

/-- C224, F1 car: on every road, the reported forces of the four tyres in fixed axes, the aerodynamic force and the weight
add up to the reported force of the chassis; and the two reports of the force of a tyre have the same magnitude. -/
theorem C224_f1 (c : F1.Car) (f : TrackPoint) (q u : Nat → ℝ) :
    let o := values (f1Track c f q u)
    let a := attitude f (q 13)
    let A := aeroForces c.chassis.aero a (q 4, q 5, (F1.roadCurvilinear f (F1.setState c q u)).groundVz)
    total (fun i => vector o (i.name ++ ".force.inertial")) + toWorld a (A.lift + A.drag)
        + (0, 0, c.chassis.mass * c.chassis.g0)
      = toWorld a (vector o "chassis.force") ∧
    ∀ i : Corner, dot (vector o (i.name ++ ".force.inertial")) (vector o (i.name ++ ".force.inertial"))
      = dot (vector o (i.name ++ ".force")) (vector o (i.name ++ ".force")) := by
  intro o a A
  constructor
  · have e := C86_total_force c.chassis
      (F1.carUpdate c (F1.setState c q u) (F1.roadCurvilinear f (F1.setState c q u))).input
      (F1.carUpdate c (F1.setState c q u) (F1.roadCurvilinear f (F1.setState c q u))).front.forces
      (F1.carUpdate c (F1.setState c q u) (F1.roadCurvilinear f (F1.setState c q u))).rear.forces
    have hf : vector o "chassis.force" = (f1Track c f q u).chassis.force := chassis_force _
    rw [hf]
    refine Eq.trans ?_ e.symm
    simp only [total, o, tyre_inertial]
    have e1 : toWorld a (F1.carUpdate c (F1.setState c q u) (F1.roadCurvilinear f (F1.setState c q u))).front.forces.1
        = toWorld a (rotZ ((f1Track c f q u).tyre .frontLeft).delta ((f1Track c f q u).tyre .frontLeft).force)
          + toWorld a (rotZ ((f1Track c f q u).tyre .frontRight).delta ((f1Track c f q u).tyre .frontRight).force) :=
      toWorld_add _ _ _
    have e2 : toWorld a (F1.carUpdate c (F1.setState c q u) (F1.roadCurvilinear f (F1.setState c q u))).rear.forces.1
        = toWorld a (rotZ ((f1Track c f q u).tyre .rearLeft).delta ((f1Track c f q u).tyre .rearLeft).force)
          + toWorld a (rotZ ((f1Track c f q u).tyre .rearRight).delta ((f1Track c f q u).tyre .rearRight).force) :=
      toWorld_add _ _ _
    have e0 : (F1.carUpdate c (F1.setState c q u) (F1.roadCurvilinear f (F1.setState c q u))).input.att = a := rfl
    have e3 : (f1Track c f q u).chassis.att = a := rfl
    rw [e0, e1, e2, e3, ← add_assoc]
    rfl
  · intro i
    simp only [o, tyre_inertial, tyre_force]
    rw [toWorld_dot, rotZ_dot]

theorem toWorld_level {f : TrackPoint} (hf : Level f) (alpha : ℝ) (v : Vec3) :
    toWorld (attitude f alpha) v = rotZ (f.yaw + alpha) v := by
  obtain ⟨h1, h2, -, -⟩ := hf
  refine vec_ext ?_ ?_ ?_ <;> simp [toWorld, attitude, h1, h2, rotZ, rotX, rotY, cos_add, sin_add] <;> ring

/-- C224, flat roads, F1 car: the same with reported values only. -/
theorem C224_f1_flat (c : F1.Car) (f : TrackPoint) (hf : Level f) (q u : Nat → ℝ) :
    let o := values (f1Track c f q u)
    let A : Vec3 := (value o "chassis.aerodynamics.drag.x", value o "chassis.aerodynamics.drag.y",
      value o "chassis.aerodynamics.lift")
    let turn := rotZ (value o "chassis.attitude.yaw")
    total (fun i => vector o (i.name ++ ".force.inertial")) + turn A + (0, 0, c.chassis.mass * c.chassis.g0)
      = turn (vector o "chassis.force") := by
  intro o A turn
  have h := (C224_f1 c f q u).1
  have hA : A = (aeroForces c.chassis.aero (attitude f (q 13)) (q 4, q 5, (F1.roadCurvilinear f (F1.setState c q u)).groundVz)).lift
      + (aeroForces c.chassis.aero (attitude f (q 13)) (q 4, q 5, (F1.roadCurvilinear f (F1.setState c q u)).groundVz)).drag := by
    have ex : value o "chassis.aerodynamics.drag.x" = (f1Track c f q u).chassis.wind.drag.1 := chassis_aerodynamics_drag_x (f1Track c f q u)
    have ey : value o "chassis.aerodynamics.drag.y" = (f1Track c f q u).chassis.wind.drag.2.1 := chassis_aerodynamics_drag_y (f1Track c f q u)
    have ez : value o "chassis.aerodynamics.lift" = (f1Track c f q u).chassis.wind.lift.2.2 := chassis_aerodynamics_lift (f1Track c f q u)
    have eg : (F1.roadCurvilinear f (F1.setState c q u)).groundVz = 0 := by
      obtain ⟨f1, f2, f3, f4⟩ := hf
      simp [F1.roadCurvilinear, Road.update, curvature, f1, f2, f3, f4]
    obtain ⟨f1, f2, -, -⟩ := hf
    simp only [A, ex, ey, ez]
    refine vec_ext ?_ ?_ ?_
    · show _ = 0 + _
      rw [zero_add]; rfl
    · show _ = 0 + _
      rw [zero_add]; rfl
    · show _ = _ + (_ : ℝ)
      rw [eg]
      have : (aeroForces c.chassis.aero (attitude f (q 13)) (q 4, q 5, 0)).drag.2.2 = 0 := by
        simp [aeroForces, toBody, attitude, f1, f2, rotZ, rotX, rotY]
      rw [this, add_zero]
      show (aeroForces c.chassis.aero (attitude f (q 13)) (q 4, q 5, (F1.roadCurvilinear f (F1.setState c q u)).groundVz)).lift.2.2 = _
      rw [eg]
  have ht : turn = toWorld (attitude f (q 13)) := by
    funext v
    rw [toWorld_level hf]
    show rotZ (value o "chassis.attitude.yaw") v = _
    rw [show value o "chassis.attitude.yaw" = f.yaw + q 13 from chassis_attitude_yaw (f1Track c f q u)]
  rw [ht, hA]
  exact h

theorem rotZ_level (yaw heading : ℝ) (v : Vec3) : toWorld ⟨yaw, 0, 0, heading⟩ v = rotZ (yaw + heading) v := by
  refine vec_ext ?_ ?_ ?_ <;> simp [toWorld, rotZ, rotX, rotY, cos_add, sin_add] <;> ring

/-- C224, kart. -/
theorem C224_kart (solve : Vec3 × Vec3 × Vec3 → Vec3 → Vec3) (c : Kart.Vehicle) (f : TrackPoint) (q u : Nat → ℝ) :
    let o := values (kartTrack solve c f q u)
    let A : Vec3 := (value o "chassis.aerodynamics.drag.x", value o "chassis.aerodynamics.drag.y",
      value o "chassis.aerodynamics.lift")
    let turn := rotZ (value o "chassis.attitude.yaw")
    total (fun i => vector o (i.name ++ ".force.inertial")) + turn A + (0, 0, c.mass * c.g0)
      = turn (vector o "chassis.force") := by
  intro o A turn
  have hy : value o "chassis.attitude.yaw" = f.yaw + q 12 := chassis_attitude_yaw (kartTrack solve c f q u)
  have hA : A = Kart.aeroForce c (Kart.setState q u) (f.yaw + q 12) := by
    have ew : (kartTrack solve c f q u).chassis.wind
        = aeroForces c.aero ⟨0, 0, 0, f.yaw + q 12⟩ (q 1, q 2, 0) := by
      have : ∀ v, toBody ⟨f.yaw, 0, 0, q 12⟩ v = toBody ⟨0, 0, 0, f.yaw + q 12⟩ v := by
        intro v
        refine vec_ext ?_ ?_ ?_ <;> simp [toBody, rotZ, rotX, rotY, cos_add, sin_add] <;> ring
      show aeroForces c.aero ⟨f.yaw, 0, 0, q 12⟩ (q 1, q 2, 0) = _
      simp only [aeroForces, this]
    have ex : value o "chassis.aerodynamics.drag.x" = (kartTrack solve c f q u).chassis.wind.drag.1 := chassis_aerodynamics_drag_x (kartTrack solve c f q u)
    have ey : value o "chassis.aerodynamics.drag.y" = (kartTrack solve c f q u).chassis.wind.drag.2.1 := chassis_aerodynamics_drag_y (kartTrack solve c f q u)
    have ez : value o "chassis.aerodynamics.lift" = (kartTrack solve c f q u).chassis.wind.lift.2.2 := chassis_aerodynamics_lift (kartTrack solve c f q u)
    rw [ew] at ex ey ez
    have hd : (aeroForces c.aero ⟨0, 0, 0, f.yaw + q 12⟩ (q 1, q 2, 0)).drag.2.2 = 0 := by
      simp [aeroForces, toBody, rotZ, rotX, rotY]
    simp only [A, ex, ey, ez]
    refine vec_ext ?_ ?_ ?_
    · show _ = 0 + _
      rw [zero_add]; rfl
    · show _ = 0 + _
      rw [zero_add]; rfl
    · show _ = _ + (aeroForces c.aero ⟨0, 0, 0, f.yaw + q 12⟩ (q 1, q 2, 0)).drag.2.2
      rw [hd, add_zero]; rfl
  have hF : vector o "chassis.force" = Kart.totalForce c (Kart.setState q u) (f.yaw + q 12) := chassis_force (kartTrack solve c f q u)
  have ht : ∀ v, toWorld (kartTrack solve c f q u).chassis.att v = turn v := fun v => by
    show toWorld ⟨f.yaw, 0, 0, q 12⟩ v = rotZ (value o "chassis.attitude.yaw") v
    rw [rotZ_level, hy]
  rw [hA, hF]
  simp only [total, o, tyre_inertial, ht]
  have hadd : ∀ v w, turn (v + w) = turn v + turn w := rotZ_add _
  have hz : turn (0, 0, c.mass * c.g0) = (0, 0, c.mass * c.g0) := rotZ_axis _ _
  simp only [Kart.totalForce, hadd, hz]
  have e1 : turn (Kart.frontAxle c (Kart.setState q u)).forces.1
      = turn (rotZ ((kartTrack solve c f q u).tyre .frontLeft).delta ((kartTrack solve c f q u).tyre .frontLeft).force)
        + turn (rotZ ((kartTrack solve c f q u).tyre .frontRight).delta ((kartTrack solve c f q u).tyre .frontRight).force) :=
    hadd _ _
  have e2 : turn (Kart.rearAxle c (Kart.setState q u)).forces.1
      = turn (rotZ ((kartTrack solve c f q u).tyre .rearLeft).delta ((kartTrack solve c f q u).tyre .rearLeft).force)
        + turn (rotZ ((kartTrack solve c f q u).tyre .rearRight).delta ((kartTrack solve c f q u).tyre .rearRight).force) :=
    hadd _ _
  rw [e1, e2]
  abel

/-! ## C225: the reported accelerations -/

theorem accelerations (m u v : ℝ) (F : Vec3) (hv : u ≠ 0 ∨ v ≠ 0) (hm : m ≠ 0) :
    let ax := longitudinalAcceleration m u v F
    let ay := lateralAcceleration m u v F
    let V := √(u ^ 2 + v ^ 2)
    m * ax * V = F.1 * u + F.2.1 * v ∧ m * ay * V = F.2.1 * u - F.1 * v ∧
    m ^ 2 * (ax ^ 2 + ay ^ 2) = F.1 ^ 2 + F.2.1 ^ 2 := by
  intro ax ay V
  have hpos : 0 < u ^ 2 + v ^ 2 := by
    rcases hv with h | h
    · have := sq_pos_of_ne_zero h; positivity
    · have := sq_pos_of_ne_zero h; positivity
  have hV : V ^ 2 = u ^ 2 + v ^ 2 := Real.sq_sqrt hpos.le
  have hne : V ≠ 0 := (Real.sqrt_pos.mpr hpos).ne'
  obtain ⟨h1, h2⟩ := C91_components m u v F hv
  have k1 : F.1 * V = m * (ax * u - ay * v) := by
    have : F.1 / m = ax * (u / V) - ay * (v / V) := h1
    field_simp at this
    linarith
  have k2 : F.2.1 * V = m * (ax * v + ay * u) := by
    have : F.2.1 / m = ax * (v / V) + ay * (u / V) := h2
    field_simp at this
    linarith
  refine ⟨?_, ?_, ?_⟩
  · refine mul_right_cancel₀ hne ?_
    linear_combination (-u) * k1 - v * k2 + m * ax * hV
  · refine mul_right_cancel₀ hne ?_
    linear_combination (-u) * k2 + v * k1 + m * ay * hV
  · refine mul_right_cancel₀ (pow_ne_zero 2 hne) ?_
    linear_combination (m ^ 2 * (ax ^ 2 + ay ^ 2)) * hV - (F.1 * V + m * (ax * u - ay * v)) * k1
      - (F.2.1 * V + m * (ax * v + ay * u)) * k2

/-- C225, F1 car: on every road, the reported accelerations are the components of the reported force per unit mass along
the velocity of the car in the plane of the road and to its right; both reports have the same magnitude in that plane. -/
theorem C225_f1 (c : F1.Car) (f : TrackPoint) (q u : Nat → ℝ) (hv : q 4 ≠ 0 ∨ q 5 ≠ 0) (hm : c.chassis.mass ≠ 0) :
    let o := values (f1Track c f q u)
    let ax := value o "chassis.acceleration.x"
    let ay := value o "chassis.acceleration.y"
    let F := vector o "chassis.force"
    let V := √(q 4 ^ 2 + q 5 ^ 2)
    c.chassis.mass * ax * V = F.1 * q 4 + F.2.1 * q 5 ∧ c.chassis.mass * ay * V = F.2.1 * q 4 - F.1 * q 5 ∧
    c.chassis.mass ^ 2 * (ax ^ 2 + ay ^ 2) = F.1 ^ 2 + F.2.1 ^ 2 := by
  intro o ax ay F V
  have h := accelerations c.chassis.mass (q 4) (q 5) (f1Track c f q u).chassis.force hv hm
  have hF : F = (f1Track c f q u).chassis.force := chassis_force (f1Track c f q u)
  have hx : ax = longitudinalAcceleration c.chassis.mass (q 4) (q 5) (f1Track c f q u).chassis.force :=
    chassis_acceleration_x (f1Track c f q u)
  have hy : ay = lateralAcceleration c.chassis.mass (q 4) (q 5) (f1Track c f q u).chassis.force :=
    chassis_acceleration_y (f1Track c f q u)
  rw [hx, hy, hF]
  exact h

/-- C225, kart. -/
theorem C225_kart (solve : Vec3 × Vec3 × Vec3 → Vec3 → Vec3) (c : Kart.Vehicle) (f : TrackPoint) (q u : Nat → ℝ)
    (hv : q 1 ≠ 0 ∨ q 2 ≠ 0) (hm : c.mass ≠ 0) :
    let o := values (kartTrack solve c f q u)
    let ax := value o "chassis.acceleration.x"
    let ay := value o "chassis.acceleration.y"
    let F := vector o "chassis.force"
    let V := √(q 1 ^ 2 + q 2 ^ 2)
    c.mass * ax * V = F.1 * q 1 + F.2.1 * q 2 ∧ c.mass * ay * V = F.2.1 * q 1 - F.1 * q 2 ∧
    c.mass ^ 2 * (ax ^ 2 + ay ^ 2) = F.1 ^ 2 + F.2.1 ^ 2 := by
  intro o ax ay F V
  have h := accelerations c.mass (q 1) (q 2) (kartTrack solve c f q u).chassis.force hv hm
  have hF : F = (kartTrack solve c f q u).chassis.force := chassis_force (kartTrack solve c f q u)
  have hx : ax = longitudinalAcceleration c.mass (q 1) (q 2) (kartTrack solve c f q u).chassis.force :=
    chassis_acceleration_x (kartTrack solve c f q u)
  have hy : ay = lateralAcceleration c.mass (q 1) (q 2) (kartTrack solve c f q u).chassis.force :=
    chassis_acceleration_y (kartTrack solve c f q u)
  rw [hx, hy, hF]
  exact h

/-! ## C226: the reported direction of the car -/

theorem toWorld_forward (f : TrackPoint) (alpha : ℝ) : toWorld (attitude f alpha) (1, 0, 0) = forward f alpha := by
  refine vec_ext ?_ ?_ ?_ <;> simp [toWorld, attitude, forward, tangent, normal, rotZ, rotX, rotY] <;> ring

/-- C226: on a flat road the car points in the direction that is reported. Missing: other roads, see
`C226_heading_false`. -/
theorem C226_heading_partial (c : F1.Car) (f : TrackPoint) (hf : Level f) (q u : Nat → ℝ) :
    let yaw := value (values (f1Track c f q u)) "chassis.attitude.yaw"
    forward f (q 13) = (cos yaw, sin yaw, 0) := by
  intro yaw
  have h : yaw = f.yaw + q 13 := chassis_attitude_yaw (f1Track c f q u)
  rw [← toWorld_forward, toWorld_level hf, ← h]
  simp [rotZ]

/-- C226, kart, whose roads are flat. -/
theorem C226_heading_kart (solve : Vec3 × Vec3 × Vec3 → Vec3 → Vec3) (c : Kart.Vehicle) (f : TrackPoint) (hf : Level f)
    (q u : Nat → ℝ) :
    let yaw := value (values (kartTrack solve c f q u)) "chassis.attitude.yaw"
    forward f (q 12) = (cos yaw, sin yaw, 0) := by
  intro yaw
  have h : yaw = f.yaw + q 12 := chassis_attitude_yaw (kartTrack solve c f q u)
  rw [← toWorld_forward, toWorld_level hf, ← h]
  simp [rotZ]

/-- A road banked by 60 degrees, its right edge lower. -/
noncomputable def exBanked : TrackPoint := ⟨(0, 0, 0), 0, 0, π / 3, 0, 0, 0⟩

/-- C226 is false on a banked road: seen from above, a car that heads at 45 degrees to the track does not point in the
direction reported. -/
theorem C226_heading_false : ∃ (c : F1.Car) (f : TrackPoint) (q u : Nat → ℝ),
    let yaw := value (values (f1Track c f q u)) "chassis.attitude.yaw"
    (forward f (q 13)).1 * sin yaw - (forward f (q 13)).2.1 * cos yaw ≠ 0 := by
  refine ⟨F1.exCar, exBanked, fun _ => π / 4, fun _ => 0, ?_⟩
  intro yaw
  have h : yaw = exBanked.yaw + π / 4 := chassis_attitude_yaw (f1Track F1.exCar exBanked (fun _ => π / 4) fun _ => 0)
  rw [h]
  have h2 : √2 * √2 = (2 : ℝ) := Real.mul_self_sqrt (by norm_num)
  simp only [forward, tangent, normal, exBanked, cos_zero, sin_zero, cos_pi_div_three, zero_add, cos_pi_div_four,
    sin_pi_div_four, Prod.fst_add, Prod.snd_add, Prod.smul_fst, Prod.smul_snd, smul_eq_mul]
  intro h0
  nlinarith

/-! ## C227: reported positions and velocities -/

theorem toWorld_body (f : TrackPoint) (alpha x y z : ℝ) :
    toWorld (attitude f alpha) (x, y, z) = x • forward f alpha + y • sideways f alpha + z • binormal f := by
  refine vec_ext ?_ ?_ ?_ <;>
    simp [toWorld, attitude, forward, sideways, binormal, tangent, normal, rotZ, rotX, rotY] <;> ring

theorem Drives.turns {c : F1.Car} {F : ℝ → TrackPoint} {S : ℝ → ℝ} {q u : ℝ → Nat → ℝ} {t : ℝ}
    (h : Drives c F S q u t) :
    let m := F1.setState c (q t) (u t)
    let r := Road.update (F (S t)) m.road2 m.road3 m.u m.v m.omega
    let e := eulerAnglesDot (F (S t)) r
    Turns (fun t => attitude (F (S t)) (q t 13)) e.1 e.2.1 e.2.2 r.alphaDot t := by
  intro m r e
  have hy := h.yaw.comp t h.arclength
  have hp := h.pitch.comp t h.arclength
  have hr := h.roll.comp t h.arclength
  refine ⟨hy.congr_deriv ?_, hp.congr_deriv ?_, hr.congr_deriv ?_, h.heading⟩
  all_goals
    show _ * (1 / _) = _ / _
    rw [mul_one_div]
    rfl

theorem Drives.ground {c : F1.Car} {F : ℝ → TrackPoint} {S : ℝ → ℝ} {q u : ℝ → Nat → ℝ} {t : ℝ}
    (h : Drives c F S q u t) :
    HasDerivAt (fun t => (f1Track c (F (S t)) (q t) (u t)).chassis.ground)
      (toWorld (attitude (F (S t)) (q t 13))
        (q t 4, q t 5, (F1.roadCurvilinear (F (S t)) (F1.setState c (q t) (u t))).groundVz)) t := by
  have k := (C41_moves_with_the_car F S (fun t => q t 12) (fun t => q t 13) (fun t => q t 4) (fun t => q t 5)
    (fun t => q t 6) t h.position h.yaw h.pitch h.roll h.centre h.arclength h.lateral h.heading).1
  rw [toWorld_body]
  exact k

/-- C227, F1 car: on every road the reported position of the car moves with the velocity of the car, and the reported
velocity of a tyre is that of the point of the road below the reported position of the wheel: the wheel centre is at the
height `-(i.centre c).2.2` above the road, measured along the normal of the road. -/
theorem C227_moves (c : F1.Car) (F : ℝ → TrackPoint) (S : ℝ → ℝ) (q u : ℝ → Nat → ℝ) (t : ℝ)
    (h : Drives c F S q u t) :
    let o := fun t => values (f1Track c (F (S t)) (q t) (u t))
    let a := fun t => attitude (F (S t)) (q t 13)
    let V := toWorld (a t)
      (q t 4, q t 5, (F1.roadCurvilinear (F (S t)) (F1.setState c (q t) (u t))).groundVz)
    HasDerivAt (fun t => value (o t) "chassis.position.x") V.1 t ∧
    HasDerivAt (fun t => value (o t) "chassis.position.y") V.2.1 t ∧
    ∀ i : Corner, HasDerivAt
      (fun t => vector (o t) (i.name ++ ".position") - toWorld (a t) (0, 0, (i.centre c).2.2))
      (toWorld (a t) (vector (o t) (i.name ++ ".velocity.car_frame"))) t := by
  intro o a V
  have hg := h.ground
  have hc := hasDerivAt_comp hg
  have hx : (fun t => value (o t) "chassis.position.x")
      = fun t => (f1Track c (F (S t)) (q t) (u t)).chassis.ground.1 := funext fun t => chassis_position_x _
  have hy : (fun t => value (o t) "chassis.position.y")
      = fun t => (f1Track c (F (S t)) (q t) (u t)).chassis.ground.2.1 := funext fun t => chassis_position_y _
  rw [hx, hy]
  refine ⟨hc.1, hc.2.1, fun i => ?_⟩
  have e : (fun t => vector (o t) (i.name ++ ".position") - toWorld (a t) (0, 0, (i.centre c).2.2))
      = fun t => (f1Track c (F (S t)) (q t) (u t)).chassis.ground
        + toWorld (a t) ((i.centre c).1, (i.centre c).2.1, 0) := by
    funext t
    rw [show vector (o t) (i.name ++ ".position") = _ from tyre_position _ i,
      (f1_tyre c (F (S t)) (q t) (u t) i).2.1]
    have : toWorld (a t) (i.centre c)
        = toWorld (a t) ((i.centre c).1, (i.centre c).2.1, 0) + toWorld (a t) (0, 0, (i.centre c).2.2) := by
      rw [← toWorld_add]
      congr 1
      refine vec_ext ?_ ?_ ?_ <;> simp
    show _ + toWorld (a t) (i.centre c) - _ = _
    rw [this, ← add_assoc, add_sub_cancel_right]
    rfl
  rw [e]
  have k := hg.add (toWorld_deriv h.turns
    (hasDerivAt_const t (((i.centre c).1, (i.centre c).2.1, 0) : Vec3)))
  refine k.congr_deriv ?_
  rw [← toWorld_add, zero_add]
  obtain ⟨h1, -, h3, -⟩ := f1_tyre c (F (S t)) (q t) (u t) i
  rw [show vector (o t) (i.name ++ ".velocity.car_frame") = _ from tyre_carFrame _ i, h1, h3, rotZ_neg]
  rfl

/-- C227, flat roads: the reported positions of the wheels move in the plane with the reported velocities, turned by the
reported direction of the car. -/
theorem C227_flat (c : F1.Car) (F : ℝ → TrackPoint) (hF : ∀ s, Level (F s)) (S : ℝ → ℝ) (q u : ℝ → Nat → ℝ) (t : ℝ)
    (h : Drives c F S q u t) (i : Corner) :
    let o := fun t => values (f1Track c (F (S t)) (q t) (u t))
    HasDerivAt (fun t => vector (o t) (i.name ++ ".position"))
      (rotZ (value (o t) "chassis.attitude.yaw") (vector (o t) (i.name ++ ".velocity.car_frame"))) t := by
  intro o
  have k := (C227_moves c F S q u t h).2.2 i
  rw [toWorld_level (hF _)] at k
  have hy : value (o t) "chassis.attitude.yaw" = (F (S t)).yaw + q t 13 :=
    chassis_attitude_yaw (f1Track c (F (S t)) (q t) (u t))
  rw [hy]
  have hz : ∀ t, toWorld (attitude (F (S t)) (q t 13)) (0, 0, (i.centre c).2.2) = (0, 0, (i.centre c).2.2) := by
    intro t
    rw [toWorld_level (hF _), rotZ_axis]
  simp only [hz] at k
  simpa using k.add_const ((0, 0, (i.centre c).2.2) : Vec3)

/-! ## C228: the reported aerodynamics -/

theorem aerodynamics (s : State) :
    let o := values s
    let p := s.chassis.aero
    let ax := value o "chassis.aerodynamics.aerodynamic_velocity.x"
    let ay := value o "chassis.aerodynamics.aerodynamic_velocity.y"
    let k := p.rho * p.area / 2 * √(ax ^ 2 + ay ^ 2)
    ax = value o "chassis.aerodynamics.wind_velocity_body.x" - s.chassis.u ∧
    ay = value o "chassis.aerodynamics.wind_velocity_body.y" - s.chassis.v ∧
    value o "chassis.aerodynamics.drag.x" = k * value o "chassis.aerodynamics.cd" * ax ∧
    value o "chassis.aerodynamics.drag.y" = k * value o "chassis.aerodynamics.cd" * ay ∧
    value o "chassis.aerodynamics.lift" = p.rho * p.area / 2 * p.cl * ax ^ 2 := by
  intro o p ax ay k
  have hx : ax = s.chassis.wind.velocity.1 := chassis_aerodynamics_aerodynamic_velocity_x s
  have hy : ay = s.chassis.wind.velocity.2.1 := chassis_aerodynamics_aerodynamic_velocity_y s
  have hw : √(s.chassis.wind.velocity.1 * s.chassis.wind.velocity.1
      + s.chassis.wind.velocity.2.1 * s.chassis.wind.velocity.2.1) = √(ax ^ 2 + ay ^ 2) := by
    rw [hx, hy, sq, sq]
  have hd : s.chassis.wind.drag = (1 / 2 * p.rho * p.cd * p.area * √(ax ^ 2 + ay ^ 2)) • s.chassis.wind.velocity := by
    rw [← hw]
    rfl
  rw [show value o "chassis.aerodynamics.wind_velocity_body.x" = _ from chassis_aerodynamics_wind_velocity_body_x s,
    show value o "chassis.aerodynamics.wind_velocity_body.y" = _ from chassis_aerodynamics_wind_velocity_body_y s,
    show value o "chassis.aerodynamics.drag.x" = _ from chassis_aerodynamics_drag_x s,
    show value o "chassis.aerodynamics.drag.y" = _ from chassis_aerodynamics_drag_y s,
    show value o "chassis.aerodynamics.cd" = _ from chassis_aerodynamics_cd s,
    show value o "chassis.aerodynamics.lift" = _ from chassis_aerodynamics_lift s, hd]
  refine ⟨?_, ?_, ?_, ?_, ?_⟩
  · rw [hx]
    show -s.chassis.u + _ = _
    rw [neg_add_eq_sub]
    rfl
  · rw [hy]
    show -s.chassis.v + _ = _
    rw [neg_add_eq_sub]
    rfl
  · rw [Prod.smul_fst, ← hx, smul_eq_mul]
    simp only [k, p]
    ring
  · rw [Prod.smul_snd, Prod.smul_fst, ← hy, smul_eq_mul]
    simp only [k, p]
    ring
  · rw [hx]
    show 1 / 2 * p.rho * p.cl * p.area * s.chassis.wind.velocity.1 * s.chassis.wind.velocity.1 = _
    ring

theorem aerodynamics_level (s : State) (h : s.chassis.att.pitch = 0 ∧ s.chassis.att.roll = 0)
    (hz : s.chassis.groundVz = 0) (hr : 0 ≤ s.chassis.aero.rho) (hd : 0 ≤ s.chassis.aero.cd)
    (hA : 0 ≤ s.chassis.aero.area) :
    let o := values s
    let p := s.chassis.aero
    let ax := value o "chassis.aerodynamics.aerodynamic_velocity.x"
    let ay := value o "chassis.aerodynamics.aerodynamic_velocity.y"
    rotZ (value o "chassis.attitude.yaw") (value o "chassis.aerodynamics.wind_velocity_body.x",
      value o "chassis.aerodynamics.wind_velocity_body.y", 0) = (p.eastward, -p.northward, 0) ∧
    value o "chassis.aerodynamics.drag" = p.rho * p.area / 2 * value o "chassis.aerodynamics.cd" * (ax ^ 2 + ay ^ 2) := by
  intro o p ax ay
  have hx : ax = s.chassis.wind.velocity.1 := chassis_aerodynamics_aerodynamic_velocity_x s
  have hy : ay = s.chassis.wind.velocity.2.1 := chassis_aerodynamics_aerodynamic_velocity_y s
  have hw := (C92_relative_velocity s.chassis.aero s.chassis.att (s.chassis.u, s.chassis.v, s.chassis.groundVz)).2
  have w3 : s.chassis.wind.windBody.2.2 = 0 := by
    simp [ChassisState.wind, aeroForces, toBody, h.1, h.2, rotZ, rotX, rotY]
  have v3 : s.chassis.wind.velocity.2.2 = 0 := by
    simp [ChassisState.wind, aeroForces, toBody, h.1, h.2, hz, rotZ, rotX, rotY]
  rw [show value o "chassis.aerodynamics.wind_velocity_body.x" = _ from chassis_aerodynamics_wind_velocity_body_x s,
    show value o "chassis.aerodynamics.wind_velocity_body.y" = _ from chassis_aerodynamics_wind_velocity_body_y s,
    show value o "chassis.attitude.yaw" = _ from chassis_attitude_yaw s,
    show value o "chassis.aerodynamics.cd" = _ from chassis_aerodynamics_cd s,
    show value o "chassis.aerodynamics.drag" = _ from chassis_aerodynamics_drag s]
  refine ⟨?_, ?_⟩
  · have ha : s.chassis.att = ⟨s.chassis.att.yaw, 0, 0, s.chassis.att.heading⟩ := by
      generalize s.chassis.att = a at h
      obtain ⟨a1, a2, a3, a4⟩ := a
      obtain ⟨rfl, rfl⟩ := h
      rfl
    have hb : s.chassis.wind.windBody = (s.chassis.wind.windBody.1, s.chassis.wind.windBody.2.1, 0) := by
      rw [← w3]
    rw [← rotZ_level, ← ha, ← hb]
    exact hw
  · have hdot : dot s.chassis.wind.drag s.chassis.wind.drag
        = (p.rho * p.area / 2 * p.cd * (ax ^ 2 + ay ^ 2)) ^ 2 := by
      have hs : √(ax ^ 2 + ay ^ 2) ^ 2 = ax ^ 2 + ay ^ 2 := Real.sq_sqrt (add_nonneg (sq_nonneg ax) (sq_nonneg ay))
      have hd' : s.chassis.wind.drag
          = (1 / 2 * p.rho * p.cd * p.area * √(ax ^ 2 + ay ^ 2)) • s.chassis.wind.velocity := by
        rw [hx, hy, sq, sq]
        rfl
      rw [hd']
      simp only [dot, Prod.smul_fst, Prod.smul_snd, smul_eq_mul, v3, ← hx, ← hy]
      linear_combination ((1 / 2 * p.rho * p.cd * p.area) ^ 2 * (ax ^ 2 + ay ^ 2)) * hs
    rw [hdot]
    have h1 : 0 ≤ p.rho * p.area / 2 * p.cd := mul_nonneg (div_nonneg (mul_nonneg hr hA) zero_le_two) hd
    exact Real.sqrt_sq (mul_nonneg h1 (add_nonneg (sq_nonneg ax) (sq_nonneg ay)))

/-- C228, F1 car, every road: the reported aerodynamic velocity is the reported wind less the velocity of the car, the
reported drag has its direction and grows with its square, and the reported lift with the square of its forward
component. -/
theorem C228_f1 (c : F1.Car) (f : TrackPoint) (q u : Nat → ℝ) :
    let o := values (f1Track c f q u)
    let p := c.chassis.aero
    let ax := value o "chassis.aerodynamics.aerodynamic_velocity.x"
    let ay := value o "chassis.aerodynamics.aerodynamic_velocity.y"
    let k := p.rho * p.area / 2 * √(ax ^ 2 + ay ^ 2)
    value o "chassis.aerodynamics.cd" = p.cd ∧
    ax = value o "chassis.aerodynamics.wind_velocity_body.x" - q 4 ∧
    ay = value o "chassis.aerodynamics.wind_velocity_body.y" - q 5 ∧
    value o "chassis.aerodynamics.drag.x" = k * p.cd * ax ∧
    value o "chassis.aerodynamics.drag.y" = k * p.cd * ay ∧
    value o "chassis.aerodynamics.lift" = p.rho * p.area / 2 * p.cl * ax ^ 2 := by
  intro o p ax ay k
  have hc : value o "chassis.aerodynamics.cd" = p.cd := chassis_aerodynamics_cd (f1Track c f q u)
  obtain ⟨h1, h2, h3, h4, h5⟩ := aerodynamics (f1Track c f q u)
  exact ⟨hc, h1, h2, hc ▸ h3, hc ▸ h4, h5⟩

/-- C228, F1 car on a flat road: the reported wind is the wind of the car's parameters seen from the car, which points in
the reported direction; the fixed axes point to the east and to the south. The reported drag is its magnitude. -/
theorem C228_f1_flat (c : F1.Car) (f : TrackPoint) (hf : Level f) (q u : Nat → ℝ) (hr : 0 ≤ c.chassis.aero.rho)
    (hd : 0 ≤ c.chassis.aero.cd) (hA : 0 ≤ c.chassis.aero.area) :
    let o := values (f1Track c f q u)
    let p := c.chassis.aero
    let ax := value o "chassis.aerodynamics.aerodynamic_velocity.x"
    let ay := value o "chassis.aerodynamics.aerodynamic_velocity.y"
    rotZ (value o "chassis.attitude.yaw") (value o "chassis.aerodynamics.wind_velocity_body.x",
      value o "chassis.aerodynamics.wind_velocity_body.y", 0) = (p.eastward, -p.northward, 0) ∧
    value o "chassis.aerodynamics.drag" = p.rho * p.area / 2 * p.cd * (ax ^ 2 + ay ^ 2) := by
  intro o p ax ay
  have eg : (f1Track c f q u).chassis.groundVz = 0 := by
    obtain ⟨f1, f2, f3, f4⟩ := hf
    show (F1.roadCurvilinear f (F1.setState c q u)).groundVz = 0
    simp [F1.roadCurvilinear, Road.update, curvature, f1, f2, f3, f4]
  have hc : value o "chassis.aerodynamics.cd" = p.cd := chassis_aerodynamics_cd (f1Track c f q u)
  obtain ⟨h1, h2⟩ := aerodynamics_level (f1Track c f q u) ⟨hf.1, hf.2.1⟩ eg hr hd hA
  exact ⟨h1, hc ▸ h2⟩

/-- C228, kart, whose roads are flat. -/
theorem C228_kart (solve : Vec3 × Vec3 × Vec3 → Vec3 → Vec3) (c : Kart.Vehicle) (f : TrackPoint) (q u : Nat → ℝ)
    (hr : 0 ≤ c.aero.rho) (hd : 0 ≤ c.aero.cd) (hA : 0 ≤ c.aero.area) :
    let o := values (kartTrack solve c f q u)
    let p := c.aero
    let ax := value o "chassis.aerodynamics.aerodynamic_velocity.x"
    let ay := value o "chassis.aerodynamics.aerodynamic_velocity.y"
    let k := p.rho * p.area / 2 * √(ax ^ 2 + ay ^ 2)
    value o "chassis.aerodynamics.cd" = p.cd ∧
    ax = value o "chassis.aerodynamics.wind_velocity_body.x" - q 1 ∧
    ay = value o "chassis.aerodynamics.wind_velocity_body.y" - q 2 ∧
    value o "chassis.aerodynamics.drag.x" = k * p.cd * ax ∧
    value o "chassis.aerodynamics.drag.y" = k * p.cd * ay ∧
    value o "chassis.aerodynamics.lift" = p.rho * p.area / 2 * p.cl * ax ^ 2 ∧
    rotZ (value o "chassis.attitude.yaw") (value o "chassis.aerodynamics.wind_velocity_body.x",
      value o "chassis.aerodynamics.wind_velocity_body.y", 0) = (p.eastward, -p.northward, 0) ∧
    value o "chassis.aerodynamics.drag" = p.rho * p.area / 2 * p.cd * (ax ^ 2 + ay ^ 2) := by
  intro o p ax ay k
  have hc : value o "chassis.aerodynamics.cd" = p.cd := chassis_aerodynamics_cd (kartTrack solve c f q u)
  obtain ⟨h1, h2, h3, h4, h5⟩ := aerodynamics (kartTrack solve c f q u)
  obtain ⟨h6, h7⟩ := aerodynamics_level (kartTrack solve c f q u) ⟨rfl, rfl⟩ rfl hr hd hA
  exact ⟨hc, h1, h2, hc ▸ h3, hc ▸ h4, h5, h6, hc ▸ h7⟩

/-! ## C229: the names of the outputs for C callers -/

theorem copyAll_ok : ∀ (ks : List Name) (bs : List Nat),
    (∀ (i : Nat) (k : Name), ks[i]? = some k → ∃ b, bs[i]? = some b ∧ k.length + 1 ≤ b) →
    copyAll ks bs = .ok (ks.map fun k => k ++ ['\x00'])
  | [], _, _ => rfl
  | k :: ks, [], h => by
    obtain ⟨b, hb, -⟩ := h 0 k rfl
    simp at hb
  | k :: ks, b :: bs, h => by
    obtain ⟨b', hb, hk⟩ := h 0 k rfl
    obtain rfl : b = b' := by simpa using hb
    have ih := copyAll_ok ks bs fun i k' hk' => h (i + 1) k' hk'
    simp [copyAll, copyUnchecked, hk, ih]

theorem copyAll_ub : ∀ (ks : List Name) (bs : List Nat) (i : Nat) (k : Name),
    ks[i]? = some k → (∀ b, bs[i]? = some b → b < k.length + 1) → copyAll ks bs = .ub
  | [], _, _, _, h, _ => by simp at h
  | _ :: _, [], _, _, _, _ => rfl
  | k :: ks, b :: bs, 0, k', hk, h => by
    obtain rfl : k = k' := by simpa using hk
    simp [copyAll, copyUnchecked, Nat.not_le.mpr (h b rfl), Res.bind]
  | k :: ks, b :: bs, i + 1, k', hk, h => by
    have ih := copyAll_ub ks bs i k' hk h
    rw [copyAll, ih]
    unfold copyUnchecked
    split <;> rfl

theorem names_count {keys : List String} (hp : keys.Perm VehicleNames.outputNames) : keys.length = 98 := by
  rw [hp.length_eq, outputNames_eq]
  rfl

/-- C229: for a stored vehicle and the right number of outputs, every name is written once, with its terminator, if each
buffer has space for its name; the order is that in which the map is traversed. Missing: the buffers need not have that
space when the caller says how large they are, see `C229_names_false`. -/
theorem C229_names_partial (keys : List String) (hp : keys.Perm VehicleNames.outputNames) (l : Library) (vehicle : Name)
    (hv : l.f1 vehicle ≠ none ∨ l.kart vehicle ≠ none) (buffers : List Nat) (nChar : Int)
    (hb : ∀ (i : Nat) (name : String), keys[i]? = some name →
      ∃ b, buffers[i]? = some b ∧ name.toList.length + 1 ≤ b) :
    getOutputNames keys l buffers 98 nChar vehicle = .ok (keys.map fun name => name.toList ++ ['\x00']) := by
  have h1 : ¬(l.f1 vehicle = none ∧ l.kart vehicle = none) := fun h => hv.elim (· h.1) (· h.2)
  have h2 : ¬((98 : Int) % 2 ^ 64 ≠ keys.length) := by
    rw [not_not, names_count hp]
    norm_num
  rw [getOutputNames, if_neg h1, if_neg h2, copyAll_ok]
  · rw [List.map_map]
    rfl
  · intro i k hk
    rw [List.getElem?_map, Option.map_eq_some_iff] at hk
    obtain ⟨name, hn, rfl⟩ := hk
    exact hb i name hn

/-- C229: an unknown vehicle or another number of outputs is an error, whatever the buffers. -/
theorem C229_errors (keys : List String) (hp : keys.Perm VehicleNames.outputNames) (l : Library) (vehicle : Name)
    (buffers : List Nat) (nOutputs nChar : Int) (hn : -2 ^ 31 ≤ nOutputs) (hn' : nOutputs < 2 ^ 31)
    (h : (l.f1 vehicle = none ∧ l.kart vehicle = none) ∨ nOutputs ≠ 98) :
    getOutputNames keys l buffers nOutputs nChar vehicle = .throw := by
  rw [getOutputNames]
  split
  · rfl
  · rw [if_pos]
    have h := h.resolve_left ‹_›
    rw [names_count hp]
    omega

/-- C229: nothing else is defined: a missing buffer, or one without space for its name, is written to all the same. -/
theorem C229_overrun (keys : List String) (hp : keys.Perm VehicleNames.outputNames) (l : Library) (vehicle : Name)
    (hv : l.f1 vehicle ≠ none ∨ l.kart vehicle ≠ none) (buffers : List Nat) (nChar : Int) (i : Nat) (name : String)
    (hi : keys[i]? = some name) (hb : ∀ b, buffers[i]? = some b → b < name.toList.length + 1) :
    getOutputNames keys l buffers 98 nChar vehicle = .ub := by
  have h1 : ¬(l.f1 vehicle = none ∧ l.kart vehicle = none) := fun h => hv.elim (· h.1) (· h.2)
  have h2 : ¬((98 : Int) % 2 ^ 64 ≠ keys.length) := by
    rw [not_not, names_count hp]
    norm_num
  rw [getOutputNames, if_neg h1, if_neg h2]
  exact copyAll_ub _ _ i name.toList (by rw [List.getElem?_map, hi]; rfl) hb

/-- C229 is false: the caller says how large the buffers are, but a name that does not fit is written all the same. -/
theorem C229_names_false (keys : List String) (hp : keys.Perm VehicleNames.outputNames) (l : Library) (vehicle : Name)
    (hv : l.f1 vehicle ≠ none ∨ l.kart vehicle ≠ none) (nChar : Nat) (hc : nChar < 44) :
    getOutputNames keys l (List.replicate 98 nChar) 98 nChar vehicle = .ub := by
  have hm : "chassis.aerodynamics.aerodynamic_velocity.x" ∈ keys := by
    rw [hp.mem_iff, outputNames_eq]
    exact List.mem_of_getElem? (i := 20) rfl
  obtain ⟨i, hi⟩ := List.mem_iff_getElem?.1 hm
  refine C229_overrun keys hp l vehicle hv _ _ i _ hi fun b hb => ?_
  rw [List.getElem?_replicate] at hb
  split at hb
  · obtain rfl := Option.some.inj hb
    exact hc
  · cases hb

/-! ## Examples -/

/-- A library with an F1 car and a kart on a straight track. -/
noncomputable def exLibrary : Library :=
  { f1 := fun n => if n = "car".toList then some (fun _ => F1.exCar, fun _ => F1.exStraight) else none
    kart := fun n => if n = "kart".toList then some (fun _ => Kart.exKart, fun _ => F1.exStraight) else none
    solve := Kart.cramer }

theorem exLibrary_f1 : exLibrary.f1 "car".toList = some (fun _ => F1.exCar, fun _ => F1.exStraight) := by
  simp [exLibrary]

theorem exLibrary_kart : exLibrary.kart "kart".toList = some (fun _ => Kart.exKart, fun _ => F1.exStraight) := by
  simp [exLibrary]

theorem exLibrary_not : exLibrary.kart "car".toList = none := by
  simp [exLibrary]

theorem exLevel : Level F1.exStraight := ⟨rfl, rfl, rfl, rfl⟩

/-- C222 and C228: the car at 50 m/s has a drag of 1250 N. -/
example : getOutput exLibrary "car".toList [0, 0, 0, 0, 50, 0, 0, 0, 0, 0, 0, 0, 0, 0] [0, 0, 0, 0] 7
    "chassis.aerodynamics.drag".toList = .ok 1250 := by
  rw [(C222_f1 exLibrary "car".toList _ _ exLibrary_not exLibrary_f1 _ _ (by simp) (by simp) 7 _).1
    "chassis.aerodynamics.drag" (by rw [outputNames_eq]; exact List.mem_of_getElem? (i := 15) rfl) rfl]
  obtain ⟨-, h1, h2, -⟩ := C228_f1 F1.exCar F1.exStraight (entries [0, 0, 0, 0, 50, 0, 0, 0, 0, 0, 0, 0, 0, 0])
    (entries [0, 0, 0, 0])
  obtain ⟨h3, h4⟩ := C228_f1_flat F1.exCar F1.exStraight exLevel
    (entries [0, 0, 0, 0, 50, 0, 0, 0, 0, 0, 0, 0, 0, 0]) (entries [0, 0, 0, 0]) (by norm_num [F1.exCar])
    (by norm_num [F1.exCar]) (by norm_num [F1.exCar])
  have hy := chassis_attitude_yaw (f1Track F1.exCar F1.exStraight
    (entries [0, 0, 0, 0, 50, 0, 0, 0, 0, 0, 0, 0, 0, 0]) (entries [0, 0, 0, 0]))
  have hy' : value (values (f1Track F1.exCar F1.exStraight (entries [0, 0, 0, 0, 50, 0, 0, 0, 0, 0, 0, 0, 0, 0])
      (entries [0, 0, 0, 0]))) "chassis.attitude.yaw" = 0 := hy.trans (add_zero 0)
  rw [h4, h1, h2]
  rw [hy'] at h3
  have w1 := congrArg (fun v : Vec3 => v.1) h3
  have w2 := congrArg (fun v : Vec3 => v.2.1) h3
  simp only [rotZ, cos_zero, sin_zero, one_mul, zero_mul, sub_zero, zero_add] at w1 w2
  rw [w1, w2]
  norm_num [F1.exCar, entries]

/-- C222: a name that is not in the list. -/
example : getOutput exLibrary "kart".toList (List.replicate 13 1) [0, 0] 7 "speed".toList = .throw := by
  refine (C222_kart exLibrary "kart".toList _ _ exLibrary_kart _ _ (by simp) (by simp) 7 _).2 fun n hn h => ?_
  rw [outputNames_eq] at hn
  have : n = "speed" := (String.toList_inj.1 h).symm
  subst this
  revert hn
  decide

example : getOutput exLibrary "boat".toList [1] [2] 7 "chassis.force.x".toList = .throw :=
  C222_unknown _ _ (by simp [exLibrary]) (by simp [exLibrary]) _ _ _ _

example : getOutput exLibrary "car".toList [1, 2, 3] [4] 7 "chassis.force.x".toList = .ub :=
  C222_short _ _ _ _ exLibrary_not exLibrary_f1 _ _ (.inl (by simp)) _ _

/-- C223: turning at 1 rad/s at 50 m/s, the outer rear wheel is faster than the car. -/
example : vector (values (f1Track F1.exCar F1.exStraight (fun k => if k = 4 then 50 else if k = 6 then 1 else 0)
    fun _ => 0)) "rear-axle.left-tire.velocity.car_frame" = (508 / 10, -(16 / 10), 0) := by
  refine (C223_f1_flat F1.exCar F1.exStraight exLevel (fun k => if k = 4 then 50 else if k = 6 then 1 else 0)
    (fun _ => 0) .rearLeft).trans ?_
  refine vec_ext ?_ ?_ ?_ <;> norm_num [Corner.centre, F1.exCar, F1.exAxle]

/-- C223: the wheels of radius 0.3 m at 50 m/s. -/
example (q : Nat → ℝ) (h4 : q 4 = 50) (h6 : q 6 = 0) :
    let o := values (f1Track F1.exCar F1.exStraight q fun _ => 0)
    value o "rear-axle.left-tire.omega" * (3 / 10) = (1 + value o "rear-axle.left-tire.true_kappa") * 50 := by
  intro o
  obtain ⟨-, h2, h3, -⟩ := C223_f1 F1.exCar F1.exStraight q (fun _ => 0) .rearLeft
    (by norm_num [Corner.radius, F1.exCar, F1.exAxle])
  have hv := C223_f1_flat F1.exCar F1.exStraight exLevel q (fun _ => 0) .rearLeft
  rw [hv] at h2
  have hx := congrArg (fun v : Vec3 => v.1) h2
  simp only [rotZ, Corner.steered, cos_zero, sin_zero, one_mul, zero_mul, sub_zero, h4, h6] at hx
  rw [hx] at h3
  exact h3

example (q u : Nat → ℝ) : let o := values (kartTrack Kart.cramer Kart.exKart F1.exStraight q u)
    (vector o "rear-axle.right-tire.velocity.car_frame").2.1 = q 2 - q 3 * (4 / 10) := by
  intro o
  have h := (C223_kart_plane Kart.cramer Kart.exKart F1.exStraight q u).2.2.2.2
  refine h.trans ?_
  norm_num [Kart.exKart]
  ring

/-- C224: the kart. -/
example (q u : Nat → ℝ) : let o := values (kartTrack Kart.cramer Kart.exKart F1.exStraight q u)
    (total fun i => vector o (i.name ++ ".force.inertial")).2.2 + 1600 = (vector o "chassis.force").2.2 := by
  intro o
  have h := congrArg (fun v : Vec3 => v.2.2) (C224_kart Kart.cramer Kart.exKart F1.exStraight q u)
  have hl : value o "chassis.aerodynamics.lift" = 0 := by
    refine (aerodynamics (kartTrack Kart.cramer Kart.exKart F1.exStraight q u)).2.2.2.2.trans ?_
    show Kart.exKart.aero.rho * Kart.exKart.aero.area / 2 * Kart.exKart.aero.cl * _ = 0
    norm_num [Kart.exKart]
  simp only [rotZ, Prod.snd_add] at h
  rw [show Kart.exKart.mass * Kart.exKart.g0 = 1600 by norm_num [Kart.exKart]] at h
  rw [← h]
  show _ = _ + value o "chassis.aerodynamics.lift" + 1600
  rw [hl, add_zero]

/-- C225: braking while moving to the right. -/
example (q u : Nat → ℝ) (h4 : q 4 = 3) (h5 : q 5 = 4) :
    let o := values (f1Track F1.exCar F1.exStraight q u)
    600 * value o "chassis.acceleration.x" * 5
      = (vector o "chassis.force").1 * 3 + (vector o "chassis.force").2.1 * 4 := by
  have h := (C225_f1 F1.exCar F1.exStraight q u (.inl (by rw [h4]; norm_num)) (by norm_num [F1.exCar])).1
  have e : √((3 : ℝ) ^ 2 + 4 ^ 2) = 5 := by
    rw [show (3 : ℝ) ^ 2 + 4 ^ 2 = 5 ^ 2 by norm_num]
    exact Real.sqrt_sq (by norm_num)
  simp only [h4, h5, e] at h
  exact h

example (u : Nat → ℝ) :
    let o := values (kartTrack Kart.cramer Kart.exKart F1.exStraight (fun _ => 1) u)
    160 ^ 2 * (value o "chassis.acceleration.x" ^ 2 + value o "chassis.acceleration.y" ^ 2)
      = (vector o "chassis.force").1 ^ 2 + (vector o "chassis.force").2.1 ^ 2 :=
  (C225_kart Kart.cramer Kart.exKart F1.exStraight (fun _ => 1) u (.inl one_ne_zero) (by norm_num [Kart.exKart])).2.2

/-- C226: a car at 30 degrees to a straight. -/
example : forward F1.exStraight (π / 6) = (√3 / 2, 1 / 2, 0) := by
  have h := C226_heading_partial F1.exCar F1.exStraight exLevel F1.exInputs fun _ => 0
  have hy : value (values (f1Track F1.exCar F1.exStraight F1.exInputs fun _ => 0)) "chassis.attitude.yaw" = π / 6 :=
    (chassis_attitude_yaw (f1Track F1.exCar F1.exStraight F1.exInputs fun _ => 0)).trans
      (by show (0 : ℝ) + (if (13 : Nat) = 4 then (50 : ℝ) else if (13 : Nat) = 13 then π / 6 else 0) = _; norm_num)
  have hq : F1.exInputs 13 = π / 6 := by norm_num [F1.exInputs]
  simp only [hq, hy, cos_pi_div_six, sin_pi_div_six] at h
  exact h

/-- The inputs of a car that drives at 10 m/s along a circle, displaced by 5 m. -/
noncomputable def exDrive : ℝ → Nat → ℝ := fun _ k => if k = 4 then 10 else if k = 6 then 10 / 95 else if k = 12 then 5 else 0

/-- C227: this car. -/
theorem exDrives (t : ℝ) : Drives F1.exCar exCircle (fun t => 10 / (95 / 100) * t) exDrive (fun _ _ => 0) t := by
  have hd : ∀ s : ℝ, HasDerivAt (fun s : ℝ => s / 100) (1 / 100) s := fun s =>
    (hasDerivAt_id s).div_const 100
  refine ⟨?_, hd _, hasDerivAt_const _ _, hasDerivAt_const _ _, ?_, ?_, ?_, ?_⟩
  · refine (((hd _).sin.const_mul 100).prodMk ((((hd _).cos.const_sub 1).const_mul 100).prodMk
      (hasDerivAt_const _ 0))).congr_deriv ?_
    simp [tangent, exCircle]; constructor <;> ring
  · simp [curvature, exCircle, exDrive]; norm_num
  · refine ((hasDerivAt_id t).const_mul (10 / (95 / 100))).congr_deriv ?_
    simp [F1.roadCurvilinear, F1.setState, Road.update, curvature, exCircle, exDrive, F1.chassisStart, F1.roadStart,
      F1.loadStart, F1.rearStart, F1.frontStart]
    norm_num
  · refine (hasDerivAt_const _ _).congr_deriv ?_
    simp [F1.roadCurvilinear, F1.setState, Road.update, exDrive, F1.chassisStart, F1.roadStart,
      F1.loadStart, F1.rearStart, F1.frontStart]
  · refine (hasDerivAt_const _ _).congr_deriv ?_
    simp [F1.roadCurvilinear, F1.setState, Road.update, curvature, exCircle, exDrive, F1.chassisStart, F1.roadStart,
      F1.loadStart, F1.rearStart, F1.frontStart]
    norm_num

example (t : ℝ) :
    let o := fun t => values (f1Track F1.exCar (exCircle (10 / (95 / 100) * t)) (exDrive t) fun _ => 0)
    HasDerivAt (fun t => vector (o t) "front-axle.right-tire.position")
      (rotZ (value (o t) "chassis.attitude.yaw") (vector (o t) "front-axle.right-tire.velocity.car_frame")) t :=
  C227_flat F1.exCar exCircle (fun _ => ⟨rfl, rfl, rfl, rfl⟩) (fun t => 10 / (95 / 100) * t) exDrive (fun _ _ => 0) t
    (exDrives t) .frontRight

/-- C228: the kart has no lift. -/
example (q u : Nat → ℝ) : value (values (kartTrack Kart.cramer Kart.exKart F1.exStraight q u))
    "chassis.aerodynamics.lift" = 0 := by
  obtain ⟨-, -, -, -, -, h, -⟩ := C228_kart Kart.cramer Kart.exKart F1.exStraight q u (by norm_num [Kart.exKart])
    (by norm_num [Kart.exKart]) (by norm_num [Kart.exKart])
  rw [h]
  norm_num [Kart.exKart]

/-- C229: one buffer for all the names. -/
example : getOutputNames VehicleNames.outputNames exLibrary [64] 98 64 "car".toList = .ub :=
  C229_overrun _ (.refl _) _ _ (.inl (by rw [exLibrary_f1]; simp)) _ _ 1 _ (by rw [outputNames_eq]; rfl) (by simp)

/-- C229: buffers of 64 bytes. -/
example : getOutputNames VehicleNames.outputNames exLibrary (List.replicate 98 64) 98 64 "car".toList
    = .ok (VehicleNames.outputNames.map fun name => name.toList ++ ['\x00']) := by
  refine C229_names_partial _ (.refl _) _ _ (.inl (by rw [exLibrary_f1]; simp)) _ _ fun i name hi => ⟨64, ?_, ?_⟩
  · have := (List.getElem?_eq_some_iff.1 hi).1
    rw [names_count (.refl _)] at this
    rw [List.getElem?_replicate, if_pos this]
  · have h : ∀ n ∈ rawNames, n.toList.length + 1 ≤ 64 := by decide +kernel
    exact h name (outputNames_eq ▸ List.mem_of_getElem? hi)

example : getOutputNames VehicleNames.outputNames exLibrary [] 97 64 "car".toList = .throw :=
  C229_errors _ (.refl _) _ _ _ _ _ (by norm_num) (by norm_num) (.inr (by norm_num))

example : getOutputNames VehicleNames.outputNames exLibrary (List.replicate 98 32) 98 (32 : Nat) "kart".toList = .ub :=
  C229_names_false _ (.refl _) _ _ (.inr (by rw [exLibrary_kart]; simp)) _ (by norm_num)

end Verif.Outputs
