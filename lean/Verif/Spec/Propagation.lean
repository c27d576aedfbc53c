import Verif.Spec.LapVehicles
import Verif.Spec.SteadyVehicles
import Verif.Model.Propagation

/-! Vocabulary of the properties of `propagate_vehicle` and of the tracks of the vehicles (C212..): what is assumed of
the time step of lion, how the options are chosen, the laws of motion on a plane (inputs of the F1 car: 11, 12 position,
13 heading; of the kart: 10, 11 position, 12 heading; the others as in Spec/LapVehicles). -/

set_option autoImplicit false

namespace Verif.Propagation

open Verif.LapVehicles Verif.LapOptions

/-! ### The time step -/

/-- A step that is returned changes every state by its derivatives at both ends, with the weights `1 - sigma` and
`sigma`, up to the error tolerance. -/
def Solves (lion : Lion) : Prop :=
  ∀ m opts u u' q s ds q', lion.step m opts u u' q s ds = .ok q' → ∀ k, k < m.nInputs →
    Changes opts.sigma ds opts.tolerance ((m.eval q u s).1 k) ((m.eval q' u' (s + ds)).1 k)
      ((m.eval q u s).2 k) ((m.eval q' u' (s + ds)).2 k)

/-! ### Options -/

/-- The first child with a name. -/
def FirstChild (doc : Node) (name : String) (e : Node) : Prop :=
  ∃ before after, doc.children = before ++ e :: after ∧ e.name = name ∧ ∀ c ∈ before, c.name ≠ name

/-- An option of a document with root `options`: the number in the first element of its name or, if there is none, the
default. -/
def Chosen (x : Texts ℝ) (doc : Node) (name : String) (default v : ℝ) : Prop :=
  (∃ e, FirstChild doc name e ∧ x.num e.text = .ok v) ∨ ((∀ c ∈ doc.children, c.name ≠ name) ∧ v = default)

/-- The options of a step: the defaults if the text is empty; otherwise those of the document. -/
def OptionsOf (lion : Lion) (text : String) (o : StepOptions) : Prop :=
  (text = "" ∧ o = lion.defaults) ∨
  (text ≠ "" ∧ ∃ doc, lion.parse text = .ok doc ∧ doc.name = "options" ∧
    Chosen lion.texts doc "sigma" lion.defaults.sigma o.sigma ∧
    Chosen lion.texts doc "max_iter" lion.defaults.maxIter o.maxIter ∧
    Chosen lion.texts doc "error_tolerance" lion.defaults.tolerance o.tolerance ∧
    Chosen lion.texts doc "relaxation_factor" lion.defaults.relaxation o.relaxation)

/-! ### Laws of motion on a plane -/

/-- Wheels and chassis of the F1 car on a plane. -/
noncomputable def planeOut (c : F1.Car) (q u : Nat → ℝ) : F1.CarOut :=
  F1.carUpdate c (F1.setState c q u) (F1.roadCartesian (F1.setState c q u))

/-- The laws of motion of the F1 car on a plane over a time `L`, up to `tol`: velocity and yaw rate change by the forces
and the moment, position and heading by the velocity, the wheels by their torques (when their inertia is not
negligible); the vertical force (over the weight), the moments about the axes x and y and the excess of the load transfer
vanish on average. -/
structure F1OnPlane (sigma L tol : ℝ) (c : F1.Car) (q u : Nat → ℝ) (c' : F1.Car) (q' u' : Nat → ℝ) : Prop where
  forward : Changes sigma L tol (q 4) (q' 4) ((planeOut c q u).chassis.force.1 / c.chassis.mass + q 5 * q 6)
    ((planeOut c' q' u').chassis.force.1 / c'.chassis.mass + q' 5 * q' 6)
  sideways : Changes sigma L tol (q 5) (q' 5) ((planeOut c q u).chassis.force.2.1 / c.chassis.mass - q 4 * q 6)
    ((planeOut c' q' u').chassis.force.2.1 / c'.chassis.mass - q' 4 * q' 6)
  yaw : Changes sigma L tol (q 6) (q' 6) ((planeOut c q u).chassis.torque.2.2 / c.chassis.I.2.2.2.2)
    ((planeOut c' q' u').chassis.torque.2.2 / c'.chassis.I.2.2.2.2)
  vertical : Changes sigma L tol 0 0 ((planeOut c q u).chassis.force.2.2 / (c.chassis.g0 * c.chassis.mass))
    ((planeOut c' q' u').chassis.force.2.2 / (c'.chassis.g0 * c'.chassis.mass))
  roll : Changes sigma L tol 0 0 ((planeOut c q u).chassis.torque.1 / (c.chassis.g0 * c.chassis.mass))
    ((planeOut c' q' u').chassis.torque.1 / (c'.chassis.g0 * c'.chassis.mass))
  pitch : Changes sigma L tol 0 0 ((planeOut c q u).chassis.torque.2.1 / (c.chassis.g0 * c.chassis.mass))
    ((planeOut c' q' u').chassis.torque.2.1 / (c'.chassis.g0 * c'.chassis.mass))
  shared : Changes sigma L tol 0 0 (excess c q) (excess c' q')
  east : Changes sigma L tol (q 11) (q' 11) (q 4 * Real.cos (q 13) - q 5 * Real.sin (q 13))
    (q' 4 * Real.cos (q' 13) - q' 5 * Real.sin (q' 13))
  north : Changes sigma L tol (q 12) (q' 12) (q 4 * Real.sin (q 13) + q 5 * Real.cos (q 13))
    (q' 4 * Real.sin (q' 13) + q' 5 * Real.cos (q' 13))
  heading : Changes sigma L tol (q 13) (q' 13) (q 6) (q' 6)
  wheels : ∀ k, 1 / 10 ^ 10 ≤ (f1Wheel c (planeOut c q u) k).2.2 → 1 / 10 ^ 10 ≤ (f1Wheel c' (planeOut c' q' u') k).2.2 →
    Changes sigma L tol (spin (f1Wheel c (planeOut c q u) k)).1 (spin (f1Wheel c' (planeOut c' q' u') k)).1
      (spin (f1Wheel c (planeOut c q u) k)).2 (spin (f1Wheel c' (planeOut c' q' u') k)).2

/-- The forces on the kart on a plane. -/
noncomputable def planeForce (c : Kart.Vehicle) (q u : Nat → ℝ) : Road.Vec3 :=
  ((Kart.applied c (Kart.setState q u) (q 12)).map Prod.snd).sum

/-- The laws of motion of the kart on a plane over a time `L`, up to `tol`. Roll, pitch and yaw rates change by the
accelerations that the kart computes from the moments (C156, C157). -/
structure KartOnPlane (solve : Road.Vec3 × Road.Vec3 × Road.Vec3 → Road.Vec3 → Road.Vec3) (sigma L tol : ℝ)
    (c : Kart.Vehicle) (q u : Nat → ℝ) (c' : Kart.Vehicle) (q' u' : Nat → ℝ) : Prop where
  axle : Changes sigma L tol (q 0) (q' 0) (axleTorque c (Kart.setState q u) / c.IAxle)
    (axleTorque c' (Kart.setState q' u') / c'.IAxle)
  forward : Changes sigma L tol (q 1) (q' 1) ((planeForce c q u).1 / c.mass + q 2 * q 3)
    ((planeForce c' q' u').1 / c'.mass + q' 2 * q' 3)
  sideways : Changes sigma L tol (q 2) (q' 2) ((planeForce c q u).2.1 / c.mass - q 1 * q 3)
    ((planeForce c' q' u').2.1 / c'.mass - q' 1 * q' 3)
  down : Changes sigma L tol (q 7) (q' 7) ((planeForce c q u).2.2 / c.mass) ((planeForce c' q' u').2.2 / c'.mass)
  rates : ∀ k, k < 3 → Changes sigma L tol (q (4 + k)) (q' (4 + k)) (q (7 + k)) (q' (7 + k))
  east : Changes sigma L tol (q 10) (q' 10) (q 1 * Real.cos (q 12) - q 2 * Real.sin (q 12))
    (q' 1 * Real.cos (q' 12) - q' 2 * Real.sin (q' 12))
  north : Changes sigma L tol (q 11) (q' 11) (q 1 * Real.sin (q 12) + q 2 * Real.cos (q 12))
    (q' 1 * Real.sin (q' 12) + q' 2 * Real.cos (q' 12))
  heading : Changes sigma L tol (q 12) (q' 12) (q 3) (q' 3)
  roll : Changes sigma L tol (q 8) (q' 8) (Kart.angularAcceleration solve c (Kart.setState q u) (q 12)).1
    (Kart.angularAcceleration solve c' (Kart.setState q' u') (q' 12)).1
  pitch : Changes sigma L tol (q 9) (q' 9) (Kart.angularAcceleration solve c (Kart.setState q u) (q 12)).2.1
    (Kart.angularAcceleration solve c' (Kart.setState q' u') (q' 12)).2.1
  yaw : Changes sigma L tol (q 3) (q' 3) (Kart.angularAcceleration solve c (Kart.setState q u) (q 12)).2.2
    (Kart.angularAcceleration solve c' (Kart.setState q' u') (q' 12)).2.2

/-! ### The arrays of the caller -/

/-- Only the first `n` inputs of the caller are replaced, by `q'`. -/
def Replaces (n : Nat) (mem : Arrays) (q' : Nat → ℝ) (after : Arrays) : Prop :=
  SteadyVehicles.Holds after.q n q' ∧ after.q.length = mem.q.length ∧ after.q.drop n = mem.q.drop n ∧
    after.u = mem.u ∧ after.uNext = mem.uNext

/-! ### Tracks of the vehicles -/

variable {Kart F1 Track K : Type}

/-- The tables of vehicles with their tracks. -/
abbrev Tables (Kart F1 Track K : Type) := Registry.Reg (Mounted Kart Track) (Mounted F1 Track) Track K

/-- The motion that a call asks for: the vehicle exists and, when it is to move along a track, the track exists. -/
def Moves (how : Movers Kart F1 Track) (r : Tables Kart F1 Track K) (a : Step) (m : Motion) : Prop :=
  (∃ v, r.kart a.name = some v ∧
    ((a.useCircuit = true ∧ ∃ t, r.track a.track = some t ∧ m = how.kartTrack v.car t) ∨
      (a.useCircuit = false ∧ m = how.kartPlane v.car))) ∨
  (r.kart a.name = none ∧ ∃ v, r.f1 a.name = some v ∧
    ((a.useCircuit = true ∧ ∃ t, r.track a.track = some t ∧ m = how.f1Track v.car t) ∨
      (a.useCircuit = false ∧ m = how.f1Plane v.car)))

/-- The two curvilinear copies of every vehicle are on the same track. -/
def SameTracks (r : Tables Kart F1 Track K) : Prop :=
  (∀ n v, r.kart n = some v → v.ad = v.scalar) ∧ ∀ n v, r.f1 n = some v → v.ad = v.scalar

/-- Both copies of the vehicle with that name (karts come first) are on track `t`. -/
def IsOn (r : Tables Kart F1 Track K) (n : Name) (t : Track) : Prop :=
  (∃ v, r.kart n = some v ∧ v.ad = some t ∧ v.scalar = some t) ∨
  (r.kart n = none ∧ ∃ v, r.f1 n = some v ∧ v.ad = some t ∧ v.scalar = some t)

/-- Vehicle `n` is put on track `t`: nothing else changes. -/
structure Mounts (r r' : Tables Kart F1 Track K) (n : Name) (t : Track) : Prop where
  on : IsOn r' n t
  karts : ∀ m, (r'.kart m).map (·.car) = (r.kart m).map (·.car)
  f1s : ∀ m, (r'.f1 m).map (·.car) = (r.f1 m).map (·.car)
  others : ∀ m, m ≠ n → r'.kart m = r.kart m ∧ r'.f1 m = r.f1 m
  track : r'.track = r.track
  scalar : r'.scalar = r.scalar
  vector : r'.vector = r.vector

/-- The commands that put vehicle `n` on a track, give it another name or delete it. -/
def Takes (lib : Name → Option (Name → Bool)) (n : Name) : Call Kart F1 Track K → Prop
  | .changeTrack m _ | .propagate m _ _ _ | .optimalLaptime m _ _ _ _ _ => m = n
  | .move old _ => old = n
  | .delete p => ∃ sel, Pattern.selects lib p = some sel ∧ sel n = true
  | _ => False

/-- The commands that put vehicle `n` on the track `t`. -/
def Puts (n track : Name) : Call Kart F1 Track K → Prop
  | .changeTrack m t | .propagate m t _ _ => m = n ∧ t = track
  | .optimalLaptime m t options _ _ _ => m = n ∧ t = track ∧ options = true
  | _ => False

end Verif.Propagation
