import Verif.Model.SteadyCommand
import Verif.Model.LapOptions
import Verif.Model.Registry

/-!
# The command `propagate_vehicle` and the tracks of the vehicles

Models src/main/c/fastestlapc.cpp:992-1061 (propagation), 1738-1757 (`vehicle_change_track`), 1760-1784
(`track_set_track_limit_correction`) and the part of the other commands that concerns the track of a vehicle. The time
step of lion (`Crank_nicolson::take_step`), its default options, the parser of documents and the reading of numbers
are parameters. The arrays of the caller are lists: reading or writing beyond their end is undefined.
-/

set_option autoImplicit false

namespace Verif.Propagation

open Verif.LapVehicles (Circuit arrayOf)
open Verif.LapOptions (Node Texts)
open Verif.SteadyVehicles (After copyTo)

/-! ### Options -/

/-- The options of the time step, fastestlapc.cpp:1004, 1011-1014. `max_iter` is kept as the number read (C++ converts
it to an integer). -/
structure StepOptions where
  sigma : ℝ
  maxIter : ℝ
  tolerance : ℝ
  relaxation : ℝ

/-- `if ( doc.has_element("options/...") ) ... = doc.get_element("options/...").get_value(scalar())`,
fastestlapc.cpp:1011-1014. -/
def setIf (x : Texts ℝ) (doc : Node) (name : String) (old : ℝ) : Res ℝ :=
  match LapOptions.find? doc [name] with
  | none => .ok old
  | some e => x.num e.text

/-- The options of a call, fastestlapc.cpp:1003-1015: an empty text leaves the defaults. -/
def readOptions (x : Texts ℝ) (parse : String → Res Node) (d : StepOptions) (text : String) : Res StepOptions :=
  if text = "" then .ok d else
  (parse text).bind fun doc =>
  (setIf x doc "sigma" d.sigma).bind fun a =>
  (setIf x doc "max_iter" d.maxIter).bind fun b =>
  (setIf x doc "error_tolerance" d.tolerance).bind fun c =>
  (setIf x doc "relaxation_factor" d.relaxation).bind fun e =>
  .ok ⟨a, b, c, e⟩

/-! ### One step -/

/-- What the time step reads from a vehicle: the numbers of inputs and controls and, at inputs, controls and arclength,
the states and their derivatives (`operator()` of the vehicle, dynamic_model_car.hpp:51-108; called by lion from
fastestlapc.cpp:1018). -/
structure Motion where
  nInputs : Nat
  nControls : Nat
  eval : (Nat → ℝ) → List ℝ → ℝ → (Nat → ℝ) × (Nat → ℝ)

/-- What is taken from lion, fastestlapc.cpp:1004-1018: the step from inputs `q` with controls `u` and `u'`, from `s`
by `ds`; the default options; documents and their texts. -/
structure Lion where
  step : Motion → StepOptions → (u u' : List ℝ) → (q : Nat → ℝ) → (s ds : ℝ) → Res (Nat → ℝ)
  defaults : StepOptions
  parse : String → Res Node
  texts : Texts ℝ

/-- The arrays of the caller: inputs, controls and controls at the end, fastestlapc.cpp:1028. -/
structure Arrays where
  q : List ℝ
  u : List ℝ
  uNext : List ℝ

/-- `std::copy_n` from an array of the caller, fastestlapc.cpp:999-1001. -/
def readArray (n : Nat) (l : List ℝ) : Res (List ℝ) := if n ≤ l.length then .ok (l.take n) else .ub

/-- What `compute_propagation` computes, fastestlapc.cpp:995-1018. The vehicle is a copy: the stored one does not
change. -/
def newInputs (lion : Lion) (m : Motion) (mem : Arrays) (s ds : ℝ) (options : String) : Res (Nat → ℝ) :=
  (readArray m.nInputs mem.q).bind fun q =>
  (readArray m.nControls mem.u).bind fun u =>
  (readArray m.nControls mem.uNext).bind fun u' =>
  (readOptions lion.texts lion.parse lion.defaults options).bind fun opts =>
  lion.step m opts u u' (arrayOf q) s ds

/-- `compute_propagation`, fastestlapc.cpp:992-1022: the inputs of the caller are replaced. -/
def computePropagation (lion : Lion) (m : Motion) (mem : Arrays) (s ds : ℝ) (options : String) : After Arrays :=
  match newInputs lion m mem s ds options with
  | .ok q' =>
    match copyTo ((List.range m.nInputs).map q') mem.q with
    | .ok l => ⟨{ mem with q := l }, .ok ()⟩
    | _ => ⟨mem, .ub⟩
  | .throw => ⟨mem, .throw⟩
  | .ub => ⟨mem, .ub⟩

/-! ### The vehicles -/

/-- The F1 car on a track: `curvilinear_ad`, fastestlapc.cpp:1052. -/
noncomputable def f1OnTrack (car : ℝ → F1.Car) (power : ℝ) (t : Circuit) : Motion :=
  ⟨F1.nInputs, F1.nControls, fun q u s =>
    let e := LapVehicles.f1Eval car power t q u s
    (e.states, e.dstates)⟩

/-- The F1 car on a plane: `cartesian_ad`, fastestlapc.cpp:1056. -/
noncomputable def f1OnPlane (car : ℝ → F1.Car) : Motion :=
  ⟨F1.nInputs, F1.nControls, fun q u s =>
    let e := F1.equationsCartesian (car s) q (arrayOf u)
    (fun k => e.states.getD k 0, fun k => e.dstates.getD k 0)⟩

/-- The kart on a track, fastestlapc.cpp:1039. -/
noncomputable def kartOnTrack (solve : Road.Vec3 × Road.Vec3 × Road.Vec3 → Road.Vec3 → Road.Vec3)
    (kart : ℝ → Kart.Vehicle) (t : Circuit) : Motion :=
  ⟨Kart.nInputs, Kart.nControls, fun q u s =>
    let e := LapVehicles.kartEval solve kart t q u s
    (e.states, e.dstates)⟩

/-- The kart on a plane, fastestlapc.cpp:1043. -/
noncomputable def kartOnPlane (solve : Road.Vec3 × Road.Vec3 × Road.Vec3 → Road.Vec3 → Road.Vec3)
    (kart : ℝ → Kart.Vehicle) : Motion :=
  ⟨Kart.nInputs, Kart.nControls, fun q u s =>
    let m := Kart.setState q (arrayOf u)
    let e := Kart.evaluate solve (kart s) m (Kart.roadCartesian m)
    (fun k => e.states.getD k 0, fun k => e.dstates.getD k 0)⟩

/-- How the vehicles of the two types move (fastestlapc.cpp:1034-1057): karts and F1 cars, on tracks and on planes. -/
structure Movers (Kart F1 Track : Type) where
  kartTrack : Kart → Track → Motion
  kartPlane : Kart → Motion
  f1Track : F1 → Track → Motion
  f1Plane : F1 → Motion

/-- The vehicles of the library (fastestlapc.cpp:1034-1057): karts, and F1 cars with their maximum power. -/
noncomputable def vehicles (solve : Road.Vec3 × Road.Vec3 × Road.Vec3 → Road.Vec3 → Road.Vec3) :
    Movers (ℝ → Kart.Vehicle) ((ℝ → F1.Car) × ℝ) Circuit :=
  ⟨kartOnTrack solve, kartOnPlane solve, fun c t => f1OnTrack c.1 c.2 t, fun c => f1OnPlane c.1⟩

/-! ### The tracks of the vehicles -/

variable {Kart F1 Track K : Type}

/-- A vehicle of the tables (limebeer2014f1.h:330-380, lot2016kart.h:235-271): its parameters and the copies of the track
in `curvilinear_ad` and `curvilinear_scalar` (road_curvilinear.h:121); a new vehicle has none. -/
structure Mounted (C Track : Type) where
  car : C
  ad : Option Track
  scalar : Option Track

/-- A new vehicle, fastestlapc.cpp:95-160. -/
def Mounted.new {C : Type} (c : C) : Mounted C Track := ⟨c, none, none⟩

/-- `curvilinear_ad.change_track(...)`, `curvilinear_scalar.change_track(...)`: fastestlapc.cpp:1037-1038, 1050-1051,
1499-1500, 1747-1748, 1752-1753; the track is copied (road_curvilinear.h:37). -/
def Mounted.change {C : Type} (v : Mounted C Track) (t : Track) : Mounted C Track :=
  { v with ad := some t, scalar := some t }

/-- A command that works on the parameters only: fastestlapc.cpp:907-985. -/
def Mounted.edit {C : Type} {α : Type} (work : C → C × α) (v : Mounted C Track) : Mounted C Track × α :=
  ({ v with car := (work v.car).1 }, (work v.car).2)

/-- The commands that concern vehicles or tracks: fastestlapc.cpp:95-260 (creation), 262-380 (copy, move, delete),
414-430 (`vehicle_get_output`), 907-985 (parameters), 1028-1061 (propagation), 1064-1125 (`steady_state`, `gg_diagram`),
1717-1735 (`optimal_laptime`), 1738-1784, and the others (1787-1990), which do not touch vehicles. -/
inductive Call (Kart F1 Track K : Type) where
  | createKart (name : Name) (car : Kart)
  | createF1 (name : Name) (car : F1)
  | createTrack (name : Name) (track : Track)
  | copy (old new : Name)
  | move (old new : Name)
  | delete (pattern : Name)
  | setParameter (name : Name) (work : F1 → F1 × Res Unit)
  | declareParameter (name : Name) (workF1 : F1 → F1 × Res Unit) (workKart : Kart → Kart × Res Unit)
  /-- `vehicle_get_output`: the number computed from the parameters and the track -/
  | getOutput (name : Name) (kart : Kart → Option Track → Kart × Res K) (f1 : F1 → Option Track → F1 × Res K)
  /-- `steady_state`, `gg_diagram`, `propagate_vehicle` without circuit -/
  | onPlane (name : Name) (kart : Kart → Res Unit) (f1 : F1 → Res Unit)
  /-- `propagate_vehicle` with circuit -/
  | propagate (name track : Name) (kart : Kart → Track → Res Unit) (f1 : F1 → Track → Res Unit)
  | changeTrack (name track : Name)
  | setTrackLimit (track : Name) (work : Track → Track × Res Unit)
  /-- `options`: whether the options were read, which comes before the change of track; `kart` and `f1`: what the
  computation does to the parameters -/
  | optimalLaptime (name track : Name) (options : Bool) (kart : Kart → Track → Kart) (f1 : F1 → Track → F1)
      (job : Registry.LapJob K)
  | circuitPreprocessor (job : Registry.CircuitJob Track K)
  | createVector (name : Name) (n : Int) (data : List K)
  | createScalar (name : Name) (value : K)

/-- `vehicle_get_output` reads `curvilinear_scalar`, fastestlapc.cpp:421, 425. -/
def output {C : Type} (f : C → Option Track → C × Res K) (v : Mounted C Track) :
    Mounted C Track × Res (Registry.Ret K) :=
  ({ v with car := (f v.car v.scalar).1 }, (f v.car v.scalar).2.map Registry.Ret.num)

/-- A command as an operation on the tables of Model/Registry: fastestlapc.cpp:95-430, 907-985, 1028-1125, 1480-1990. -/
def Call.op : Call Kart F1 Track K → Registry.Op (Mounted Kart Track) (Mounted F1 Track) Track K
  | .createKart n c => .createVehicleXml n (.kart (.ok (.new c)))
  | .createF1 n c => .createVehicleXml n (.f1 (.ok (.new c)))
  | .createTrack n t => .createTrackXml n (.discrete (.ok t))
  | .copy a b => .copy a b
  | .move a b => .move a b
  | .delete p => .delete p
  | .setParameter n w => .setParameter n (Mounted.edit w)
  | .declareParameter n wf wk => .declareParameter n (Mounted.edit wf) (Mounted.edit wk)
  | .getOutput n k f => .useVehicle n true (output k) (output f)
  | .onPlane n k f => .useVehicle n false (fun v => (v, (k v.car).map fun _ => .unit)) fun v =>
      (v, (f v.car).map fun _ => .unit)
  | .propagate n t k f => .useVehicleOnTrack n t (fun v t => (v.change t, k v.car t)) fun v t => (v.change t, f v.car t)
  | .changeTrack n t => .useVehicleOnTrack n t (fun v t => (v.change t, .ok ())) fun v t => (v.change t, .ok ())
  | .setTrackLimit t w => .setTrackLimit t w
  | .optimalLaptime n t o k f job => .optimalLaptime n t
      (fun v t => if o then { v.change t with car := k v.car t } else v)
      (fun v t => if o then { v.change t with car := f v.car t } else v) job
  | .circuitPreprocessor job => .circuitPreprocessor job
  | .createVector n m d => .createVector n m d
  | .createScalar n x => .createScalar n x

/-! ### The command -/

/-- The vehicle that `propagate_vehicle` moves: on the track of that name, which must exist, or on a plane;
fastestlapc.cpp:1033-1057. -/
def moved {C : Type} (onTrack : C → Track → Motion) (onPlane : C → Motion) (track : Option Track) (useCircuit : Bool)
    (v : Mounted C Track) : Res Motion :=
  if useCircuit then
    match track with
    | some t => .ok (onTrack v.car t)
    | none => .throw
  else .ok (onPlane v.car)

/-- The arguments of `propagate_vehicle` besides the arrays, fastestlapc.cpp:1028. -/
structure Step where
  name : Name
  track : Name
  s : ℝ
  ds : ℝ
  useCircuit : Bool
  options : String

/-- `propagate_vehicle` on the arrays of the caller, fastestlapc.cpp:1028-1061; karts come first and an unknown vehicle
is ignored. What it does to the tables is `Step.call`. -/
def propagate (lion : Lion) (how : Movers Kart F1 Track) (r : Registry.Reg (Mounted Kart Track) (Mounted F1 Track) Track K)
    (a : Step) (mem : Arrays) : After Arrays :=
  let go (m : Res Motion) : After Arrays :=
    match m with
    | .ok m => computePropagation lion m mem a.s a.ds a.options
    | .throw => ⟨mem, .throw⟩
    | .ub => ⟨mem, .ub⟩
  match r.kart a.name, r.f1 a.name with
  | some v, _ => go (moved how.kartTrack how.kartPlane (r.track a.track) a.useCircuit v)
  | none, some v => go (moved how.f1Track how.f1Plane (r.track a.track) a.useCircuit v)
  | none, none => ⟨mem, .ok ()⟩

/-- The same command on the tables: with a circuit both curvilinear copies are put on the track before the step, which
may throw; fastestlapc.cpp:1035-1044, 1048-1057. -/
def Step.call (lion : Lion) (how : Movers Kart F1 Track) (a : Step) (mem : Arrays) : Call Kart F1 Track K :=
  if a.useCircuit then
    .propagate a.name a.track
      (fun c t => (computePropagation lion (how.kartTrack c t) mem a.s a.ds a.options).result)
      fun c t => (computePropagation lion (how.f1Track c t) mem a.s a.ds a.options).result
  else
    .onPlane a.name (fun c => (computePropagation lion (how.kartPlane c) mem a.s a.ds a.options).result)
      fun c => (computePropagation lion (how.f1Plane c) mem a.s a.ds a.options).result

end Verif.Propagation
