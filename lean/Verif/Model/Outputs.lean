import Verif.Model.LapVehicles
import Verif.Model.VehicleNames

/-!
# The outputs of a vehicle

Models the values of `get_outputs_map` (tire.h:170-197, axle.h:120-134, chassis.h:242-252, 282-309) of the F1 car
and of the kart after an evaluation, and `vehicle_get_output` and `vehicle_get_output_variable_names` of
src/main/c/fastestlapc.cpp. The maps are unordered in the code; here they have the order of insertion. A division by
zero is an infinity or a NaN in C++ and 0 in the model; theorems state the condition under which it does not happen.
-/

set_option autoImplicit false

namespace Verif.Outputs

open Verif.Road Verif.Chassis

/-- `get_absolute_rotation_matrix` of the road frame: its rotations are about Z, Y, X and Z (chassis.hpp:10,
124-130). Used at chassis.hpp:271, and by the frames that are parallel to it. -/
noncomputable def absolute (a : Attitude) (v : Vec3) : Vec3 :=
  rotZ a.yaw (rotY a.pitch (rotX a.roll (rotZ a.heading v)))

/-- What the map of a tyre reads from the tyre, tire.h:170-197: `position` is `get_position()`, `velocity` is `_v`,
`delta` is the angle of its frame, whose parents are parallel to the road frame. -/
structure TyreState where
  position : Vec3
  velocity : Vec3
  delta : ℝ
  lambda : ℝ
  kappa : ℝ
  dissipation : ℝ
  force : Vec3
  omega : ℝ

/-- `Tire::get_outputs_map_self`, tire.h:170-197; `a` is the attitude of the road frame. -/
noncomputable def tyreValues (name : String) (a : Attitude) (t : TyreState) : List (String × ℝ) :=
  let absoluteForce := absolute a (rotZ t.delta t.force)
  let carBodyVelocity := rotZ t.delta t.velocity
  [(name ++ ".position.x", t.position.1), (name ++ ".position.y", t.position.2.1),
   (name ++ ".position.z", t.position.2.2),
   (name ++ ".velocity.x", t.velocity.1), (name ++ ".velocity.y", t.velocity.2.1),
   (name ++ ".velocity.z", t.velocity.2.2),
   (name ++ ".velocity.car_frame.x", carBodyVelocity.1), (name ++ ".velocity.car_frame.y", carBodyVelocity.2.1),
   (name ++ ".velocity.car_frame.z", carBodyVelocity.2.2),
   (name ++ ".lambda", t.lambda), (name ++ ".true_kappa", t.kappa), (name ++ ".dissipation", t.dissipation),
   (name ++ ".force.x", t.force.1), (name ++ ".force.y", t.force.2.1), (name ++ ".force.z", t.force.2.2),
   (name ++ ".force.inertial.x", absoluteForce.1), (name ++ ".force.inertial.y", absoluteForce.2.1),
   (name ++ ".force.inertial.z", absoluteForce.2.2), (name ++ ".omega", t.omega)]

/-- What the map of a chassis reads from the chassis, chassis.h:282-309: `ground` is the origin of the road frame,
`att` its attitude, `groundVz` its vertical velocity. -/
structure ChassisState where
  mass : ℝ
  u : ℝ
  v : ℝ
  groundVz : ℝ
  force : Vec3
  torque : Vec3
  yawRateDot : ℝ
  ground : Vec3
  att : Attitude
  aero : Aero
  indicator : ℝ

/-- `Chassis::get_outputs_map_self`, chassis.h:282-309. -/
noncomputable def chassisValues (c : ChassisState) : List (String × ℝ) :=
  let a := aeroForces c.aero c.att (c.u, c.v, c.groundVz)
  [("chassis.acceleration.x", longitudinalAcceleration c.mass c.u c.v c.force),
   ("chassis.acceleration.y", lateralAcceleration c.mass c.u c.v c.force),
   ("chassis.force.x", c.force.1), ("chassis.force.y", c.force.2.1), ("chassis.force.z", c.force.2.2),
   ("chassis.torque.x", c.torque.1), ("chassis.torque.y", c.torque.2.1), ("chassis.torque.z", c.torque.2.2),
   ("chassis.acceleration.yaw", c.yawRateDot), ("chassis.position.x", c.ground.1),
   ("chassis.position.y", c.ground.2.1), ("chassis.attitude.yaw", c.att.yaw + c.att.heading),
   ("chassis.understeer_oversteer_indicator", c.indicator), ("chassis.aerodynamics.cd", c.aero.cd),
   ("chassis.aerodynamics.lift", a.lift.2.2), ("chassis.aerodynamics.drag", √(dot a.drag a.drag)),
   ("chassis.aerodynamics.drag.x", a.drag.1), ("chassis.aerodynamics.drag.y", a.drag.2.1),
   ("chassis.aerodynamics.wind_velocity_body.x", a.windBody.1),
   ("chassis.aerodynamics.wind_velocity_body.y", a.windBody.2.1),
   ("chassis.aerodynamics.aerodynamic_velocity.x", a.velocity.1),
   ("chassis.aerodynamics.aerodynamic_velocity.y", a.velocity.2.1)]

/-- `map.insert(other.cbegin(), other.cend())`: a key that is already there keeps its value (axle.h:125, 130,
chassis.h:248-249). -/
def insertValues (m l : List (String × ℝ)) : List (String × ℝ) :=
  l.foldl (fun m e => if e.1 ∈ m.map Prod.fst then m else m ++ [e]) m

/-- `Axle::get_outputs_map`, axle.h:120-134, of the axle with that name. -/
noncomputable def axleValues (name : String) (a : Attitude) (l r : TyreState) : List (String × ℝ) :=
  insertValues (insertValues [] (tyreValues (name ++ ".left-tire") a l)) (tyreValues (name ++ ".right-tire") a r)

/-- A vehicle after an evaluation: what its maps read (chassis.h:242-252). -/
structure State where
  chassis : ChassisState
  fl : TyreState
  fr : TyreState
  rl : TyreState
  rr : TyreState

/-- `Chassis::get_outputs_map`, chassis.h:242-252, dynamic_model_car.h:162. -/
noncomputable def values (s : State) : List (String × ℝ) :=
  insertValues (insertValues (chassisValues s.chassis) (axleValues "front-axle" s.chassis.att s.fl s.fr))
    (axleValues "rear-axle" s.chassis.att s.rl s.rr)

/-! ### The F1 car -/

/-- A tyre of the F1 car: `x` is the position of its axle and `y` its place in the axle (axle_car_3dof.hpp:132);
`_frame.get_absolute_position()` and `_v` of tire.hpp:95, see `F1.wheelUpdate`. -/
noncomputable def f1Tyre (R0 : ℝ) (ground : Vec3) (a : Attitude) (x : Vec3) (y delta : ℝ) (vel om : Vec3)
    (w : F1.WheelOut) : TyreState :=
  { position := ground + absolute a (x + (0, y, 0))
    velocity := rotZ (-delta) (vel + cross om (x + (0, y, R0 - w.kin.w)))
    delta := delta
    lambda := w.kin.lambda
    kappa := w.kin.kappa
    dissipation := Tyre.dissipation w.kin w.Fx w.Fy
    force := w.wheel.force
    omega := w.kin.omega }

/-- The F1 car after an evaluation: `ground` is the position of the road frame
(dynamic_model_car.hpp:74, 97). The indicator is that of chassis.hpp:292-337. -/
noncomputable def f1State (c : F1.Car) (m : F1.Members) (r : F1.RoadOut) (ground : Vec3) : State :=
  let o := F1.carUpdate c m r
  let p := c.chassis
  let vel : Vec3 := (m.u, m.v, r.groundVz)
  { chassis :=
      { mass := p.mass, u := m.u, v := m.v, groundVz := r.groundVz, force := o.chassis.force
        torque := o.chassis.torque, yawRateDot := o.chassis.yawRateDot, ground := ground, att := r.att
        aero := p.aero
        indicator := understeer c.front.track p.xFront.1 p.xRear.1 m.u m.v m.omega m.steering m.steering }
    fl := f1Tyre c.front.R0 ground r.att p.xFront (-(1 / 2) * c.front.track) m.steering vel r.omega o.front.left
    fr := f1Tyre c.front.R0 ground r.att p.xFront (1 / 2 * c.front.track) m.steering vel r.omega o.front.right
    rl := f1Tyre c.rear.R0 ground r.att p.xRear (-(1 / 2) * c.rear.track) 0 vel r.omega o.rear.left
    rr := f1Tyre c.rear.R0 ground r.att p.xRear (1 / 2 * c.rear.track) 0 vel r.omega o.rear.right }

/-- The state of the F1 car on a track after `operator()`, dynamic_model_car.hpp:51-108: the position is
that of road_curvilinear.hpp:18. -/
noncomputable def f1Track (c : F1.Car) (f : TrackPoint) (q u : Nat → ℝ) : State :=
  let m := F1.setState c q u
  f1State c m (F1.roadCurvilinear f m) (Road.update f m.road2 m.road3 m.u m.v m.omega).position

/-! ### The kart -/

/-- A tyre of the kart: its axle is at `axle` in the road frame with velocity `daxle`, the tyre at `(0, y, h)` in the
axle with vertical velocity `dh`; tire.hpp:44-75, see `Kart.wheelUpdate`. -/
noncomputable def kartTyre (R0 : ℝ) (ground : Vec3) (a : Attitude) (axle daxle : Vec3) (y h dh delta : ℝ)
    (vel om : Vec3) (w : F1.WheelOut) : TyreState :=
  { position := ground + absolute a (axle + (0, y, h))
    velocity := rotZ (-delta) (vel + (daxle + (0, 0, dh)) + cross om (axle + (0, y, h) + (0, 0, R0 - w.kin.w)))
    delta := delta
    lambda := w.kin.lambda
    kappa := w.kin.kappa
    dissipation := Tyre.dissipation w.kin w.Fx w.Fy
    force := w.wheel.force
    omega := w.kin.omega }

/-- The two tyres of an axle of the kart, axle_car_6dof.hpp:99-181, with the heights and velocities of
`Kart.axleUpdate`. -/
noncomputable def kartAxle (c : Kart.Vehicle) (m : Kart.Members) (k : Kart.AxleK) (x : Vec3) (delta : ℝ)
    (o : Kart.AxleOut) (ground : Vec3) (a : Attitude) : TyreState × TyreState :=
  let velocity := (0, 0, m.dz) + Kart.axleVelocity x m
  let h := Power.tyreHeight k.susp (Kart.comPosition c m + Kart.axlePosition x m).2.2 m.phi delta
  let dh := Power.tyreVelocity k.susp velocity.2.2 m.dphi
  (kartTyre k.susp.R0 ground a o.position velocity (-(1 / 2) * k.susp.track) h.1 dh.1 delta (m.u, m.v, 0)
    (0, 0, m.omega) o.left,
   kartTyre k.susp.R0 ground a o.position velocity (1 / 2 * k.susp.track) h.2 dh.2 delta (m.u, m.v, 0)
    (0, 0, m.omega) o.right)

/-- The kart after an evaluation, chassis_car_6dof.hpp:89-155; `att` is the attitude of a flat road. -/
noncomputable def kartState (solve : Vec3 × Vec3 × Vec3 → Vec3 → Vec3) (c : Kart.Vehicle) (m : Kart.Members)
    (att : Attitude) (ground : Vec3) : State :=
  let heading := att.yaw + att.heading
  let front := Kart.frontAxle c m
  let rear := Kart.rearAxle c m
  let f := kartAxle c m c.front c.xFront m.steering front ground att
  let r := kartAxle c m c.rear c.xRear 0 rear ground att
  { chassis :=
      { mass := c.mass, u := m.u, v := m.v, groundVz := 0, force := Kart.totalForce c m heading
        torque := Kart.totalTorque c m heading
        yawRateDot := (Kart.angularAcceleration solve c m heading).2.2, ground := ground, att := att
        aero := c.aero
        indicator := understeer c.front.susp.track front.position.1 rear.position.1 m.u m.v m.omega
          m.steering m.steering }
    fl := f.1, fr := f.2, rl := r.1, rr := r.2 }

/-- The state of the kart on a flat track after `operator()`, dynamic_model_car.hpp:51-108. -/
noncomputable def kartTrack (solve : Vec3 × Vec3 × Vec3 → Vec3 → Vec3) (c : Kart.Vehicle) (f : TrackPoint)
    (q u : Nat → ℝ) : State :=
  let m := Kart.setState q u
  kartState solve c m ⟨f.yaw, 0, 0, m.road3⟩ (Road.update f m.road2 m.road3 m.u m.v m.omega).position

/-! ### The C interface -/

/-- The vehicles of the library, fastestlapc.cpp:22-41: each with its parameters at an arclength
(dynamic_model_car.hpp:61-62) and its track. `solve` is `linsolve`. -/
structure Library where
  f1 : Name → Option ((ℝ → F1.Car) × (ℝ → TrackPoint))
  kart : Name → Option ((ℝ → Kart.Vehicle) × (ℝ → TrackPoint))
  solve : Vec3 × Vec3 × Vec3 → Vec3 → Vec3

/-- `std::copy_n(c_q, n, q.begin())`, fastestlapc.cpp:397-398: reads `n` numbers from the caller's memory. -/
def copyArray (n : Nat) (l : List ℝ) : Res (Nat → ℝ) := if l.length < n then .ub else .ok fun k => l.getD k 0

/-- `outputs_map.find(property_name)`, fastestlapc.cpp:405-410. -/
def find (m : List (String × ℝ)) (key : Name) : Res ℝ :=
  match m.find? fun e => decide (e.1.toList = key) with
  | some e => .ok e.2
  | none => .throw

/-- `vehicle_get_property_generic`, fastestlapc.cpp:390-411: `state` is the vehicle after its evaluation. -/
noncomputable def getProperty (nInputs nControls : Nat) (state : (Nat → ℝ) → (Nat → ℝ) → State) (q u : List ℝ)
    (key : Name) : Res ℝ :=
  (copyArray nInputs q).bind fun q =>
  (copyArray nControls u).bind fun u => find (values (state q u)) key

/-- `vehicle_get_output`, fastestlapc.cpp:414-432: the karts are looked at first. -/
noncomputable def getOutput (l : Library) (vehicle : Name) (q u : List ℝ) (s : ℝ) (key : Name) : Res ℝ :=
  match l.kart vehicle with
  | some (k, t) => getProperty Kart.nInputs Kart.nControls (fun q u => kartTrack l.solve (k s) (t s) q u) q u key
  | none =>
    match l.f1 vehicle with
    | some (c, t) => getProperty F1.nInputs F1.nControls (fun q u => f1Track (c s) (t s) q u) q u key
    | none => .throw

/-- `strcpy(output_names[i++], key)`, fastestlapc.cpp:803: the key and its terminator are written to a buffer of that
many bytes. -/
def copyUnchecked (key : Name) (buffer : Nat) : Res Name :=
  if key.length + 1 ≤ buffer then .ok (key ++ ['\x00']) else .ub

/-- The loop of fastestlapc.cpp:800-804 over the keys and the buffers. -/
def copyAll : List Name → List Nat → Res (List Name)
  | [], _ => .ok []
  | _ :: _, [] => .ub
  | k :: ks, b :: bs => (copyUnchecked k b).bind fun x => (copyAll ks bs).bind fun xs => .ok (x :: xs)

/-- `vehicle_get_output_variable_names`, fastestlapc.cpp:776-807: `buffers` are the sizes of the buffers of the
caller; `nOutputs` is converted to an unsigned number of 64 bits and compared; `nChar` is not used. `keys` are the keys
of the map of the vehicle in the order in which the `std::unordered_map` is traversed. -/
def getOutputNames (keys : List String) (l : Library) (buffers : List Nat) (nOutputs _nChar : Int) (vehicle : Name) :
    Res (List Name) :=
  if l.f1 vehicle = none ∧ l.kart vehicle = none then .throw
  else if nOutputs % 2 ^ 64 ≠ keys.length then .throw
  else copyAll (keys.map String.toList) buffers

end Verif.Outputs
