import Verif.Basic
import Verif.Model.Tyre
import Verif.Model.Chassis
import Verif.Model.Powertrain

/-!
# The F1 car

Model of `limebeer2014f1` (src/core/vehicles/limebeer2014f1.h) and of `Dynamic_model_car`
(src/core/vehicles/dynamic_model_car.h, .hpp): the index of every variable, its name, its limits, the
classification of the equations, the constraints added to a lap and the equations of motion, composed of
the models of the tyres, the axles, the chassis and the road. Scalars are real numbers.
`std::numeric_limits<scalar>::lowest()` and `max()` are parameters `lowest` and `highest`; `DEG` and `KMH`
are the constants `pi/180` and `1/3.6` of the lion library (not part of /repo). A `std::array` is a function
on indices: what it holds before it is written is a parameter.
-/

set_option autoImplicit false

namespace Verif.F1

open Verif.Road Verif.Chassis

/-! ### Indices, limebeer2014f1.h:20-32 -/

/-- First index of the front axle: the tyres add no variable (tire.h:20-36, tire_pacejka.h:15-31). -/
def frontStart : Nat := 0

/-- First index of the rear axle: the front axle adds two, axle_car_3dof.h:72-93. -/
def rearStart : Nat := frontStart + 2

/-- `velocity_x_mps`, `velocity_y_mps`, `yaw_rate_radps`: the rear axle adds two, axle_car_3dof.h:33-54,
chassis.h:32-53. -/
def chassisStart : Nat := rearStart + 2

/-- `force_z_fl_g` (and the state `com_velocity_z_mps`), chassis_car_3dof.h:53-66. -/
def loadStart : Nat := chassisStart + 3

/-- `time` of a curvilinear road (road_curvilinear.h:16-24) or `X` of a cartesian one
(road_cartesian.h:12-20). -/
def roadStart : Nat := loadStart + 4

/-- `number_of_inputs` and `number_of_states`, dynamic_model_car.h:33-34. -/
def nInputs : Nat := roadStart + 3

/-- `STEERING`, axle_car_3dof.h:98-105. -/
def cSteering : Nat := 0

/-- `boost`, axle_car_3dof.h:59-65. -/
def cBoost : Nat := cSteering + 1

/-- `throttle`, chassis_car_3dof.h:69-72. -/
def cThrottle : Nat := cBoost + 1

/-- `brake_bias`, chassis_car_3dof.h:69-72. -/
def cBrakeBias : Nat := cThrottle + 1

/-- `number_of_controls`, dynamic_model_car.h:35. -/
def nControls : Nat := cBrakeBias + 1

/-- A sequence of assignments `a[k] = x` to an array. E.g. axle_car_3dof.hpp:306-330. -/
abbrev Writes (α : Type) := List (Nat × α)

/-- The array after the assignments, in their order; `a` is what it held before. E.g.
axle_car_3dof.hpp:306-330. -/
def written {α : Type} (a : Nat → α) : Writes α → Nat → α
  | [] => a
  | (k, x) :: ws => written (fun j => if j = k then x else a j) ws

/-- The two kinds of road (road_curvilinear.h:10-24, road_cartesian.h:8-20). -/
inductive RoadKind
  | curvilinear
  | cartesian
  deriving DecidableEq

/-! ### Names -/

/-- `Axle_car_3dof::set_state_and_control_names`, axle_car_3dof.hpp:306-330: inputs. -/
def axleInputNames (start : Nat) (name : String) : Writes String :=
  [(start, name ++ ".left-tire.kappa"), (start + 1, name ++ ".right-tire.kappa")]

/-- `Chassis::set_state_and_control_names`, chassis.hpp:357-373, with the names of the axles given at
chassis_car_3dof.hpp:48-56: inputs. -/
def chassisInputNames : Writes String :=
  axleInputNames frontStart "front-axle" ++ axleInputNames rearStart "rear-axle" ++
  [(chassisStart, "chassis.velocity.x"), (chassisStart + 1, "chassis.velocity.y"),
   (chassisStart + 2, "chassis.omega.z")]

/-- `Chassis_car_3dof::set_state_and_control_names`, chassis_car_3dof.hpp:242-268: inputs. -/
def chassis3InputNames : Writes String :=
  chassisInputNames ++
  [(loadStart, "chassis.force_z_fl_g"), (loadStart + 1, "chassis.force_z_fr_g"),
   (loadStart + 2, "chassis.force_z_rl_g"), (loadStart + 3, "chassis.force_z_rr_g")]

/-- Controls: axle_car_3dof.hpp:319-329 and chassis_car_3dof.hpp:263-267. -/
def controlNameWrites : Writes String :=
  [(cSteering, "front-axle.steering-angle"), (cBoost, "rear-axle.boost"),
   (cThrottle, "chassis.throttle"), (cBrakeBias, "chassis.brake-bias")]

/-- `set_state_and_control_names` of the roads, road_curvilinear.hpp:85-100, road_cartesian.hpp:80-96:
inputs. -/
def roadInputNames : RoadKind → Writes String
  | .curvilinear => [(roadStart, "time"), (roadStart + 1, "road.lateral-displacement"),
      (roadStart + 2, "road.track-heading-angle")]
  | .cartesian => [(roadStart, "x"), (roadStart + 1, "y"), (roadStart + 2, "psi")]

/-- `key_name`, road_curvilinear.hpp:90, road_cartesian.hpp:86. -/
def keyName : RoadKind → String
  | .curvilinear => "road.arclength"
  | .cartesian => "time"

/-- `get_state_and_control_names`, dynamic_model_car.hpp:206-216: inputs. The strings start empty. -/
def inputNames (r : RoadKind) : Nat → String :=
  written (fun _ => "") (roadInputNames r ++ chassis3InputNames)

/-- `get_state_and_control_names`: controls (dynamic_model_car.hpp:206-216). -/
def controlNames : Nat → String := written (fun _ => "") controlNameWrites

/-! ### Limits -/

/-- The default value of a variable and its bounds (dynamic_model_car.hpp:219-243). -/
structure Limits where
  default : ℝ
  lb : ℝ
  ub : ℝ

/-- `DEG` (lion). Used at axle_car_3dof.hpp:384-396. -/
noncomputable def DEG : ℝ := Real.pi / 180

/-- `KMH` (lion). Used at chassis_car_3dof.hpp:304-338. -/
noncomputable def KMH : ℝ := 1 / (36 / 10)

/-- `Axle_car_3dof::set_state_and_control_upper_lower_and_default_values`, axle_car_3dof.hpp:374-382:
inputs. -/
noncomputable def axleInputLimits (start : Nat) : Writes Limits :=
  [(start, ⟨0, -1, 1⟩), (start + 1, ⟨0, -1, 1⟩)]

/-- The same function of `Chassis`, chassis.hpp:398-425: inputs. -/
noncomputable def chassisInputLimits (vxLb vxUb vyUb omegaUb : ℝ) : Writes Limits :=
  axleInputLimits frontStart ++ axleInputLimits rearStart ++
  [(chassisStart, ⟨vxLb, vxLb, vxUb⟩), (chassisStart + 1, ⟨0, -vyUb, vyUb⟩),
   (chassisStart + 2, ⟨0, -omegaUb, omegaUb⟩)]

/-- The same function of `Chassis_car_3dof`, chassis_car_3dof.hpp:304-338: inputs. -/
noncomputable def chassis3InputLimits : Writes Limits :=
  chassisInputLimits (50 * KMH) (380 * KMH) (50 * KMH) 10 ++
  [(loadStart, ⟨1 / 4, -3, -(1 / 100)⟩), (loadStart + 1, ⟨1 / 4, -3, -(1 / 100)⟩),
   (loadStart + 2, ⟨1 / 4, -3, -(1 / 100)⟩), (loadStart + 3, ⟨1 / 4, -3, -(1 / 100)⟩)]

/-- Controls: axle_car_3dof.hpp:384-396 and chassis_car_3dof.hpp:343-351; `bias0` is the parameter
`brake_bias` of the chassis. -/
noncomputable def controlLimitWrites (bias0 : ℝ) : Writes Limits :=
  [(cSteering, ⟨0, -20 * DEG, 20 * DEG⟩), (cBoost, ⟨0, 0, 1⟩), (cThrottle, ⟨0, -1, 1⟩),
   (cBrakeBias, ⟨bias0, 0, 1⟩)]

/-- The limits set by the roads, road_curvilinear.hpp:61-82, road_cartesian.hpp:54-75. -/
noncomputable def roadInputLimits (lowest highest : ℝ) : RoadKind → Writes Limits
  | .curvilinear => [(roadStart, ⟨0, 0, highest⟩), (roadStart + 1, ⟨0, lowest, highest⟩),
      (roadStart + 2, ⟨0, -45 * DEG, 45 * DEG⟩)]
  | .cartesian => [(roadStart, ⟨0, lowest, highest⟩), (roadStart + 1, ⟨0, lowest, highest⟩),
      (roadStart + 2, ⟨0, lowest, highest⟩)]

/-- `get_state_and_control_upper_lower_and_default_values`, dynamic_model_car.hpp:219-243: inputs. The
arrays start with whatever was in memory, `junk`. -/
noncomputable def inputLimits (lowest highest : ℝ) (r : RoadKind) (junk : Nat → Limits) : Nat → Limits :=
  written junk (chassis3InputLimits ++ roadInputLimits lowest highest r)

/-- `get_state_and_control_upper_lower_and_default_values`: controls (dynamic_model_car.hpp:219-243). -/
noncomputable def controlLimits (bias0 : ℝ) (junk : Nat → Limits) : Nat → Limits :=
  written junk (controlLimitWrites bias0)

/-- `optimal_laptime_derivative_control_bounds`, limebeer2014f1.h:227-230. -/
noncomputable def rateBounds : List ℝ × List ℝ := ([-20 * DEG, -10, -10], [20 * DEG, 10, 10])

/-! ### Classification of the equations -/

/-- `std::for_each` over `n` elements with `eq_id = equation_id++`, dynamic_model_car.h:177: the values
and the counter afterwards. -/
def countFrom (c : Nat) : Nat → List Nat × Nat
  | 0 => ([], c)
  | n + 1 => let r := countFrom (c + 1) n; (c :: r.1, r.2)

/-- `std::for_each` over `n` elements with `eq_id = ++equation_id`, dynamic_model_car.h:178. -/
def countAfter (c : Nat) : Nat → List Nat × Nat
  | 0 => ([], c)
  | n + 1 => let r := countAfter (c + 1) n; ((c + 1) :: r.1, r.2)

/-- `Dynamic_model_car::classify_equations`, dynamic_model_car.h:170-188, for `nStates` states of which
`time` is the index of the time: time-derivative and algebraic equations. The vector has `nStates - 1`
elements: for `nStates = 0` the size wraps around and the constructor of the vector throws; iterating to an
index beyond its end is undefined. -/
def classifyBase (nStates time : Nat) : Res (List Nat × List Nat) :=
  if nStates = 0 then .throw
  else if time ≤ nStates - 1 then
    let a := countFrom 0 time
    let b := countAfter a.2 (nStates - 1 - time)
    if b.2 ≠ nStates - 1 then .throw else .ok (a.1 ++ b.1, [])
  else .ub

/-- `v.erase(std::remove(v.begin(), v.end(), x), v.end())` (limebeer2014f1.h:200-203). -/
def eraseAll (x : Nat) (l : List Nat) : List Nat := l.filter fun y => decide (y ≠ x)

/-- `limebeer2014f1::classify_equations` on a curvilinear road, limebeer2014f1.h:185-225. (On a cartesian
road the base function does not compile: there is no `state_names::time`.) -/
def classify (hasElevation : Bool) : Res (List Nat × List Nat) :=
  (classifyBase nInputs roadStart).bind fun r =>
    if hasElevation then .ok r
    else
      .ok (eraseAll (loadStart + 3) (eraseAll (loadStart + 2) (eraseAll (loadStart + 1)
             (eraseAll loadStart r.1))),
           r.2 ++ [loadStart] ++ [loadStart + 1] ++ [loadStart + 2] ++ [loadStart + 3])

/-! ### The car -/

/-- An axle with its two tyres. Both tyres of an axle read the same parameters
(chassis_car_3dof.hpp:48-55). `I` is the inertia of a wheel. -/
structure AxleP where
  track : ℝ
  I : ℝ
  torque : Power.Axle3
  R0 : ℝ
  tyre : Tyre.Simple

/-- The parameters of the car (chassis_car_3dof.hpp:48-56). -/
structure Car where
  chassis : Params
  front : AxleP
  rear : AxleP

/-- The members that `set_state_and_controls` writes: axle_car_3dof.hpp:333-361, chassis.hpp:339-355,
chassis_car_3dof.hpp:270-301, and those of the road. -/
structure Members where
  kappaFL : ℝ
  kappaFR : ℝ
  kappaRL : ℝ
  kappaRR : ℝ
  steering : ℝ
  boost : ℝ
  u : ℝ
  v : ℝ
  omega : ℝ
  throttle : ℝ
  bias : ℝ
  fl : ℝ
  fr : ℝ
  rl : ℝ
  rr : ℝ
  road1 : ℝ
  road2 : ℝ
  road3 : ℝ

/-- `set_state_and_controls` of the chassis (chassis_car_3dof.hpp:270-301, chassis.hpp:339-355,
axle_car_3dof.hpp:333-361) and of the road: time, lateral displacement and heading
(road_curvilinear.hpp:43-59), or X, Y and psi (road_cartesian.hpp:36-52). -/
def setState (c : Car) (q u : Nat → ℝ) : Members :=
  { kappaFL := q frontStart
    kappaFR := q (frontStart + 1)
    kappaRL := q rearStart
    kappaRR := q (rearStart + 1)
    steering := u cSteering
    boost := u cBoost
    u := q chassisStart
    v := q (chassisStart + 1)
    omega := q (chassisStart + 2)
    throttle := u cThrottle
    bias := u cBrakeBias
    fl := q loadStart * c.chassis.g0 * c.chassis.mass
    fr := q (loadStart + 1) * c.chassis.g0 * c.chassis.mass
    rl := q (loadStart + 2) * c.chassis.g0 * c.chassis.mass
    rr := q (loadStart + 3) * c.chassis.g0 * c.chassis.mass
    road1 := q roadStart
    road2 := q (roadStart + 1)
    road3 := q (roadStart + 2) }

/-- What the road gives to the chassis, dynamic_model_car.hpp:71-97: attitude, angular velocity in body
axes, vertical velocity, `dtimeds`, and the derivatives of its three states. -/
structure RoadOut where
  att : Attitude
  omega : Vec3
  groundVz : ℝ
  dtimeds : ℝ
  rates : Vec3

/-- A curvilinear road at the track point `f`: `Road_curvilinear::update` and
`get_state_and_state_derivative`, road_curvilinear.hpp:4-40, dynamic_model_car.hpp:82-88. -/
noncomputable def roadCurvilinear (f : TrackPoint) (m : Members) : RoadOut :=
  let r := Road.update f m.road2 m.road3 m.u m.v m.omega
  let e := eulerAnglesDot f r
  let a : Attitude := ⟨f.yaw, f.pitch, f.roll, m.road3⟩
  { att := a, omega := omegaBody a e.1 e.2.1 e.2.2 r.alphaDot, groundVz := r.groundVz,
    dtimeds := r.dtimeds, rates := (1, r.nDot, r.alphaDot) }

/-- A cartesian road: road_cartesian.hpp:4-34, dynamic_model_car.hpp:89-95; `dtimeds` and the vertical
velocity keep their initial values 1 and 0 (road.h:52-55). -/
noncomputable def roadCartesian (m : Members) : RoadOut :=
  let a : Attitude := ⟨0, 0, 0, m.road3⟩
  { att := a, omega := omegaBody a 0 0 0 m.omega, groundVz := 0, dtimeds := 1,
    rates := cartesian m.road3 m.u m.v m.omega }

/-- A wheel after its update: motion of the tyre, its forces in its own frame, the load
(tire_pacejka.hpp:67-73, 107-120). -/
structure WheelOut where
  kin : Tyre.Kin
  Fx : ℝ
  Fy : ℝ
  Fz : ℝ
  wheel : Wheel

/-- `tire.update(Fz, kappa_dimensionless, road_frame)`, tire_pacejka.hpp:67-73 and 107-120, of a tyre at
`y` in the axle at `x` (road frame), steered by `delta`; `vel` and `om` are the velocity and the angular
velocity of the road frame in body axes. The chassis frame coincides with the road frame and the axle
frame is parallel to it (chassis.hpp:10-11, chassis_car_3dof.hpp:16-22): the point `(0, 0, R0)` of the
tyre has the height `x.z + R0` in the road frame (tire.hpp:89-92) and the contact point has the velocity
`vel + om × position` (tire.hpp:95), given in the axes of the tyre. -/
noncomputable def wheelUpdate (p : AxleP) (x : Vec3) (y delta : ℝ) (vel om : Vec3) (Fz kd : ℝ) : WheelOut :=
  let w := x.2.2 + p.R0
  let contact : Vec3 := x + (0, y, p.R0 - w)
  let v := rotZ (-delta) (vel + cross om contact)
  let kin := Tyre.updateKappa ⟨false, p.R0, 0, 0, 0, 0, 0, 0⟩ w v.1 v.2.1 (kd * Tyre.maxKappa p.tyre Fz)
  let Fx := Tyre.simpleX p.tyre kin.kappa kin.lambda Fz
  let Fy := Tyre.simpleY p.tyre kin.kappa kin.lambda Fz
  let FT := Tyre.forceTorque kin Fx Fy Fz
  { kin := kin, Fx := Fx, Fy := Fy, Fz := Fz,
    wheel := { force := FT.1, torque := FT.2, delta := delta, position := (0, y, 0) } }

/-- An axle after its update: the two wheels, their torques, the derivatives of their angular momenta,
force and torque of the axle (axle_car_3dof.hpp:218-274). -/
structure AxleOut where
  left : WheelOut
  right : WheelOut
  torqueL : ℝ
  torqueR : ℝ
  dL : ℝ
  dR : ℝ
  forces : Vec3 × Vec3

/-- `Axle_car_3dof::update`, axle_car_3dof.hpp:218-274. The tyres are at `-track/2` and `track/2`
(axle_car_3dof.hpp:132); `torques` are the torques of the wheels given their speeds. -/
noncomputable def axleUpdate (p : AxleP) (x : Vec3) (delta : ℝ) (vel om : Vec3) (Fl Fr kl kr : ℝ)
    (torques : ℝ → ℝ → ℝ × ℝ) : AxleOut :=
  let l := wheelUpdate p x (-(1 / 2) * p.track) delta vel om Fl kl
  let r := wheelUpdate p x (1 / 2 * p.track) delta vel om Fr kr
  let t := torques l.kin.omega r.kin.omega
  { left := l, right := r, torqueL := t.1, torqueR := t.2,
    dL := t.1 + Tyre.wheelTorque l.kin l.Fx, dR := t.2 + Tyre.wheelTorque r.kin r.Fx,
    forces := axleForces l.wheel r.wheel }

/-- The axles and the chassis after `Chassis_car_3dof::update` (chassis_car_3dof.hpp:117-204). -/
structure CarOut where
  input : Input
  front : AxleOut
  rear : AxleOut
  chassis : Output

/-- `Chassis_car_3dof::update`, chassis_car_3dof.hpp:117-204. -/
noncomputable def carUpdate (c : Car) (m : Members) (r : RoadOut) : CarOut :=
  let p := c.chassis
  let vel : Vec3 := (m.u, m.v, r.groundVz)
  let i : Input := ⟨m.u, m.v, m.omega, r.groundVz, r.att, r.omega.1, r.omega.2.1, m.fl, m.fr, m.rl, m.rr⟩
  let b := Power.axleBiases m.bias
  let front := axleUpdate c.front p.xFront m.steering vel r.omega (tyreLoad p m.fl) (tyreLoad p m.fr)
    m.kappaFL m.kappaFR (Power.steeringTorques c.front.torque m.throttle b.1)
  let rear := axleUpdate c.rear p.xRear 0 vel r.omega (tyreLoad p m.rl) (tyreLoad p m.rr)
    m.kappaRL m.kappaRR (Power.poweredTorques c.rear.torque m.throttle m.boost b.2)
  { input := i, front := front, rear := rear, chassis := Chassis.update p i front.forces rear.forces }

/-- `scaling_factor`, axle_car_3dof.hpp:294. -/
noncomputable def scaling (p : AxleP) (mass : ℝ) : ℝ := if p.I < 1 / 10 ^ 10 then 1 / mass else 1

/-- States and their derivatives of an axle, axle_car_3dof.hpp:287-303. -/
noncomputable def axleState (p : AxleP) (mass : ℝ) (o : AxleOut) : List (ℝ × ℝ) :=
  [(o.left.kin.omega * p.I * scaling p mass, o.dL * scaling p mass),
   (o.right.kin.omega * p.I * scaling p mass, o.dR * scaling p mass)]

/-- All the states with their derivatives, before the scaling: `get_state_and_state_derivative` of
`Chassis_car_3dof` (chassis_car_3dof.hpp:220-239), `Chassis` (chassis.hpp:377-396), the axles and the
road (road_curvilinear.hpp:24-40, road_cartesian.hpp:18-34), in the order of their indices. -/
noncomputable def allStates (c : Car) (m : Members) (r : RoadOut) (o : CarOut) : List (ℝ × ℝ) :=
  axleState c.front c.chassis.mass o.front ++ axleState c.rear c.chassis.mass o.rear ++
  Chassis.state c.chassis o.input o.chassis ++
  [(m.road1, r.rates.1), (m.road2, r.rates.2.1), (m.road3, r.rates.2.2)]

/-- `Dynamics_equations`, dynamic_model_car.h:86-90. -/
structure Equations where
  states : List ℝ
  dstates : List ℝ

/-- `operator()` after the road was updated, dynamic_model_car.hpp:97-107: every derivative is multiplied
by `dtimeds`. -/
noncomputable def evaluate (c : Car) (m : Members) (r : RoadOut) : Equations :=
  let l := allStates c m r (carUpdate c m r)
  { states := l.map Prod.fst, dstates := l.map fun x => x.2 * r.dtimeds }

/-- `operator()` of the car on a curvilinear road at the track point `f`, dynamic_model_car.hpp:51-108.
(The parameters declared along the track, line 62, are those of C101.) -/
noncomputable def equationsCurvilinear (c : Car) (f : TrackPoint) (q u : Nat → ℝ) : Equations :=
  evaluate c (setState c q u) (roadCurvilinear f (setState c q u))

/-- `operator()` of the car on a cartesian road (dynamic_model_car.hpp:51-108). -/
noncomputable def equationsCartesian (c : Car) (q u : Nat → ℝ) : Equations :=
  evaluate c (setState c q u) (roadCartesian (setState c q u))

/-! ### What is added to the optimal lap -/

/-- `optimal_laptime_extra_constraints_bounds`, limebeer2014f1.h:232-264, given the track limits at the
arclength. -/
noncomputable def extraBounds (c : Car) (wl wr : ℝ) : List ℝ × List ℝ :=
  let lim (p : AxleP) := max (Tyre.maxLambda p.tyre 0) (Tyre.maxLambda p.tyre (c.chassis.mass * c.chassis.g0))
  ([-lim c.front, -lim c.front, -lim c.rear, -lim c.rear, -wl, -wl],
   [lim c.front, lim c.front, lim c.rear, lim c.rear, wr, wr])

/-- `optimal_laptime_extra_constraints`, limebeer2014f1.h:266-281, after an evaluation. -/
noncomputable def extraConstraints (c : Car) (m : Members) (o : CarOut) : List ℝ :=
  [o.front.left.kin.lambda, o.front.right.kin.lambda, o.rear.left.kin.lambda, o.rear.right.kin.lambda,
   m.road2 + 1 / 2 * c.front.track * Real.cos m.road3, m.road2 - 1 / 2 * c.front.track * Real.cos m.road3]

/-- `compute_integral_quantities`, limebeer2014f1.h:293-310, after an evaluation; `power` is what
`get_engine().get_power()` returns. -/
noncomputable def integrals (m : Members) (o : CarOut) (power : ℝ) : List ℝ :=
  [power * (1 / 10 ^ 6),
   -Tyre.dissipation o.front.left.kin o.front.left.Fx o.front.left.Fy * (1 / 10 ^ 6),
   -Tyre.dissipation o.front.right.kin o.front.right.Fx o.front.right.Fy * (1 / 10 ^ 6),
   -Tyre.dissipation o.rear.left.kin o.rear.left.Fx o.rear.left.Fy * (1 / 10 ^ 6),
   -Tyre.dissipation o.rear.right.kin o.rear.right.Fx o.rear.right.Fy * (1 / 10 ^ 6),
   m.boost]

/-- `Integral_quantities::names`, limebeer2014f1.h:289. -/
def integralNames : List String :=
  ["engine-energy", "tire-fl-energy", "tire-fr-energy", "tire-rl-energy", "tire-rr-energy", "boost-time"]

/-! ### Steady state -/

/-- `maximum_yaw` and `maximum_steering`, limebeer2014f1.h:53-54. -/
noncomputable def maxYaw : ℝ := 10 * DEG

/-- `maximum_steering`, limebeer2014f1.h:54. -/
noncomputable def maxSteering : ℝ := 10 * DEG

/-- `get_x`, limebeer2014f1.h:85-101. -/
noncomputable def getX (q u : Nat → ℝ) : List ℝ :=
  [q frontStart, q (frontStart + 1), q rearStart, q (rearStart + 1), q (roadStart + 2) / maxYaw,
   q loadStart, q (loadStart + 1), q (loadStart + 2), q (loadStart + 3), u cSteering / maxSteering, u cThrottle]

/-- The inputs built by `steady_state_equations`, limebeer2014f1.h:113-141; `x` are the variables, `ay`
the lateral acceleration in units of `g0`. -/
noncomputable def steadyInputs (g0 : ℝ) (x : Nat → ℝ) (ay V : ℝ) : Writes ℝ :=
  let psi := maxYaw * x 4
  [(loadStart, x 5), (loadStart + 1, x 6), (loadStart + 2, x 7), (loadStart + 3, x 8),
   (frontStart, x 0), (frontStart + 1, x 1), (rearStart, x 2), (rearStart + 1, x 3),
   (chassisStart, V * Real.cos psi), (chassisStart + 1, -V * Real.sin psi), (chassisStart + 2, ay * g0 / V),
   (roadStart, 0), (roadStart + 1, 0), (roadStart + 2, psi)]

/-- The controls built by `steady_state_equations`, limebeer2014f1.h:143-149: the default controls with
the steering and the throttle of `x`. -/
noncomputable def steadyControls (defaults : Nat → ℝ) (x : Nat → ℝ) : Nat → ℝ :=
  written defaults [(cSteering, x 9 * maxSteering), (cThrottle, x 10)]

/-- `steady_state_equations`, limebeer2014f1.h:103-178, for the cartesian road: the constraints. `junk` is
what the array of inputs held before. -/
noncomputable def steadyEquations (c : Car) (bias0 : ℝ) (junk : Nat → ℝ) (junkLimits : Nat → Limits)
    (x : Nat → ℝ) (ax ay V : ℝ) : List ℝ :=
  let p := c.chassis
  let psi := maxYaw * x 4
  let q := written junk (steadyInputs p.g0 x ay V)
  let u := steadyControls (fun k => (controlLimits bias0 junkLimits k).default) x
  let m := setState c q u
  let o := carUpdate c m (roadCartesian m)
  let d := fun k => (equationsCartesian c q u).dstates.getD k 0
  let lam (a : AxleP) (load : ℝ) := Tyre.maxLambda a.tyre (-load * p.mass * p.g0)
  [d loadStart, d (loadStart + 1), d (loadStart + 2), d (loadStart + 3),
   (d chassisStart * Real.sin psi + d (chassisStart + 1) * Real.cos psi) / p.g0,
   ax * p.g0 / p.g0 + (-d chassisStart * Real.cos psi + d (chassisStart + 1) * Real.sin psi) / p.g0,
   d (chassisStart + 2) / p.g0,
   o.front.dL / (p.g0 * p.mass), o.front.dR / (p.g0 * p.mass),
   o.rear.dL / (p.g0 * p.mass), o.rear.dR / (p.g0 * p.mass),
   o.front.left.kin.lambda / lam c.front (q loadStart), o.front.right.kin.lambda / lam c.front (q (loadStart + 1)),
   o.rear.left.kin.lambda / lam c.rear (q (loadStart + 2)), o.rear.right.kin.lambda / lam c.rear (q (loadStart + 3))]

/-- `steady_state_constraint_bounds`, limebeer2014f1.h:79-83. -/
noncomputable def steadyBounds : List ℝ × List ℝ :=
  ([0, 0, 0, 0, 0, 0, 0, 0, 0, 0, 0, -1, -1, -1, -1],
   [0, 0, 0, 0, 0, 0, 0, 0, 0, 0, 0, 12 / 10, 12 / 10, 12 / 10, 12 / 10])

/-- `Dynamic_model_car::equations`, dynamic_model_car.hpp:111-202, the values it returns: the third
argument is not used, the car is evaluated at 0 (line 133). `eval` is `operator()` as a function of the
arclength. -/
def equationsWithDerivatives {α : Type} (eval : (Nat → ℝ) → (Nat → ℝ) → ℝ → α) (q u : Nat → ℝ) (_s : ℝ) : α :=
  eval q u 0

/-- The row-major matrix returned by the differentiation library read as a table, dynamic_model_car.hpp:
166-175: entry `(i, j)` of the block that starts at row `first`, with `n` columns. -/
def tableEntry (v : List ℝ) (n first i j : Nat) : Res ℝ := idx v (j + n * (i + first))

end Verif.F1
