/-
Parameters of the F1 car by path: how `set_parameter` finds its way through chassis, axles, brakes, engines and
tyres, which parameters count for `is_ready`, what is written to and read from an XML document, and the four
copies of a car (src/core/chassis, src/core/tire, src/core/actuators, src/core/vehicles).

Paths are lists of characters. `parameter.find(x) == 0` is `x` being a prefix. The functions of lion
(lion/io/database_parameters.h, not part of /repo) are modelled by what their names promise:
`::set_parameter` compares `path + name` with the parameter for each entry of the table in order, assigns the
first that matches, marks it used and says whether it found one; `write_parameters` writes every entry of the
table under the path; `read_parameters` reads every entry and throws when the document lacks it.
-/
import Verif.Basic
import Verif.Model.Parameter
import Mathlib.Tactic.TypeStar
import Mathlib.Data.Rat.Defs

set_option autoImplicit false

namespace Verif.Routing

variable {K : Type*}

/-- A `std::string` holding a path. E.g. chassis_car_3dof.hpp:70-115. -/
abbrev Path := List Char

/-- One entry of a parameter table: the name, the member it refers to, and the flag in `__used_parameters`
(e.g. brake.h:54, chassis.h:255-270, axle_car_3dof.h:310-348). -/
structure Entry (K : Type*) where
  name : Path
  value : K
  used : Bool

/-- A parameter table (`get_parameters()` with `__used_parameters`). E.g. axle_car_3dof.h:330-348. -/
abbrev Table (K : Type*) := List (Entry K)

/-- `::set_parameter` of lion; `none` is `found == false`. Used at tire.hpp:34,
tire_pacejka.hpp:36-40, chassis_car_3dof.hpp:77. -/
def setIn : Table K → Path → Path → K → Option (Table K)
  | [], _, _, _ => none
  | e :: rest, base, p, v =>
    if base ++ e.name = p then some ({ e with value := v, used := true } :: rest)
    else (setIn rest base p v).map (e :: ·)

/-- `std::all_of` over `__used_parameters` (tire.h:142, tire_pacejka.h:117-118, axle_car_3dof.h:256). -/
def allUsed (t : Table K) : Bool := t.all (·.used)

/-- `enum Type { NORMAL, ONLY_LATERAL }` of a tyre, tire.h:38-41. -/
inductive TyreType
  | normal
  | onlyLateral

/-- `Tire_pacejka_simple`: path, type and the three parameter tables: own (tire_pacejka.h:148-152), of the
model (324-337), of the base class (tire.h:166-168). -/
structure Tyre (K : Type*) where
  path : Path
  type : TyreType
  own : Table K
  model : Table K
  base : Table K

/-- `Tire_pacejka::set_parameter`, tire_pacejka.hpp:31-48, with `Tire::set_parameter`, tire.hpp:30-41, for the
base class. The derived coefficients are in `Verif.Tyre`. -/
def Tyre.setParameter (t : Tyre K) (p : Path) (v : K) : Res (Tyre K) :=
  if t.path.isPrefixOf p then
    match setIn t.own t.path p v with
    | some own => .ok { t with own := own }
    | none =>
      match setIn t.model t.path p v with
      | some m => .ok { t with model := m }
      | none =>
        match setIn t.base t.path p v with
        | some b => .ok { t with base := b }
        | none => .throw
  else .throw

/-- `Tire_pacejka::is_ready`, tire_pacejka.h:116-118, with tire.h:142. -/
def Tyre.isReady (t : Tyre K) : Bool := allUsed t.base && allUsed t.own && allUsed t.model

/-- `Axle_car_3dof`: path, parameters (axle_car_3dof.h:310-348), brakes, engine and boost (`powered` is the
axle mode `POWERED`), the lateral positions of the tyres `_y_tire` and the two tyres. -/
structure Axle (K : Type*) where
  path : Path
  powered : Bool
  own : Table K
  brakes : Table K
  engine : Table K
  boost : Table K
  yLeft : K
  yRight : K
  left : Tyre K
  right : Tyre K

/-- The value of the first entry with the given name (reading a member), 0 when there is none. E.g.
axle_car_3dof.h:330-348. -/
def member [Zero K] (t : Table K) (n : Path) : K :=
  match t.find? (fun e => decide (e.name = n)) with
  | some e => e.value
  | none => 0

/-- `_y_tire = {-0.5*_track, 0.5*_track}`, axle_car_3dof.hpp:31, 88, 132. The origins of the tyre frames
(56-57, 113-114, 133-134) are computed from it. -/
def Axle.placeTyres [Field K] (a : Axle K) : Axle K :=
  { a with yLeft := -(1 / 2) * member a.own "track".toList, yRight := 1 / 2 * member a.own "track".toList }

/-- `Axle::set_parameter`, axle.hpp:115-140: the tyres must have the same path; a parameter under that path is
given to both. The pair is the axle and `found`. A tyre that does not know the parameter throws; the left tyre
is tried first, so nothing has changed by then. -/
def Axle.setTyres (a : Axle K) (p : Path) (v : K) : Res (Axle K × Bool) :=
  if a.left.path = a.right.path then
    if a.left.path.isPrefixOf p then
      (a.left.setParameter p v).bind fun l =>
      (a.right.setParameter p v).bind fun r =>
      .ok ({ a with left := l, right := r }, true)
    else .ok (a, false)
  else .throw

/-- `Engine::set_parameter` and `Brake::set_parameter`, engine.h:27-35, brake.h:31-39. -/
def setOrThrow (t : Table K) (base p : Path) (v : K) : Res (Table K) :=
  match setIn t base p v with
  | some t' => .ok t'
  | none => .throw

/-- `Axle_car_3dof::set_parameter`, axle_car_3dof.hpp:120-174: own parameters, then `brakes/`, then for a powered
axle `engine/` and `boost/`, then the tyres. -/
def Axle.setParameter [Field K] (a : Axle K) (p : Path) (v : K) : Res (Axle K × Bool) :=
  if a.path.isPrefixOf p then
    match setIn a.own a.path p v with
    | some own => .ok (({ a with own := own }).placeTyres, true)
    | none =>
      if (a.path ++ "brakes/".toList).isPrefixOf p then
        (setOrThrow a.brakes (a.path ++ "brakes/".toList) p v).bind fun b => .ok ({ a with brakes := b }, true)
      else if a.powered && (a.path ++ "engine/".toList).isPrefixOf p then
        (setOrThrow a.engine (a.path ++ "engine/".toList) p v).bind fun e => .ok ({ a with engine := e }, true)
      else if a.powered && (a.path ++ "boost/".toList).isPrefixOf p then
        (setOrThrow a.boost (a.path ++ "boost/".toList) p v).bind fun e => .ok ({ a with boost := e }, true)
      else a.setTyres p v
  else a.setTyres p v

/-- `Axle_car_3dof::is_ready`, axle_car_3dof.h:255-256, with axle.hpp:151-162 (the base class has no parameters,
axle.h:140). -/
def Axle.isReady (a : Axle K) : Bool := a.left.isReady && a.right.isReady && allUsed a.own

/-- `Chassis_car_3dof`: parameters of the 3-dof chassis (chassis_car_3dof.h:282-298), of the base chassis
(chassis.h:255-270), the extra parameters (272-279, stored here by their full path), the two axles, and the
origins of the axle frames. -/
structure Car (K : Type*) where
  own : Table K
  base : Table K
  extra : Table K
  front : Axle K
  rear : Axle K
  frontOrigin : K × K × K
  rearOrigin : K × K × K

/-- `"vehicle/chassis/"` (chassis_car_3dof.hpp:77). -/
def chassisPath : Path := "vehicle/chassis/".toList

/-- `set_origin(get_front_axle_position(), …)` and the same for the rear axle, chassis_car_3dof.hpp:21-22, 40-41,
82-83, with the positions of chassis_car_3dof.h:151-154. -/
def Car.placeAxles [Field K] (c : Car K) : Car K :=
  { c with
    frontOrigin := (member c.own "front_axle/x".toList, member c.own "front_axle/y".toList,
      member c.own "front_axle/z".toList)
    rearOrigin := (member c.own "rear_axle/x".toList, member c.own "rear_axle/y".toList,
      member c.own "rear_axle/z".toList) }

/-- `*(it_extra_parameter->second) = value`, chassis.hpp:148-155; these have no used flag. -/
def setExtra : Table K → Path → K → Option (Table K)
  | [], _, _ => none
  | e :: rest, p, v =>
    if e.name = p then some ({ e with value := v } :: rest) else (setExtra rest p v).map (e :: ·)

/-- `Chassis::set_parameter`, chassis.hpp:137-173. -/
def Car.setBase [Field K] (c : Car K) (p : Path) (v : K) : Res (Car K) :=
  if chassisPath.isPrefixOf p then
    match setIn c.base chassisPath p v with
    | some b => .ok { c with base := b }
    | none =>
      match setExtra c.extra p v with
      | some e => .ok { c with extra := e }
      | none => .throw
  else
    (c.front.setParameter p v).bind fun f =>
    if f.2 then .ok { c with front := f.1 }
    else
      (c.rear.setParameter p v).bind fun r =>
      if r.2 then .ok { c with front := f.1, rear := r.1 } else .throw

/-- `Chassis_car_3dof::set_parameter`, chassis_car_3dof.hpp:71-95. -/
def Car.setParameter [Field K] (c : Car K) (p : Path) (v : K) : Res (Car K) :=
  if chassisPath.isPrefixOf p then
    match setIn c.own chassisPath p v with
    | some own => .ok ({ c with own := own }).placeAxles
    | none => c.setBase p v
  else c.setBase p v

/-- `Chassis_car_3dof::is_ready`, chassis_car_3dof.h:223-224, with chassis.h:234-235. -/
def Car.isReady (c : Car K) : Bool := c.front.isReady && c.rear.isReady && allUsed c.base && allUsed c.own

/-- Names as tables of fresh entries: every flag false (`__used_parameters`, axle_car_3dof.h:348), the values
being whatever the constructors put there. -/
def freshTable (init : Path → K) (base : Path) (ns : List String) : Table K :=
  ns.map fun n => { name := n.toList, value := init (base ++ n.toList), used := false }

/-- tire_pacejka.h:148-152. -/
def tyreOwnNames : List String := ["radial-stiffness", "radial-damping", "Fz-max-ref2"]

/-- tire_pacejka.h:324-337. -/
def tyreModelNames : List String :=
  ["reference-load-1", "reference-load-2", "mu-x-max-1", "mu-x-max-2", "mu-y-max-1", "mu-y-max-2",
   "kappa-max-1", "kappa-max-2", "lambda-max-1", "lambda-max-2", "Qx", "Qy"]

/-- tire.h:166-168. -/
def tyreBaseNames : List String := ["radius"]

/-- axle_car_3dof.h:330-337 for a steering axle, 310-318 for a powered one. -/
def axleNames : Bool → List String
  | false => ["track", "inertia", "smooth_throttle_coeff"]
  | true => ["track", "inertia", "smooth_throttle_coeff", "differential_stiffness"]

/-- brake.h:54. -/
def brakeNames : List String := ["max_torque"]

/-- engine.h:67. -/
def engineNames : List String := ["maximum-power"]

/-- chassis_car_3dof.h:282-298. -/
def chassisOwnNames : List String :=
  ["com/x", "com/y", "com/z", "front_axle/x", "front_axle/y", "front_axle/z", "rear_axle/x", "rear_axle/y",
   "rear_axle/z", "pressure_center/x", "pressure_center/y", "pressure_center/z", "brake_bias",
   "roll_balance_coefficient", "Fz_max_ref2"]

/-- chassis.h:255-270. -/
def chassisBaseNames : List String :=
  ["mass", "inertia/Ixx", "inertia/Ixy", "inertia/Ixz", "inertia/Iyx", "inertia/Iyy", "inertia/Iyz",
   "inertia/Izx", "inertia/Izy", "inertia/Izz", "aerodynamics/rho", "aerodynamics/cd", "aerodynamics/cl",
   "aerodynamics/area"]

/-- chassis.h:272-279, full paths. -/
def extraNames : List String :=
  ["vehicle/chassis/aerodynamics/wind_velocity/northward", "vehicle/chassis/aerodynamics/wind_velocity/eastward"]

/-- `Tire(name, path)`, tire.h:47-48. -/
def freshTyre (init : Path → K) (path : Path) : Tyre K :=
  { path := path, type := .normal, own := freshTable init path tyreOwnNames,
    model := freshTable init path tyreModelNames, base := freshTable init path tyreBaseNames }

/-- `Axle_car_3dof(name, tire_l, tire_r, path)`, axle_car_3dof.hpp:7-58. A steering axle has default-constructed
engines, which nothing reaches: empty tables here. -/
def freshAxle [Field K] (init : Path → K) (powered : Bool) (path tyrePath : Path) : Axle K :=
  Axle.placeTyres
    { path := path, powered := powered, own := freshTable init path (axleNames powered)
      brakes := freshTable init (path ++ "brakes/".toList) brakeNames
      engine := if powered then freshTable init (path ++ "engine/".toList) engineNames else []
      boost := if powered then freshTable init (path ++ "boost/".toList) engineNames else []
      yLeft := 0, yRight := 0, left := freshTyre init tyrePath, right := freshTyre init tyrePath }

/-- `Chassis_car_3dof()`, chassis_car_3dof.hpp:5-23, of the F1 car (limebeer2014f1.h:25-27: front axle
steering, rear axle powered). `init` gives the values the members have before anything is set. -/
def freshCar [Field K] (init : Path → K) : Car K :=
  Car.placeAxles
    { own := freshTable init chassisPath chassisOwnNames
      base := freshTable init chassisPath chassisBaseNames
      extra := freshTable init [] extraNames
      front := freshAxle init false "vehicle/front-axle/".toList "vehicle/front-tire/".toList
      rear := freshAxle init true "vehicle/rear-axle/".toList "vehicle/rear-tire/".toList
      frontOrigin := (0, 0, 0), rearOrigin := (0, 0, 0) }

/-- A sequence of calls of `set_parameter`; a call that throws leaves the car as it was (the throw comes before
any assignment) and the program goes on (chassis_car_3dof.hpp:70-115). -/
def run [Field K] (c : Car K) : List (Path × K) → Car K
  | [] => c
  | (p, v) :: rest =>
    match c.setParameter p v with
    | .ok c' => run c' rest
    | _ => run c rest

/-- The elements of an XML document in the order they were written: path and value. Filled by
chassis_car_3dof.hpp:99-106, chassis.hpp:176-185. -/
abbrev Document (K : Type*) := List (Path × K)

/-- `::write_parameters` of lion. Used at tire.h:62-65, chassis_car_3dof.hpp:105. -/
def writeTable (base : Path) (t : Table K) : Document K := t.map fun e => (base ++ e.name, e.value)

/-- `Tire_pacejka::fill_xml`, tire_pacejka.hpp:53-63, with tire.h:62-65. -/
def Tyre.fillXml (t : Tyre K) : Document K :=
  writeTable t.path t.base ++ writeTable t.path t.own ++ writeTable t.path t.model

/-- `Axle_car_3dof::fill_xml`, axle_car_3dof.hpp:178-195; the base class writes the first tyre only
(axle.hpp:143-147). -/
def Axle.fillXml (a : Axle K) : Document K :=
  a.left.fillXml ++ writeTable (a.path ++ "brakes/".toList) a.brakes
    ++ (if a.powered then writeTable (a.path ++ "engine/".toList) a.engine
          ++ writeTable (a.path ++ "boost/".toList) a.boost else [])
    ++ writeTable a.path a.own

/-- `Chassis_car_3dof::fill_xml`, chassis_car_3dof.hpp:98-105, with chassis.hpp:177-185; what
`Dynamic_model_car::xml` returns, dynamic_model_car.h:152-160. -/
def Car.fillXml (c : Car K) : Document K :=
  writeTable chassisPath c.base ++ c.front.fillXml ++ c.rear.fillXml ++ writeTable chassisPath c.own

/-- The value of an element. Used through read_parameters at chassis_car_3dof.hpp:32. -/
def Document.lookup (d : Document K) (p : Path) : Option K :=
  match d.find? (fun e => decide (e.1 = p)) with
  | some e => some e.2
  | none => none

/-- `read_parameters` of lion for one table. Used at tire.hpp:24, tire_pacejka.hpp:20-23,
chassis_car_3dof.hpp:32. -/
def readTable (d : Document K) (base : Path) : List String → Res (Table K)
  | [] => .ok []
  | n :: rest =>
    match d.lookup (base ++ n.toList) with
    | none => .throw
    | some v =>
      (readTable d base rest).bind fun t => .ok ({ name := n.toList, value := v, used := true } :: t)

/-- `Tire_pacejka(name, database, path)`, tire_pacejka.hpp:9-27 with tire.hpp:9-25. `type` is what
`get_type(database.get_element(path).get_attribute("type"))` gives. -/
def readTyre (d : Document K) (type : Path → Res TyreType) (path : Path) : Res (Tyre K) :=
  (type path).bind fun ty =>
  (readTable d path tyreBaseNames).bind fun b =>
  (readTable d path tyreOwnNames).bind fun o =>
  (readTable d path tyreModelNames).bind fun m =>
  .ok { path := path, type := ty, own := o, model := m, base := b }

/-- `Axle_car_3dof(name, tire_l, tire_r, database, path)`, axle_car_3dof.hpp:62-115. -/
def readAxle [Field K] (d : Document K) (powered : Bool) (path : Path) (l r : Tyre K) : Res (Axle K) :=
  (readTable d path (axleNames powered)).bind fun own =>
  (readTable d (path ++ "brakes/".toList) brakeNames).bind fun br =>
  (if powered then readTable d (path ++ "engine/".toList) engineNames else .ok []).bind fun en =>
  (if powered then readTable d (path ++ "boost/".toList) engineNames else .ok []).bind fun bo =>
  .ok (Axle.placeTyres { path := path, powered := powered, own := own, brakes := br, engine := en, boost := bo,
                         yLeft := 0, yRight := 0, left := l, right := r })

/-- The paths that constructing a car from a document marks as used (chassis_car_3dof.hpp:28-56). -/
def readPaths : List Path :=
  let under := fun (base : String) (ns : List String) => ns.map fun n => base.toList ++ n.toList
  under "vehicle/chassis/" (chassisOwnNames ++ chassisBaseNames)
    ++ under "vehicle/front-axle/" (axleNames false) ++ under "vehicle/front-axle/brakes/" brakeNames
    ++ under "vehicle/rear-axle/" (axleNames true) ++ under "vehicle/rear-axle/brakes/" brakeNames
    ++ under "vehicle/rear-axle/engine/" engineNames ++ under "vehicle/rear-axle/boost/" engineNames
    ++ under "vehicle/front-tire/" (tyreBaseNames ++ tyreOwnNames ++ tyreModelNames)
    ++ under "vehicle/rear-tire/" (tyreBaseNames ++ tyreOwnNames ++ tyreModelNames)

/-- `Dynamic_model_car(database, road)`, dynamic_model_car.h:49-59, with chassis_car_3dof.hpp:26-57: read
everything, then throw if some element of the document was not used. `wind` is the initial value of the extra
parameters. -/
def readCar [Field K] (d : Document K) (type : Path → Res TyreType) (wind : K) : Res (Car K) :=
  (readTyre d type "vehicle/front-tire/".toList).bind fun fl =>
  (readTyre d type "vehicle/front-tire/".toList).bind fun fr =>
  (readAxle d false "vehicle/front-axle/".toList fl fr).bind fun f =>
  (readTyre d type "vehicle/rear-tire/".toList).bind fun rl =>
  (readTyre d type "vehicle/rear-tire/".toList).bind fun rr =>
  (readAxle d true "vehicle/rear-axle/".toList rl rr).bind fun r =>
  (readTable d chassisPath chassisBaseNames).bind fun b =>
  (readTable d chassisPath chassisOwnNames).bind fun o =>
  if d.all (fun e => readPaths.contains e.1) then
    .ok (Car.placeAxles { own := o, base := b, extra := freshTable (fun _ => wind) [] extraNames, front := f,
                          rear := r, frontOrigin := (0, 0, 0), rearOrigin := (0, 0, 0) })
  else .throw

/-- `Dynamic_model_car` as far as its parameters go: the chassis and the declared parameters of
`Dynamic_model` (dynamic_model.h:35). -/
structure Vehicle (K : Type*) where
  car : Car K
  params : List (Parameter.Param K)

/-- `std::fill` of the values of the first declared parameter with the path, dynamic_model_car.hpp:43-46. -/
def fillFirst (x : K) (p : Path) : List (Parameter.Param K) → List (Parameter.Param K)
  | [] => []
  | d :: rest =>
    if d.path.toList = p then { d with values := d.values.map fun _ => x } :: rest
    else d :: fillFirst x p rest

/-- `Dynamic_model_car::set_parameter`, dynamic_model_car.hpp:35-48, for a number. -/
def Vehicle.setParameter [Field K] (m : Vehicle K) (p : Path) (x : K) : Res (Vehicle K) :=
  (m.car.setParameter p x).bind fun c => .ok { car := c, params := fillFirst x p m.params }

/-- `Dynamic_model::add_parameter`, dynamic_model.h:13-25. -/
def Vehicle.addParameter [LinearOrder K] (m : Vehicle K) (d : Parameter.Decl K) : Res (Vehicle K) :=
  (Parameter.addParameter m.params d).bind fun ps => .ok { m with params := ps }

/-- How an evaluation ends (dynamic_model_car.hpp:51-62). -/
inductive Outcome
  | done
  | thrown
  | undefined

/-- The loop over the declared parameters at the start of `operator()`, dynamic_model_car.hpp:61-63. What the
chassis holds when it ends, also when a call throws. -/
def applyParams [Field K] [LinearOrder K] (c : Car K) (t : K) : List (Parameter.Param K) → Car K × Outcome
  | [] => (c, .done)
  | d :: rest =>
    match Parameter.eval d t with
    | .ub => (c, .undefined)
    | .throw => (c, .thrown)
    | .ok x =>
      match c.setParameter d.path.toList x with
      | .ub => (c, .undefined)
      | .throw => (c, .thrown)
      | .ok c' => applyParams c' t rest

/-- `operator()` at arclength or time `t`, as far as the parameters go (dynamic_model_car.hpp:51-62). -/
def Vehicle.evaluate [Field K] [LinearOrder K] (m : Vehicle K) (t : K) : Vehicle K × Outcome :=
  ({ m with car := (applyParams m.car t m.params).1 }, (applyParams m.car t m.params).2)

/-- A call on every copy in turn; a throw ends it, and what the earlier copies did stays
(limebeer2014f1.h:350-368). -/
def eachCopy (f : Vehicle K → Res (Vehicle K)) : List (Vehicle K) → List (Vehicle K)
  | [] => []
  | m :: rest =>
    match f m with
    | .ok m' => m' :: eachCopy f rest
    | _ => m :: rest

/-- What a program does with a `limebeer2014f1_all`: set a parameter, declare a parameter, or evaluate one of
the copies (limebeer2014f1.h:318-370). -/
inductive Call (K : Type*)
  | set (p : Path) (x : K)
  | add (d : Parameter.Decl K)
  | evaluate (i : Nat) (t : K)

/-- One call on the copies `cartesian_scalar`, `curvilinear_scalar`, `cartesian_ad`, `curvilinear_ad`,
limebeer2014f1.h:350-375 (simplified: the AD copies hold plain numbers). -/
def callOn [Field K] [LinearOrder K] (ms : List (Vehicle K)) : Call K → List (Vehicle K)
  | .set p x => eachCopy (fun m => m.setParameter p x) ms
  | .add d => eachCopy (fun m => m.addParameter d) ms
  | .evaluate i t => ms.modify i fun m => (m.evaluate t).1

/-- `limebeer2014f1_all()`, limebeer2014f1.h:334-339. -/
def freshFour [Field K] (init : Path → K) : List (Vehicle K) := List.replicate 4 ⟨freshCar init, []⟩

end Verif.Routing
