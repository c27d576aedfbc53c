/-
Vocabulary for the parameters of the F1 car: the paths a user can set, the numbers stored in a car with the path
each belongs to, and what a history of calls should have stored.
-/
import Verif.Model.Routing

set_option autoImplicit false

namespace Verif.Routing.Spec

variable {K : Type*}

/-- The parameters of the chassis. -/
def chassisPaths : List String :=
  ["vehicle/chassis/mass", "vehicle/chassis/inertia/Ixx", "vehicle/chassis/inertia/Ixy",
   "vehicle/chassis/inertia/Ixz", "vehicle/chassis/inertia/Iyx", "vehicle/chassis/inertia/Iyy",
   "vehicle/chassis/inertia/Iyz", "vehicle/chassis/inertia/Izx", "vehicle/chassis/inertia/Izy",
   "vehicle/chassis/inertia/Izz", "vehicle/chassis/aerodynamics/rho", "vehicle/chassis/aerodynamics/area",
   "vehicle/chassis/aerodynamics/cd", "vehicle/chassis/aerodynamics/cl", "vehicle/chassis/com/x",
   "vehicle/chassis/com/y", "vehicle/chassis/com/z", "vehicle/chassis/front_axle/x",
   "vehicle/chassis/front_axle/y", "vehicle/chassis/front_axle/z", "vehicle/chassis/rear_axle/x",
   "vehicle/chassis/rear_axle/y", "vehicle/chassis/rear_axle/z", "vehicle/chassis/pressure_center/x",
   "vehicle/chassis/pressure_center/y", "vehicle/chassis/pressure_center/z", "vehicle/chassis/brake_bias",
   "vehicle/chassis/roll_balance_coefficient", "vehicle/chassis/Fz_max_ref2"]

/-- The parameters of the axles. -/
def axlePaths : List String :=
  ["vehicle/front-axle/track", "vehicle/front-axle/inertia", "vehicle/front-axle/smooth_throttle_coeff",
   "vehicle/rear-axle/track", "vehicle/rear-axle/inertia", "vehicle/rear-axle/smooth_throttle_coeff",
   "vehicle/rear-axle/differential_stiffness"]

/-- The parameters of the tyres. -/
def tyrePaths : List String :=
  ["vehicle/front-tire/radius", "vehicle/front-tire/radial-stiffness", "vehicle/front-tire/radial-damping",
   "vehicle/front-tire/Fz-max-ref2", "vehicle/front-tire/reference-load-1", "vehicle/front-tire/reference-load-2",
   "vehicle/front-tire/mu-x-max-1", "vehicle/front-tire/mu-x-max-2", "vehicle/front-tire/kappa-max-1",
   "vehicle/front-tire/kappa-max-2", "vehicle/front-tire/mu-y-max-1", "vehicle/front-tire/mu-y-max-2",
   "vehicle/front-tire/lambda-max-1", "vehicle/front-tire/lambda-max-2", "vehicle/front-tire/Qx",
   "vehicle/front-tire/Qy",
   "vehicle/rear-tire/radius", "vehicle/rear-tire/radial-stiffness", "vehicle/rear-tire/radial-damping",
   "vehicle/rear-tire/Fz-max-ref2", "vehicle/rear-tire/reference-load-1", "vehicle/rear-tire/reference-load-2",
   "vehicle/rear-tire/mu-x-max-1", "vehicle/rear-tire/mu-x-max-2", "vehicle/rear-tire/kappa-max-1",
   "vehicle/rear-tire/kappa-max-2", "vehicle/rear-tire/mu-y-max-1", "vehicle/rear-tire/mu-y-max-2",
   "vehicle/rear-tire/lambda-max-1", "vehicle/rear-tire/lambda-max-2", "vehicle/rear-tire/Qx",
   "vehicle/rear-tire/Qy"]

/-- The parameters of the brakes and the engines. -/
def powerPaths : List String :=
  ["vehicle/front-axle/brakes/max_torque", "vehicle/rear-axle/brakes/max_torque",
   "vehicle/rear-axle/engine/maximum-power", "vehicle/rear-axle/boost/maximum-power"]

/-- The wind. -/
def windPaths : List String :=
  ["vehicle/chassis/aerodynamics/wind_velocity/northward", "vehicle/chassis/aerodynamics/wind_velocity/eastward"]

/-- Every path that names a parameter of the F1 car. -/
def documented : List Path := (chassisPaths ++ axlePaths ++ tyrePaths ++ powerPaths ++ windPaths).map String.toList

/-- Every parameter that has no default: all but the wind, which is zero unless set. -/
def required : List Path := (chassisPaths ++ axlePaths ++ tyrePaths ++ powerPaths).map String.toList

/-- The numbers of one table, each with its path. -/
def slotsOf (base : Path) (t : Table K) : List (Path × K) := t.map fun e => (base ++ e.name, e.value)

/-- The numbers of one tyre. -/
def tyreSlots (t : Tyre K) : List (Path × K) := slotsOf t.path t.own ++ slotsOf t.path t.model ++ slotsOf t.path t.base

/-- The numbers of one axle, of its brakes, of its engine and boost, and of its two tyres. -/
def axleSlots (a : Axle K) : List (Path × K) :=
  slotsOf a.path a.own ++ slotsOf (a.path ++ "brakes/".toList) a.brakes
    ++ slotsOf (a.path ++ "engine/".toList) a.engine ++ slotsOf (a.path ++ "boost/".toList) a.boost
    ++ tyreSlots a.left ++ tyreSlots a.right

/-- Every number stored in the car, with the path it belongs to. A tyre parameter is stored twice. -/
def slots (c : Car K) : List (Path × K) :=
  slotsOf chassisPath c.own ++ slotsOf chassisPath c.base ++ slotsOf [] c.extra ++ axleSlots c.front ++ axleSlots c.rear

/-- The value a history of calls leaves at a path: the last one given, or the initial one. -/
def lastSet (init : Path → K) : List (Path × K) → Path → K
  | [], q => init q
  | (p, v) :: rest, q => lastSet (fun r => if r = p then v else init r) rest q

/-- The parameter settings of a program. -/
def settings : List (Call K) → List (Path × K)
  | [] => []
  | .set p x :: rest => (p, x) :: settings rest
  | _ :: rest => settings rest

/-- The paths of the declared parameters of a vehicle. -/
def declaredPaths (m : Vehicle K) : List Path := m.params.map fun d => d.path.toList

end Verif.Routing.Spec
