import Verif.Basic

/-!
# The frames of the vehicles in memory

Each tyre, axle and chassis holds frames of reference, and each frame a pointer to its parent. Copying a vehicle copies
the pointers and then redirects them. The class `Frame` is part of the library lion and not in the repository: it is
modelled as a pointer to the parent and the remaining members `V` (origin, velocity, rotations), copied member by member.
-/

set_option autoImplicit false

namespace Verif.Frames

variable {V : Type}

/-- Frame of lion: the address of the parent, none for a frame made by `Frame()`, and the other members.
src/core/chassis/chassis.h:318-321, src/core/chassis/axle.h:138, src/core/tire/tire.h:163 -/
structure Frame (V : Type) where
  parent : Option Nat
  data : V

/-- The frames that live in memory, by address. No frame lives at `next` or above. Addresses are not used again.
src/core/chassis/chassis.h:318-321 (simplified: the frames of one object need not be neighbours) -/
structure Memory (V : Type) where
  next : Nat
  frame : Nat → Option (Frame V)

/-- An axle with two tyres: the addresses of its frame and of the frames of the tyres. src/core/chassis/axle.h:138-142 -/
structure Axle where
  frame : Nat
  left : Nat
  right : Nat
  deriving DecidableEq

/-- A chassis: the addresses of its frames, and its axles. src/core/chassis/chassis.h:318-321, 350-358 -/
structure Chassis where
  inertial : Nat
  road : Nat
  chassis : Nat
  front : Axle
  rear : Axle
  deriving DecidableEq

/-- Reading a frame: undefined if it no longer lives. src/core/chassis/axle.hpp:27-43 -/
def Memory.get (m : Memory V) (a : Nat) : Res (Frame V) :=
  match m.frame a with
  | some f => .ok f
  | none => .ub

/-- The memory with the frame at one address replaced. src/core/chassis/axle.hpp:47-65 -/
def Memory.set (m : Memory V) (a : Nat) (f : Option (Frame V)) : Memory V :=
  { m with frame := fun i => if i = a then f else m.frame i }

/-- Writing a frame: undefined if it no longer lives. src/core/chassis/axle.hpp:47-65 -/
def Memory.put (m : Memory V) (a : Nat) (f : Frame V) : Res (Memory V) :=
  (m.get a).bind fun _ => .ok (m.set a (some f))

/-- The memory with one more frame. src/core/chassis/axle.hpp:7-23 -/
def Memory.push (m : Memory V) (f : Frame V) : Memory V :=
  ⟨m.next + 1, fun i => if i = m.next then some f else m.frame i⟩

/-- A new frame. src/core/chassis/axle.hpp:7-23 -/
def Memory.alloc (m : Memory V) (f : Frame V) : Memory V × Nat := (m.push f, m.next)

/-- The end of the life of a frame. src/core/chassis/chassis_car_3dof.hpp:45-57 (end of the temporary objects) -/
def Memory.free (m : Memory V) (a : Nat) : Res (Memory V) :=
  (m.get a).bind fun _ => .ok (m.set a none)

/-- `_frame.set_parent(p)`: the parent must live. src/core/chassis/axle.hpp:19-22 -/
def Memory.setParent (m : Memory V) (a p : Nat) : Res (Memory V) :=
  (m.get a).bind fun f => (m.get p).bind fun _ => m.put a { f with parent := some p }

/-- `_frame.set_origin`, `set_rotation_angle`, `add_rotation`: the other members change. src/core/tire/tire.hpp:49,
src/core/chassis/axle_car_3dof.hpp:52-57, src/core/chassis/chassis.hpp:124-131 -/
def Memory.setData (m : Memory V) (a : Nat) (d : V) : Res (Memory V) :=
  (m.get a).bind fun f => m.put a { f with data := d }

/-- `_frame(other._frame)`: a new frame with the same members. src/core/chassis/axle.hpp:28 -/
def copyFrame (m : Memory V) (a : Nat) : Res (Memory V × Nat) := (m.get a).bind fun f => .ok (m.alloc f)

/-- `_frame = other._frame`. src/core/chassis/axle.hpp:51 -/
def assignFrame (m : Memory V) (a b : Nat) : Res (Memory V) := (m.get b).bind fun f => m.put a f

/-- `Tire(name, path)`: a frame without parent; `d0` are the members of `Frame()`. src/core/tire/tire.h:47 -/
def newTyre (d0 : V) (m : Memory V) : Memory V × Nat := m.alloc ⟨none, d0⟩

/-- Axle(name, tires): its own frame, copies of the tyres, and the tyres in its frame. src/core/chassis/axle.hpp:7-23
(simplified: the tuple of the arguments is not copied once more) -/
def newAxle (d0 : V) (m : Memory V) (l r : Nat) : Res (Memory V × Axle) :=
  let m1 := m.alloc ⟨none, d0⟩
  (copyFrame m1.1 l).bind fun m2 =>
  (copyFrame m2.1 r).bind fun m3 =>
  (m3.1.setParent m2.2 m1.2).bind fun m4 =>
  (m4.setParent m3.2 m1.2).bind fun m5 =>
  .ok (m5, ⟨m1.2, m2.2, m3.2⟩)

/-- Axle(const Axle&). src/core/chassis/axle.hpp:26-43 -/
def copyAxle (m : Memory V) (a : Axle) : Res (Memory V × Axle) :=
  (copyFrame m a.frame).bind fun m1 =>
  (copyFrame m1.1 a.left).bind fun m2 =>
  (copyFrame m2.1 a.right).bind fun m3 =>
  (m3.1.setParent m2.2 m1.2).bind fun m4 =>
  (m4.setParent m3.2 m1.2).bind fun m5 =>
  .ok (m5, ⟨m1.2, m2.2, m3.2⟩)

/-- operator=(const Axle&): `a = b`. src/core/chassis/axle.hpp:46-65 -/
def assignAxle (m : Memory V) (a b : Axle) : Res (Memory V) :=
  (assignFrame m a.frame b.frame).bind fun m1 =>
  (assignFrame m1 a.left b.left).bind fun m2 =>
  (assignFrame m2 a.right b.right).bind fun m3 =>
  (m3.setParent a.left a.frame).bind fun m4 =>
  m4.setParent a.right a.frame

/-- Chassis(front_axle, rear_axle, path): the frames of the chassis, each in the one before, copies of the axles, and the
axles in the frame of the chassis. src/core/chassis/chassis.hpp:7-23 -/
def newChassis (d0 : V) (m : Memory V) (front rear : Axle) : Res (Memory V × Chassis) :=
  let m1 := m.alloc ⟨none, d0⟩
  let m2 := m1.1.alloc ⟨some m1.2, d0⟩
  let m3 := m2.1.alloc ⟨some m2.2, d0⟩
  (copyAxle m3.1 front).bind fun m4 =>
  (copyAxle m4.1 rear).bind fun m5 =>
  (m5.1.setParent m4.2.frame m3.2).bind fun m6 =>
  (m6.setParent m5.2.frame m3.2).bind fun m7 =>
  .ok (m7, ⟨m1.2, m2.2, m3.2, m4.2, m5.2⟩)

/-- Chassis(const Chassis&). src/core/chassis/chassis.hpp:35-70 -/
def copyChassis (d0 : V) (m : Memory V) (c : Chassis) : Res (Memory V × Chassis) :=
  let m1 := m.alloc ⟨none, d0⟩
  (copyFrame m1.1 c.road).bind fun m2 =>
  (copyFrame m2.1 c.chassis).bind fun m3 =>
  (copyAxle m3.1 c.front).bind fun m4 =>
  (copyAxle m4.1 c.rear).bind fun m5 =>
  (m5.1.setParent m2.2 m1.2).bind fun m6 =>
  (m6.setParent m3.2 m2.2).bind fun m7 =>
  (m7.setParent m4.2.frame m3.2).bind fun m8 =>
  (m8.setParent m5.2.frame m3.2).bind fun m9 =>
  .ok (m9, ⟨m1.2, m2.2, m3.2, m4.2, m5.2⟩)

/-- operator=(const Chassis&): `c = b`. src/core/chassis/chassis.hpp:73-115 -/
def assignChassis (d0 : V) (m : Memory V) (c b : Chassis) : Res (Memory V) :=
  (m.put c.inertial ⟨none, d0⟩).bind fun m1 =>
  (assignFrame m1 c.road b.road).bind fun m2 =>
  (assignFrame m2 c.chassis b.chassis).bind fun m3 =>
  (assignAxle m3 c.front b.front).bind fun m4 =>
  (assignAxle m4 c.rear b.rear).bind fun m5 =>
  (m5.setParent c.road c.inertial).bind fun m6 =>
  (m6.setParent c.chassis c.road).bind fun m7 =>
  (m7.setParent c.front.frame c.chassis).bind fun m8 =>
  m8.setParent c.rear.frame c.chassis

/-- The frames that move, that is, all but the inertial frame. src/core/chassis/chassis.h:318-321,
src/core/chassis/axle.h:138, src/core/tire/tire.h:163 -/
inductive Role where
  | road | chassis | frontAxle | frontLeft | frontRight | rearAxle | rearLeft | rearRight
  deriving DecidableEq

/-- The address of a frame of a chassis. src/core/chassis/chassis.h:318-321, src/core/chassis/axle.h:138,
src/core/tire/tire.h:163 -/
def Chassis.address (c : Chassis) : Role → Nat
  | .road => c.road
  | .chassis => c.chassis
  | .frontAxle => c.front.frame
  | .frontLeft => c.front.left
  | .frontRight => c.front.right
  | .rearAxle => c.rear.frame
  | .rearLeft => c.rear.left
  | .rearRight => c.rear.right

/-- The evaluation of a vehicle sets origins, velocities and rotations of its frames. src/core/chassis/chassis.hpp:118-133,
src/core/chassis/axle_car_3dof.hpp:119-150, src/core/chassis/axle_car_6dof.hpp:99-106, src/core/tire/tire.hpp:38-49
(simplified: all at once, with the values they have in the end) -/
def updateFrames (m : Memory V) (c : Chassis) (d : Role → V) : Res (Memory V) :=
  (m.setData c.road (d .road)).bind fun m1 =>
  (m1.setData c.chassis (d .chassis)).bind fun m2 =>
  (m2.setData c.front.frame (d .frontAxle)).bind fun m3 =>
  (m3.setData c.front.left (d .frontLeft)).bind fun m4 =>
  (m4.setData c.front.right (d .frontRight)).bind fun m5 =>
  (m5.setData c.rear.frame (d .rearAxle)).bind fun m6 =>
  (m6.setData c.rear.left (d .rearLeft)).bind fun m7 =>
  m7.setData c.rear.right (d .rearRight)

/-- The end of an axle. src/core/chassis/chassis_car_3dof.hpp:45-57 (end of the temporary objects) -/
def freeAxle (m : Memory V) (a : Axle) : Res (Memory V) :=
  (m.free a.right).bind fun m1 => (m1.free a.left).bind fun m2 => m2.free a.frame

/-- The end of a chassis. src/core/chassis/chassis.h:318-358 (implicit destructor: members in reverse order) -/
def freeChassis (m : Memory V) (c : Chassis) : Res (Memory V) :=
  (freeAxle m c.rear).bind fun m1 =>
  (freeAxle m1 c.front).bind fun m2 =>
  (m2.free c.chassis).bind fun m3 =>
  (m3.free c.road).bind fun m4 =>
  m4.free c.inertial

/-- Chassis_car_3dof(database), Chassis_car_6dof(database): temporary tyres and axles are made, copied into the chassis
and ended; the constructors set origins and rotations of the frames. src/core/chassis/chassis_car_3dof.hpp:25-57,
src/core/chassis/chassis_car_6dof.hpp:31-70 -/
def createVehicle (d0 : V) (m : Memory V) (d : Role → V) : Res (Memory V × Chassis) :=
  let fl := newTyre d0 m
  let fr := newTyre d0 fl.1
  (newAxle d0 fr.1 fl.2 fr.2).bind fun front =>
  let rl := newTyre d0 front.1
  let rr := newTyre d0 rl.1
  (newAxle d0 rr.1 rl.2 rr.2).bind fun rear =>
  (newChassis d0 rear.1 front.2 rear.2).bind fun c =>
  (updateFrames c.1 c.2 d).bind fun m1 =>
  (freeAxle m1 rear.2).bind fun m2 =>
  (m2.free rr.2).bind fun m3 =>
  (m3.free rl.2).bind fun m4 =>
  (freeAxle m4 front.2).bind fun m5 =>
  (m5.free fr.2).bind fun m6 =>
  (m6.free fl.2).bind fun m7 =>
  .ok (m7, c.2)

/-- What a program does with its vehicles, numbered in the order in which they are made. There is no move: a class with its
own copy constructor has none, and moves copy. src/core/chassis/chassis.hpp:26-115, src/core/vehicles/dynamic_model_car.h:16-30 -/
inductive Op (V : Type) where
  | create (d : Role → V)
  | copy (i : Nat)
  | assign (i j : Nat)
  | update (i : Nat) (d : Role → V)
  | destroy (i : Nat)

/-- Memory and vehicles: `none` for those destroyed. src/core/chassis/chassis.h:318-358 -/
structure State (V : Type) where
  memory : Memory V
  vehicles : List (Option Chassis)

/-- A vehicle of the program: to use one that is gone is undefined. src/core/chassis/chassis.hpp:26-115 -/
def vehicle {α : Type} (l : List (Option α)) (i : Nat) : Res α :=
  match l[i]? with
  | some (some c) => .ok c
  | _ => .ub

/-- One operation. src/core/chassis/chassis.hpp:7-133 -/
def step (d0 : V) (s : State V) : Op V → Res (State V)
  | .create d => (createVehicle d0 s.memory d).map fun r => ⟨r.1, s.vehicles ++ [some r.2]⟩
  | .copy i => (vehicle s.vehicles i).bind fun c =>
      (copyChassis d0 s.memory c).map fun r => ⟨r.1, s.vehicles ++ [some r.2]⟩
  | .assign i j => (vehicle s.vehicles i).bind fun c => (vehicle s.vehicles j).bind fun b =>
      (assignChassis d0 s.memory c b).map fun m => ⟨m, s.vehicles⟩
  | .update i d => (vehicle s.vehicles i).bind fun c => (updateFrames s.memory c d).map fun m => ⟨m, s.vehicles⟩
  | .destroy i => (vehicle s.vehicles i).bind fun c =>
      (freeChassis s.memory c).map fun m => ⟨m, s.vehicles.set i none⟩

/-- A program. src/core/chassis/chassis.hpp:7-133 -/
def run (d0 : V) : State V → List (Op V) → Res (State V)
  | s, [] => .ok s
  | s, op :: ops => (step d0 s op).bind fun s => run d0 s ops

/-- Before anything is made. src/core/chassis/chassis.hpp:7-23 -/
def empty : State V := ⟨⟨0, fun _ => none⟩, []⟩

/-- A single powered axle in its own inertial frame: the addresses of both.
src/core/vehicles/dynamic_model_powered_axle.h:45-49 -/
structure PoweredAxle where
  axle : Axle
  inertial : Nat

/-- Dynamic_model_powered_axle(Fz, database). src/core/vehicles/dynamic_model_powered_axle.hpp:5-26 (simplified: the
arguments are made by the caller) -/
def newPoweredAxle (d0 : V) (m : Memory V) (l r : Nat) : Res (Memory V × PoweredAxle) :=
  (newAxle d0 m l r).bind fun a =>
  let i := a.1.alloc ⟨none, d0⟩
  (i.1.setParent a.2.frame i.2).bind fun m => .ok (m, ⟨a.2, i.2⟩)

/-- The implicit copy constructor of Dynamic_model_powered_axle: axle and inertial frame are copied, and the parent of the
axle is not set again. src/core/vehicles/dynamic_model_powered_axle.h:8-62 -/
def copyPoweredAxle (m : Memory V) (p : PoweredAxle) : Res (Memory V × PoweredAxle) :=
  (copyAxle m p.axle).bind fun a =>
  (copyFrame a.1 p.inertial).bind fun i => .ok (i.1, ⟨a.2, i.2⟩)

/-- The end of the model of an axle. src/core/vehicles/dynamic_model_powered_axle.h:8-62 (implicit destructor) -/
def freePoweredAxle (m : Memory V) (p : PoweredAxle) : Res (Memory V) :=
  (m.free p.inertial).bind fun m => freeAxle m p.axle

end Verif.Frames
