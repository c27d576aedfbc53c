import Verif.Model.Frames

/-!
# Vehicles as values

The reference for C237: a vehicle is a table of the members of its frames, a program works on a list of such tables, and
there is no memory.
-/

set_option autoImplicit false

namespace Verif.Frames

variable {V : Type}

/-- What a position in absolute coordinates depends on: the members of the frame at the address `a`, of its parent, and so
on to the frame without parent. All these frames live. -/
inductive Chain (m : Memory V) : Nat → List V → Prop where
  | root {a : Nat} {d : V} (h : m.frame a = some ⟨none, d⟩) : Chain m a [d]
  | step {a p : Nat} {d : V} {l : List V} (h : m.frame a = some ⟨some p, d⟩) (hp : Chain m p l) : Chain m a (d :: l)

/-- The members of a frame of a vehicle, and of those it is in: tyre, axle, chassis, road, inertial frame. -/
def chain (d0 : V) (t : Role → V) : Role → List V
  | .road => [t .road, d0]
  | .chassis => [t .chassis, t .road, d0]
  | .frontAxle => [t .frontAxle, t .chassis, t .road, d0]
  | .frontLeft => [t .frontLeft, t .frontAxle, t .chassis, t .road, d0]
  | .frontRight => [t .frontRight, t .frontAxle, t .chassis, t .road, d0]
  | .rearAxle => [t .rearAxle, t .chassis, t .road, d0]
  | .rearLeft => [t .rearLeft, t .rearAxle, t .chassis, t .road, d0]
  | .rearRight => [t .rearRight, t .rearAxle, t .chassis, t .road, d0]

/-- One operation on vehicles that are values. -/
def stepValues (l : List (Option (Role → V))) : Op V → Res (List (Option (Role → V)))
  | .create d => .ok (l ++ [some d])
  | .copy i => (vehicle l i).map fun t => l ++ [some t]
  | .assign i j => (vehicle l i).bind fun _ => (vehicle l j).map fun t => l.set i (some t)
  | .update i d => (vehicle l i).map fun _ => l.set i (some d)
  | .destroy i => (vehicle l i).map fun _ => l.set i none

/-- A program on vehicles that are values. -/
def runValues : List (Option (Role → V)) → List (Op V) → Res (List (Option (Role → V)))
  | l, [] => .ok l
  | l, op :: ops => (stepValues l op).bind fun l => runValues l ops

end Verif.Frames
