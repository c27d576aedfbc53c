import Verif.Spec.LapSolve
import Mathlib.Data.List.Rotate

/-! Vocabulary of the start line of a closed lap (C250): the vehicle, the request and the lap when another node of the mesh
is taken as the start. -/

set_option autoImplicit false

namespace Verif.Transcription

open Verif.Control

variable {K : Type*} [Field K] [LinearOrder K]

/-- The arclength from a start line at `a` of what is at arclength `s` on a closed track of length `L`. -/
def fromLine (L a s : K) : K := if a ≤ s then s - a else s + L - a

/-- The arclength from the original start line of what is at arclength `s` from the line at `a`. -/
def fromOrigin (L a s : K) : K := if s + a < L then s + a else s + a - L

/-- The same vehicle on the same closed track, with arclengths measured from a line at `a`. -/
def movedVehicle (v : Vehicle K) (a : K) : Vehicle K :=
  { v with
    eval := fun row u s => v.eval row u (fromOrigin v.trackLength a s)
    extraLb := fun s => v.extraLb (fromOrigin v.trackLength a s)
    extraUb := fun s => v.extraUb (fromOrigin v.trackLength a s)
    leftLimit := fun s => v.leftLimit (fromOrigin v.trackLength a s)
    rightLimit := fun s => v.rightLimit (fromOrigin v.trackLength a s) }

/-- The control with the values of the nodes from `m` on first; constant controls stay as they are. -/
def movedControl (m : Nat) (c : CV K) : CV K :=
  if c.kind = .fullMesh then { c with controls := c.controls.rotate m, dcontrolsDt := c.dcontrolsDt.rotate m } else c

/-- The request for the same lap started at node `m`, which is at arclength `a` of a track of length `L`. -/
def movedRequest (L a : K) (m : Nat) (r : Request K) : Request K :=
  { r with
    s := (r.s.rotate m).map (fromLine L a)
    inputs := r.inputs.rotate m
    controls := r.controls.map (movedControl m) }

end Verif.Transcription
