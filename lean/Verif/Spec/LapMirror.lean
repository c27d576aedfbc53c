import Verif.Spec.LapVehicles

/-! Vocabulary of the mirror image of a lap (C247, C248): the mirror image of a circuit, of the request of a lap and of
its inputs and controls. Those of vehicles and inputs are in Spec/F1 and Spec/Kart. -/

set_option autoImplicit false

namespace Verif.LapVehicles

open Verif.Transcription Verif.Control

/-- The mirror image of a circuit: every right turn becomes a left turn, and the edges change sides. -/
noncomputable def mirrorCircuit (t : Circuit) : Circuit where
  at_ := fun s => F1.mirrorTrack (t.at_ s)
  length := t.length
  left := t.right
  right := t.left
  elevated := t.elevated

/-- A control that does the opposite. -/
def reverseControl (c : CV ℝ) : CV ℝ :=
  { c with controls := c.controls.map fun x => -x, dcontrolsDt := c.dcontrolsDt.map fun x => -x }

/-- The mirror image of the controls of a lap: the steering, which is the first, is reversed. -/
def mirrorSteering (cs : List (CV ℝ)) : List (CV ℝ) := cs.mapIdx fun k c => if k = 0 then reverseControl c else c

/-- The mirror image of the bounds of inputs or controls: the bounds of what is exchanged are exchanged (`mirror`), and
where values are reversed the lower bound is the opposite of the upper one and vice versa. -/
def mirrorBound (mirror : Row ℝ → Row ℝ) (reversed : List Nat) (b opposite : Row ℝ) : Row ℝ :=
  fun k => if k ∈ reversed then mirror opposite k else mirror b k

/-- The mirror image of the name of an integral quantity: left and right tyres are exchanged. -/
def mirrorName (n : Transcription.Name) : Transcription.Name :=
  if n = "tire-fl-energy".toList then "tire-fr-energy".toList
  else if n = "tire-fr-energy".toList then "tire-fl-energy".toList
  else if n = "tire-rl-energy".toList then "tire-rr-energy".toList
  else if n = "tire-rr-energy".toList then "tire-rl-energy".toList
  else n

/-- The mirror image of the request of a lap of an F1 car: inputs 5, 6, 12 and 13 (lateral velocity, yaw rate, lateral
displacement and heading) and control 0 (steering) are reversed. -/
noncomputable def mirrorRequestF1 (r : Request ℝ) : Request ℝ :=
  { r with
    inputs := r.inputs.map F1.mirrorInputs
    controls := mirrorSteering r.controls
    opts :=
      { inputsLb := mirrorBound F1.mirrorInputs [5, 6, 12, 13] r.opts.inputsLb r.opts.inputsUb
        inputsUb := mirrorBound F1.mirrorInputs [5, 6, 12, 13] r.opts.inputsUb r.opts.inputsLb
        controlsLb := mirrorBound F1.mirrorControls [0] r.opts.controlsLb r.opts.controlsUb
        controlsUb := mirrorBound F1.mirrorControls [0] r.opts.controlsUb r.opts.controlsLb
        integral := r.opts.integral.map fun q => (mirrorName q.1, q.2)
        sigma := r.opts.sigma } }

/-- The mirror image of the request of a lap of a kart: inputs 2, 3, 5, 8, 11 and 12 (lateral velocity, yaw rate, roll, its
rate, lateral displacement and heading) and control 0 (steering) are reversed. -/
noncomputable def mirrorRequestKart (r : Request ℝ) : Request ℝ :=
  { r with
    inputs := r.inputs.map Kart.mirrorInputs
    controls := mirrorSteering r.controls
    opts :=
      { inputsLb := mirrorBound Kart.mirrorInputs [2, 3, 5, 8, 11, 12] r.opts.inputsLb r.opts.inputsUb
        inputsUb := mirrorBound Kart.mirrorInputs [2, 3, 5, 8, 11, 12] r.opts.inputsUb r.opts.inputsLb
        controlsLb := mirrorBound Kart.mirrorControls [0] r.opts.controlsLb r.opts.controlsUb
        controlsUb := mirrorBound Kart.mirrorControls [0] r.opts.controlsUb r.opts.controlsLb
        integral := r.opts.integral
        sigma := r.opts.sigma } }

/-- The equations of the rotation determine the angular acceleration of the kart at every point of a lap. -/
def Turns (kart : ℝ → Kart.Vehicle) (ins : List (Row ℝ)) : Prop :=
  ∀ row ∈ ins, ∀ (s : ℝ) (u : Nat → ℝ), Kart.det (Kart.eulerM (kart s) (Kart.setState row u)) ≠ 0

end Verif.LapVehicles
