import Verif.Spec.Registry

/-! Vocabulary for what each call of the C interface does to the stored variables. -/

set_option autoImplicit false

namespace Verif.Registry

variable {Kart F1 Track K : Type}

/-- What a create call is asked to store, and under which name; `none` for other calls. A vehicle without a file can only
be of the type `f1-3dof`; a vector is given by a number of elements and that many numbers. -/
def creation : Op Kart F1 Track K → Option (Name × Res (Value Kart F1 Track K))
  | .createVehicleXml n (.kart k) => some (n, k.map .kart)
  | .createVehicleXml n (.f1 c) => some (n, c.map .f1)
  | .createVehicleXml n .unreadable => some (n, .throw)
  | .createVehicleXml n .other => some (n, .throw)
  | .createVehicleEmpty n type c => some (n, if type = "f1-3dof".toList then .ok (.f1 c) else .throw)
  | .createTrackXml n (.discrete t) => some (n, t.map .track)
  | .createTrackXml n .unreadable => some (n, .throw)
  | .createTrackXml n .otherFormat => some (n, .throw)
  | .createVector n len data =>
    some (n, if 0 ≤ len ∧ len ≤ data.length then .ok (.vector (data.take len.toNat)) else .ub)
  | .createScalar n x => some (n, .ok (.scalar x))
  | _ => none

/-- The text that names the type of a variable. -/
def Value.type : Value Kart F1 Track K → String
  | .kart _ => "kart-6dof"
  | .f1 _ => "f1-3dof"
  | .track _ => "track"
  | .scalar _ => "scalar"
  | .vector _ => "vector"

/-- The call can store a new variable with the name `n`. -/
def CanAdd (n : Name) : Op Kart F1 Track K → Prop
  | .createVehicleXml m _ => m = n
  | .createVehicleEmpty m _ _ => m = n
  | .createTrackXml m _ => m = n
  | .createVector m _ _ => m = n
  | .createScalar m _ => m = n
  | .copy _ new => new = n
  | .move _ new => new = n
  | .optimalLaptime _ _ _ _ job => ∃ v ∈ job.vars, n = job.pre ++ v ∨
      job.sens = true ∧ ∃ a ∈ job.aliases, n = job.pre ++ "derivatives/".toList ++ v ++ "/".toList ++ a
  | .circuitPreprocessor job => job.saveTo = some n ∨
      ∃ p, job.outputs = some p ∧ ∃ o ∈ circuitOutputs, n = p ++ o
  | _ => False

/-- A vehicle is stored under the name. -/
def HasVehicle (r : Reg Kart F1 Track K) (n : Name) : Prop :=
  ∃ v ∈ stored r n, v.type = "kart-6dof" ∨ v.type = "f1-3dof"

end Verif.Registry
