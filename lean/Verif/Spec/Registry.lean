import Verif.Model.Registry

/-! # Vocabulary for the properties of the C interface -/

set_option autoImplicit false

namespace Verif.Registry

variable {Kart F1 Track K : Type}

/-- A stored variable with its type. -/
inductive Value (Kart F1 Track K : Type) where
  | kart (x : Kart)
  | f1 (x : F1)
  | track (x : Track)
  | scalar (x : K)
  | vector (x : List K)

/-- Everything stored under a name. -/
def stored (r : Reg Kart F1 Track K) (n : Name) : List (Value Kart F1 Track K) :=
  (r.kart n).toList.map .kart ++ (r.f1 n).toList.map .f1 ++ (r.track n).toList.map .track ++
    (r.scalar n).toList.map .scalar ++ (r.vector n).toList.map .vector

/-- No name denotes two variables. -/
def Unique (r : Reg Kart F1 Track K) : Prop := ∀ n, (stored r n).length ≤ 1

/-- Calls that create, copy, move, delete or read variables (everything that does not run a vehicle
computation or the circuit preprocessor). -/
def IsPlain : Op Kart F1 Track K → Prop
  | .createVehicleXml .. | .createVehicleEmpty .. | .createTrackXml .. | .createVector ..
  | .createScalar .. | .copy .. | .move .. | .delete .. | .downloadScalar .. | .downloadVector ..
  | .downloadVectorSize .. | .variableType .. => True
  | _ => False

/-- The names of the variables a vehicle can output contain no `/`
(they are of the form `chassis.velocity.x`). -/
def OutputNamesWithoutSlash (job : LapJob K) : Prop := ∀ v, (job.vec v).isSome → '/' ∉ v

/-- No call to `circuit_preprocessor`, and vehicles whose output names contain no `/`. -/
def Disciplined : Op Kart F1 Track K → Prop
  | .circuitPreprocessor _ => False
  | .optimalLaptime _ _ _ _ job => OutputNamesWithoutSlash job
  | _ => True

/-- The names `circuit_preprocessor` is asked to use are free or already used by the table in
which it looks, and the track name is not one of the output names. -/
def CircuitNamesApart (r : Reg Kart F1 Track K) (job : CircuitJob Track K) : Prop :=
  (∀ n, job.saveTo = some n → r.track n = none → stored r n = []) ∧
  (∀ p o, job.outputs = some p → o ∈ circuitOutputs → r.vector (p ++ o) = none →
    stored r (p ++ o) = []) ∧
  (∀ n p o, job.saveTo = some n → job.outputs = some p → o ∈ circuitOutputs → n ≠ p ++ o)

/-- The call can remove the variable `n`: it deletes a pattern selecting it, or moves it. -/
def CanRemove (lib : Name → Option (Name → Bool)) (n : Name) : Op Kart F1 Track K → Prop
  | .delete p => ∃ sel, Pattern.selects lib p = some sel ∧ sel n = true
  | .move old _ => old = n
  | _ => False

/-- A pattern in which `*` stands for any text and everything else for itself. -/
inductive Glob : Name → Name → Prop
  | nil : Glob [] []
  | char (c : Char) (p s : Name) : c ≠ '*' → Glob p s → Glob (c :: p) (c :: s)
  | star (p s t : Name) : Glob p s → Glob ('*' :: p) (t ++ s)

/-- Characters that stand for themselves in a deletion pattern. -/
def Ordinary (c : Char) : Prop :=
  c ∉ ['.', '*', '\\', '^', '$', '+', '?', '(', ')', '[', ']', '{', '}', '|']

/-- White space: blank, tab, line feed, vertical tab, form feed and carriage return. -/
def Blank (c : Char) : Prop := c ∈ [' ', '\t', '\n', '\x0b', '\x0c', '\r']

instance (c : Char) : Decidable (Blank c) := by unfold Blank; infer_instance

/-- A readable alias: words without `;` and white space, separated by single blanks. -/
def AliasWords (ws : List Name) : Prop :=
  ws ≠ [] ∧ ∀ w ∈ ws, w ≠ [] ∧ ∀ c ∈ w, c ≠ ';' ∧ ¬ Blank c

end Verif.Registry
