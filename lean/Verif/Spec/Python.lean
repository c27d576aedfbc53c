import Verif.Model.Python
import Verif.Spec.Registry

/-!
# Vocabulary for the Python module
-/

set_option autoImplicit false

namespace Verif.Python

open Verif.Registry

variable {Kart F1 Track K : Type}

/-- A text without null characters. -/
def Plain (n : Name) : Prop := '\x00' ∉ n

/-- All the stored vectors have fewer than `2 ^ 31` numbers. -/
def Short (r : Reg Kart F1 Track K) : Prop := ∀ n l, r.vector n = some l → l.length < 2 ^ 31

/-- The only variable with that name is this scalar, or this vector. -/
def Holds (r : Reg Kart F1 Track K) (n : Name) : Item K → Prop
  | .num x => stored r n = [.scalar x]
  | .arr x => stored r n = [.vector x]

/-- A vehicle of that type: the type of the stored vehicle `n`. -/
def TypeOf (r : Reg Kart F1 Track K) (n type : Name) : Prop :=
  ((r.f1 n).isSome ∧ type = "f1-3dof".toList) ∨ ((r.kart n).isSome ∧ type = "kart-6dof".toList)

/-- The computation asked for by a configuration: prefix and variables to save. -/
def Asked {K' : Type*} (c : LapOptions.Config K') (job : LapJob K) : Prop :=
  job.pre = c.pre.toList ∧ job.vars = c.vars.map String.toList

end Verif.Python
