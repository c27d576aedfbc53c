import Verif.Model.Parameter

/-! Vocabulary of the parameter properties (C23..C27), in terms of the arguments a user
passes; nothing here uses the functions of the model. -/

set_option autoImplicit false

namespace Verif.Parameter

variable {K : Type*} [LinearOrder K]

/-- What a user must respect to declare a spatially-varying parameter. -/
structure Acceptable (aliases : List String) (values : List K) (mesh : List (K × Nat)) : Prop where
  /-- at least two values -/
  two : 2 ≤ values.length
  /-- one alias per value -/
  one_alias_each : aliases.length = values.length
  /-- strictly increasing checkpoints -/
  increasing : mesh.Pairwise (fun a b => a.1 < b.1)
  /-- every checkpoint refers to an existing value -/
  refers : ∀ c ∈ mesh, c.2 < values.length
  /-- every value is used by some checkpoint -/
  used : ∀ i, i < values.length → ∃ c ∈ mesh, c.2 = i

/-- A parameter object as it exists after construction. -/
inductive WellFormed (p : Param K) : Prop
  | constant (hv : p.values.length = 1) (ha : p.aliases.length = 1) (hm : p.mesh = [])
  | varying (h : Acceptable p.aliases p.values p.mesh)

/-- `v` is the value attached to the `i`-th checkpoint, located at `s`. -/
def NodeAt (p : Param K) (i : Nat) (s v : K) : Prop :=
  ∃ j, p.mesh[i]? = some (s, j) ∧ p.values[j]? = some v

end Verif.Parameter
