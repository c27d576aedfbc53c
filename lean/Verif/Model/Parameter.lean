import Verif.Model.Search
import Mathlib.Algebra.Order.Field.Basic

/-!
# Spatially varying model parameters

Models src/core/foundation/model_parameter.h and `Dynamic_model::add_parameter`
(src/core/vehicles/dynamic_model.h). `scalar`/`Timeseries_t` is an exact ordered field `K`.
-/

set_option autoImplicit false

namespace Verif.Parameter

variable {K : Type*}

/-- `class Model_parameter` data members, src/core/foundation/model_parameter.h:90-93.
The mesh holds pairs (arclength, index of the value). -/
structure Param (K : Type*) where
  path : String
  aliases : List String
  values : List K
  mesh : List (K × Nat)
  deriving DecidableEq, Repr

/-- Constructor of a constant parameter, src/core/foundation/model_parameter.h:9-11. -/
def mkConstant (path al : String) (value : K) : Param K :=
  { path := path, aliases := [al], values := [value], mesh := [] }

/-- Loop marking the used parameters, src/core/foundation/model_parameter.h:33-41. Throws on
an index out of bounds. -/
def markUsed : List (K × Nat) → List Bool → Res (List Bool)
  | [], used => .ok used
  | (_, i) :: rest, used =>
    if i ≥ used.length then .throw else markUsed rest (used.set i true)

/-- Constructor of a varying parameter, src/core/foundation/model_parameter.h:14-45, checks in
the order of the code. -/
def mkVarying [LinearOrder K] (path : String) (aliases : List String) (values : List K)
    (mesh : List (K × Nat)) : Res (Param K) :=
  if values.length < 2 then .throw
  else if aliases.length ≠ values.length then .throw
  else if !isSorted (fun lhs rhs => decide (lhs.1 ≤ rhs.1)) mesh then .throw
  else
    (markUsed mesh (List.replicate values.length false)).bind fun used =>
      if used.count false > 0 then .throw
      else .ok { path := path, aliases := aliases, values := values, mesh := mesh }

/-- `vector::front()`: undefined behaviour on an empty vector (model_parameter.h:55, 65). -/
def front {α : Type*} (l : List α) : Res α := idx l 0

/-- `vector::back()`: undefined behaviour on an empty vector (model_parameter.h:68). -/
def back {α : Type*} (l : List α) : Res α :=
  if l.length = 0 then .ub else idx l (l.length - 1)

/-- `Model_parameter::operator()(s)`, src/core/foundation/model_parameter.h:51-77. -/
def eval [Field K] [LinearOrder K] (p : Param K) (s : K) : Res K :=
  if p.values.length = 1 then front p.values
  else
    let it := upperBound p.mesh (fun c => decide (s < c.1))
    if it = 0 then front p.values
    else if it = p.mesh.length then back p.values
    else
      (idx p.mesh (it - 1)).bind fun a =>
      (idx p.mesh it).bind fun b =>
      (idx p.values a.2).bind fun va =>
      (idx p.values b.2).bind fun vb =>
        .ok (va + (s - a.1) / (b.1 - a.1) * (vb - va))

/-- `Model_parameters::get_number_of_parameters`, src/core/foundation/model_parameter.h:101. -/
def numberOfParameters (ps : List (Param K)) : Nat :=
  ps.foldl (fun acc p => acc + p.values.length) 0

/-- `std::copy` of `src` into a vector `dst` starting at `pos`: undefined behaviour if it
does not fit (model_parameter.h:126, 143). -/
def copyInto {α : Type*} (dst : List α) (pos : Nat) (src : List α) : Res (List α) :=
  if pos + src.length ≤ dst.length then
    .ok (dst.take pos ++ src ++ dst.drop (pos + src.length))
  else .ub

/-- The loop shared by `get_all_parameters_as_scalar` (l. 107-112) and
`get_all_parameters_aliases` (l. 123-128) of src/core/foundation/model_parameter.h: copy a
field of each parameter at the cursor and advance the cursor by the number of VALUES
(model_parameter.h:107-112, 123-128). -/
def gatherLoop {α : Type*} (field : Param K → List α) :
    List (Param K) → List α → Nat → Res (List α)
  | [], out, _ => .ok out
  | p :: ps, out, pos =>
    (copyInto out pos (field p)).bind fun out' => gatherLoop field ps out' (pos + p.values.length)

/-- `Model_parameters::get_all_parameters_as_scalar`, src/core/foundation/model_parameter.h:103-117
(`Value` strips the derivative part and is the identity here). -/
def getAll [Zero K] (ps : List (Param K)) : Res (List K) :=
  gatherLoop (·.values) ps (List.replicate (numberOfParameters ps) 0) 0

/-- `Model_parameters::get_all_parameters_aliases`, src/core/foundation/model_parameter.h:119-133. -/
def getAliases (ps : List (Param K)) : Res (List String) :=
  gatherLoop (·.aliases) ps (List.replicate (numberOfParameters ps) "") 0

/-- Loop of `set_all_parameters`, src/core/foundation/model_parameter.h:140-145; reading past
the end of the input is undefined behaviour. -/
def setLoop : List (Param K) → List K → Res (List (Param K))
  | [], _ => .ok []
  | p :: ps, input =>
    if input.length < p.values.length then .ub
    else
      (setLoop ps (input.drop p.values.length)).bind fun ps' =>
        .ok ({ p with values := input.take p.values.length } :: ps')

/-- `Model_parameters::set_all_parameters`, src/core/foundation/model_parameter.h:136-148. The
size is only an `assert`: a wrong size is undefined behaviour. -/
def setAll (ps : List (Param K)) (input : List K) : Res (List (Param K)) :=
  if input.length = numberOfParameters ps then setLoop ps input else .ub

/-- A declaration request: arguments of `Dynamic_model::add_parameter`,
src/core/vehicles/dynamic_model.h:14-15, for the two constructors of the parameter. -/
inductive Decl (K : Type*) where
  | constant (path al : String) (value : K)
  | varying (path : String) (aliases : List String) (values : List K) (mesh : List (K × Nat))

/-- The path of a request (dynamic_model.h:15). -/
def Decl.path : Decl K → String
  | .constant p _ _ => p
  | .varying p _ _ _ => p

/-- `emplace_back(path, args...)` builds the parameter in place; the constructor may throw
(dynamic_model.h:24). -/
def Decl.build [LinearOrder K] : Decl K → Res (Param K)
  | .constant p a v => .ok (mkConstant p a v)
  | .varying p a v m => mkVarying p a v m

/-- `Dynamic_model::add_parameter`, src/core/vehicles/dynamic_model.h:14-25. -/
def addParameter [LinearOrder K] (ps : List (Param K)) (d : Decl K) : Res (List (Param K)) :=
  if ps.any (fun p => p.path == d.path) then .throw
  else d.build.bind fun p => .ok (ps ++ [p])

/-- The list of parameters seen by the caller after a call: a throwing call leaves it as it was
(`emplace_back` has the strong guarantee, the duplicate check precedes it) (dynamic_model.h:14-25). -/
def addStep [LinearOrder K] (ps : List (Param K)) (d : Decl K) : List (Param K) :=
  match addParameter ps d with
  | .ok ps' => ps'
  | _ => ps

/-- State after a history of declarations, starting from a model without parameters
(dynamic_model.h:14-25). -/
def declareAll [LinearOrder K] (ds : List (Decl K)) : List (Param K) := ds.foldl addStep []

end Verif.Parameter
