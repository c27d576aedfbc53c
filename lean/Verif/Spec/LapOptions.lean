import Verif.Model.LapOptions

/-!
# Vocabulary for the options of an optimal lap
-/

set_option autoImplicit false

namespace Verif.LapOptions

open Verif.Control Verif.Transcription

variable {K : Type*}

/-- The value of an option: what its text reads as if it is given, the default if it is not. -/
def Reads {α : Type*} (given : Option Node) (read : String → Res α) (dflt v : α) : Prop :=
  match given with
  | none => v = dflt
  | some e => read e.text = .ok v

/-- A given option can be read. -/
def Readable {α : Type*} (given : Option Node) (read : String → Res α) : Prop :=
  ∀ e, given = some e → ∃ v, read e.text = .ok v

/-- The value given by the last entry of a list that gives one, the default if none does. `g` is what an entry
gives. -/
def Latest {α β : Type*} (l : List β) (g : β → Option (Res α)) (dflt v : α) : Prop :=
  ((∀ e ∈ l, g e = none) ∧ v = dflt) ∨
  ∃ before e after, l = before ++ e :: after ∧ g e = some (.ok v) ∧ ∀ e' ∈ after, g e' = none

/-- The entries of `options/list`; there are none if it is not given. -/
def entries (doc : Node) (list : String) : List Node :=
  match find? doc [list] with
  | none => []
  | some e => e.children

/-- The type an entry gives to the control named `n`. -/
def typeOf (n : String) (e : Node) : Option (Res String) :=
  if e.name = n then some (attr e "optimal_control_type") else none

/-- The dissipation an entry gives to the control named `n`: that of a full-mesh entry with a child
`dissipation`. -/
def dissipationOf (T : Texts K) (n : String) (e : Node) : Option (Res K) :=
  if e.name = n ∧ attr e "optimal_control_type" = .ok "full-mesh" then
    (child? e "dissipation").map fun d => T.num d.text
  else none

/-- The mesh an entry gives to the control named `n`: that of a hypermesh entry. -/
def hypermeshOf (T : Texts K) (n : String) (e : Node) : Option (Res (List K)) :=
  if e.name = n ∧ attr e "optimal_control_type" = .ok "hypermesh" then
    (child? e "hypermesh").map fun h => T.nums h.text
  else none

/-- The bound (`lower` or `upper`) an entry gives to the variable named `n`. -/
def boundOf (T : Texts K) (side n : String) (e : Node) : Option (Res K) :=
  if e.name = n then (child? e side).map fun x => T.num x.text else none

/-- An entry of `control_variables` that can be accepted: a control of the vehicle, one of the four types, a
readable mesh for a hypermesh, a readable dissipation (if any) for a full mesh. -/
def ControlEntry (T : Texts K) (car : CarType K) (e : Node) : Prop :=
  e.name ∈ car.controls ∧
  (attr e "optimal_control_type" = .ok "dont optimize" ∨ attr e "optimal_control_type" = .ok "constant" ∨
   (attr e "optimal_control_type" = .ok "hypermesh" ∧
      ∃ h x, child? e "hypermesh" = some h ∧ T.nums h.text = .ok x) ∨
   (attr e "optimal_control_type" = .ok "full-mesh" ∧ Readable (child? e "dissipation") T.num))

/-- An entry of `integral_constraints` that can be accepted: two readable bounds. -/
def IntegralEntry (T : Texts K) (e : Node) : Prop :=
  (∃ l x, child? e "lower_bound" = some l ∧ T.num l.text = .ok x) ∧
  (∃ u y, child? e "upper_bound" = some u ∧ T.num u.text = .ok y)

/-- An entry of `variable_bounds` that can be accepted: an input or a control of the vehicle, with one or two
children named `lower` and/or `upper`, that can be read. -/
def BoundEntry (T : Texts K) (car : CarType K) (e : Node) : Prop :=
  e.name ∈ car.inputs ++ car.controls ∧
  e.children.map Node.name ∈ [["lower"], ["upper"], ["lower", "upper"], ["upper", "lower"]] ∧
  ∀ x ∈ e.children, ∃ y, T.num x.text = .ok y

/-- The vector of the table named by the attribute `from_table` of an element. -/
def TableVector (tables : String → Option (List K)) (given : Option Node) (v : List K) : Prop :=
  ∃ e n, given = some e ∧ attr e "from_table" = .ok n ∧ tables n = some v

/-- An array filled from the front with a vector: the entries after the vector are those of `old`. -/
def Filled (v : List K) (old a : Row K) : Prop :=
  (∀ i (h : i < v.length), a i = v[i]) ∧ ∀ i, v.length ≤ i → a i = old i

/-- The option documents that are accepted. -/
structure Acceptable (T : Texts K) (car : CarType K) (tables : String → Option (List K)) (d : Node) : Prop where
  /-- the yes/no options can be read -/
  flags : ∀ p ∈ ["warm_start", "save_warm_start", "write_xml", "closed_simulation", "compute_sensitivity"],
    Readable (find? d [p]) T.bool
  print : Readable (find? d ["print_level"]) T.int
  sigma : Readable (find? d ["sigma"]) T.num
  /-- a file that is to be written has a name -/
  file : ∀ e, find? d ["write_xml"] = some e → T.bool e.text = .ok true → find? d ["xml_file_name"] ≠ none
  /-- output variables have a prefix -/
  pre : find? d ["output_variables"] ≠ none → find? d ["output_variables", "prefix"] ≠ none
  /-- `steady_state_speed` is only accepted together with a readable `initial_speed` -/
  speed : find? d ["steady_state_speed"] ≠ none →
    ∃ e x, find? d ["initial_speed"] = some e ∧ T.num e.text = .ok x
  /-- an open simulation names two vectors, at most as long as the inputs and the controls -/
  initial : ∀ e, find? d ["closed_simulation"] = some e → T.bool e.text = .ok false →
    (∃ v, TableVector tables (find? d ["initial_condition", "q"]) v ∧ v.length ≤ car.inputs.length) ∧
    (∃ v, TableVector tables (find? d ["initial_condition", "u"]) v ∧ v.length ≤ car.controls.length)
  controls : ∀ e ∈ entries d "control_variables", ControlEntry T car e
  integral : ∀ e ∈ entries d "integral_constraints", IntegralEntry T e
  bounds : ∀ e ∈ entries d "variable_bounds", BoundEntry T car e

/-- The four types of a control variable. -/
def controlTypes : List String := ["dont optimize", "constant", "hypermesh", "full-mesh"]

/-- The kind of a control variable of a given type. -/
def kindOf (t : String) : Kind :=
  if t = "dont optimize" then .dontOptimize
  else if t = "constant" then .constant
  else if t = "hypermesh" then .hypermesh
  else if t = "full-mesh" then .fullMesh
  else .unknown

end Verif.LapOptions
