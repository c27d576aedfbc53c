import Verif.Model.Control

/-!
# The file of an optimal lap

Models src/core/applications/detail/optimal_laptime_data.h. An XML element is its path (the names from the
root, without the root), an attribute and the numbers in its text. Numbers printed with 17 digits are read
back exactly; `std::to_string` of a scalar is a parameter (`printed`). What lion returns as the vector of an
element without text is a parameter (`blank`). Elements are found by path, the first one if there are several;
the call throws if there is none. The names of the variables contain no `/`.
-/

set_option autoImplicit false

namespace Verif.LapFile

open Verif.Control

variable {K : Type*}

/-- An element of the document (`Xml_element` of lion): path, attribute `optimal_control_type`, numbers of
the text. Used at optimal_laptime_data.h:167-336. -/
structure Elem (K : Type*) where
  path : List String
  kind : Option String
  text : List K
  deriving DecidableEq

/-- The document: attributes of the root (optimal_laptime_data.h:171-181), attributes of
`optimization_data` and the number of iterations (optimal_laptime_data.h:309-312), elements in order. -/
structure Doc (K : Type*) where
  nPoints : Nat
  type : String
  isDirect : String
  nVariables : Nat
  nConstraints : Nat
  iterations : Nat
  elems : List (Elem K)
  deriving DecidableEq

/-- `get_state_and_control_names`, used at optimal_laptime_data.h:88, 192. -/
structure Names where
  key : String
  inputs : List String
  controls : List String

/-- `struct Optimal_laptime_data`, optimal_laptime_data.h:32-63; `stats` are the counters of the control
variables. The members `x_lb, x_ub, c_lb, c_ub, s, vl, vu` of the optimisation data are left out: neither
function touches them. -/
structure Data (K : Type*) where
  success : Bool
  isClosed : Bool
  isDirect : Bool
  warmStart : Bool
  nElements : Nat
  nPoints : Nat
  s : List K
  inputs : List (List K)
  controls : List (CV K)
  stats : Stats
  x : List K
  y : List K
  psi : List K
  iterations : Nat
  zl : List K
  zu : List K
  lambda : List K
  laptime : K
  deriving DecidableEq

/-! ### Writing -/

/-- A vector printed with commas, e.g. optimal_laptime_data.h:185-188: with an empty vector `size()-1` wraps
around and the loop reads past its end. -/
def vec (l : List K) : Res (List K) :=
  match l with
  | [] => .ub
  | _ :: _ => .ok l

/-- A coordinate of the trajectory, optimal_laptime_data.h:272-291: the loop runs over the `n` points of the
inputs, the last number is the last of the vector. -/
def coords (n : Nat) (l : List K) : Res (List K) :=
  match l.getLast? with
  | none => .ub
  | some a => if n = 0 ∨ l.length < n - 1 then .ub else .ok (l.take (n - 1) ++ [a])

/-- One input at all points, optimal_laptime_data.h:199-208. -/
def column (inputs : List (List K)) (i : Nat) : Res (List K) :=
  match inputs with
  | [] => .ub
  | _ :: _ => mapRes (fun r => idx r i) inputs

/-- All inputs, optimal_laptime_data.h:199-208. -/
def writeInputs (inputs : List (List K)) : Nat → List String → Res (List (Elem K))
  | _, [] => .ok []
  | i, n :: ns =>
    (column inputs i).bind fun l =>
    (writeInputs inputs (i + 1) ns).bind fun es => .ok (⟨[n], none, l⟩ :: es)

/-- The element with the values of a control, e.g. optimal_laptime_data.h:218, 224, 235. -/
def valuesElem (n : String) (l : List K) : Elem K := ⟨["control_variables", n, "values"], none, l⟩

/-- The element of a control, optimal_laptime_data.h:214-248. -/
def kindElem (n : String) (k : Option String) : Elem K := ⟨["control_variables", n], k, []⟩

/-- One control, optimal_laptime_data.h:214-268. -/
def writeControl (isDirect : Bool) (n : String) (c : CV K) : Res (List (Elem K)) :=
  match c.kind with
  | .dontOptimize => .ok [kindElem n (some "dont optimize"), valuesElem n []]
  | .constant =>
    match c.controls with
    | [] => .ub
    | a :: _ => .ok [kindElem n (some "constant"), valuesElem n [a]]
  | .hypermesh =>
    (vec c.controls).bind fun l => (vec c.sHypermesh).bind fun h =>
      .ok [kindElem n (some "hypermesh"), valuesElem n l, ⟨["control_variables", n, "hypermesh"], none, h⟩]
  | .fullMesh =>
    (vec c.controls).bind fun l =>
      if isDirect then .ok [kindElem n (some "full-mesh"), valuesElem n l]
      else (vec c.dcontrolsDt).bind fun d =>
        .ok [kindElem n (some "full-mesh"), valuesElem n l, ⟨["control_variables", n, "derivatives"], none, d⟩]
  | .unknown => .ok [kindElem n none]

/-- All controls, optimal_laptime_data.h:211-269. -/
def writeControls (isDirect : Bool) : List String → List (CV K) → Res (List (Elem K))
  | n :: ns, c :: cs =>
    (writeControl isDirect n c).bind fun e =>
    (writeControls isDirect ns cs).bind fun es => .ok (e ++ es)
  | _, _ => .ok []

/-- `n_variables_per_point`, optimal_laptime_data.h:19-23. -/
def nVariables (nInputs : Nat) (isDirect : Bool) (st : Stats) : Nat :=
  nInputs - 1 + (if isDirect then 1 else 2) * st.nFull

/-- `n_constraints_per_element`, optimal_laptime_data.h:25-30. -/
def nConstraints (nInputs : Nat) (isDirect : Bool) (extra : Nat) (st : Stats) : Nat :=
  nInputs - 1 + extra + (if isDirect then 0 else st.nFull)

/-- `xml`, optimal_laptime_data.h:158-339. `extra` is `N_OL_EXTRA_CONSTRAINTS` of the vehicle. -/
def write (printed : K → K) (names : Names) (extra : Nat) (d : Data K) : Res (Doc K) :=
  (vec d.s).bind fun s =>
  (writeInputs d.inputs 0 names.inputs).bind fun inputs =>
  (writeControls d.isDirect names.controls d.controls).bind fun controls =>
  (coords d.inputs.length d.x).bind fun x =>
  (coords d.inputs.length d.y).bind fun y =>
  (coords d.inputs.length d.psi).bind fun psi =>
  (vec d.zl).bind fun zl =>
  (vec d.zu).bind fun zu =>
  (vec d.lambda).bind fun lambda =>
  .ok
    { nPoints := d.nPoints
      type := if d.isClosed then "closed" else "open"
      isDirect := if d.isDirect then "true" else "false"
      nVariables := nVariables names.inputs.length d.isDirect d.stats
      nConstraints := nConstraints names.inputs.length d.isDirect extra d.stats
      iterations := d.iterations
      elems := [⟨["laptime"], none, [printed d.laptime]⟩, ⟨[names.key], none, s⟩] ++ inputs ++
        [⟨["control_variables"], none, []⟩] ++ controls ++
        [⟨["x"], none, x⟩, ⟨["y"], none, y⟩, ⟨["psi"], none, psi⟩, ⟨["optimization_data"], none, []⟩,
         ⟨["optimization_data", "zl"], none, zl⟩, ⟨["optimization_data", "zu"], none, zu⟩,
         ⟨["optimization_data", "lambda"], none, lambda⟩] }

/-! ### Reading -/

/-- `get_child` of lion. Used at optimal_laptime_data.h:94-154. -/
def child (doc : Doc K) (p : List String) : Res (Elem K) :=
  match doc.elems.find? (fun e => decide (e.path = p)) with
  | some e => .ok e
  | none => .throw

/-- `has_child` of lion. Used at optimal_laptime_data.h:135. -/
def hasChild (doc : Doc K) (p : List String) : Bool := doc.elems.any (fun e => decide (e.path = p))

/-- `get_child(..).get_value(std::vector<scalar>())` of lion. Used at optimal_laptime_data.h:96-154. -/
def vector (blank : Res (List K)) (doc : Doc K) (p : List String) : Res (List K) :=
  (child doc p).bind fun e =>
    match e.text with
    | [] => blank
    | _ :: _ => .ok e.text

/-- `get_child(..).get_value(scalar())` of lion. Used at optimal_laptime_data.h:94. -/
def number (doc : Doc K) (p : List String) : Res K :=
  (child doc p).bind fun e =>
    match e.text with
    | [] => .throw
    | a :: _ => .ok a

/-- The type of a control, optimal_laptime_data.h:113-125. -/
def readKind : Option String → Res Kind
  | some "dont optimize" => .ok .dontOptimize
  | some "constant" => .ok .constant
  | some "hypermesh" => .ok .hypermesh
  | some "full-mesh" => .ok .fullMesh
  | _ => .throw

/-- One control, optimal_laptime_data.h:111-140, into a value-initialised variable (108); the second reading
of the hypermesh (138-140) repeats the first. -/
def readControl [Zero K] (blank : Res (List K)) (doc : Doc K) (isDirect : Bool) (n : String) : Res (CV K) :=
  (child doc ["control_variables", n]).bind fun e =>
  (readKind e.kind).bind fun k =>
  (vector blank doc ["control_variables", n, "values"]).bind fun v =>
  (if k = .hypermesh then vector blank doc ["control_variables", n, "hypermesh"] else .ok []).bind fun h =>
  (if !isDirect && hasChild doc ["control_variables", n, "derivatives"] then
    vector blank doc ["control_variables", n, "derivatives"] else .ok []).bind fun dc =>
  .ok ⟨k, h, v, dc, 0⟩

/-- One input at the `n` points, optimal_laptime_data.h:102-104. -/
def readInput (blank : Res (List K)) (doc : Doc K) (n : Nat) (name : String) : Res (List K) :=
  (vector blank doc [name]).bind fun l => mapRes (idx l) (List.range n)

/-- The inputs by points, optimal_laptime_data.h:99-105. -/
def byPoints [Zero K] (n : Nat) (columns : List (List K)) : List (List K) :=
  (List.range n).map fun j => columns.map fun c => c.getD j 0

/-- The attribute `type`, optimal_laptime_data.h:72-77. -/
def readType (doc : Doc K) : Res Bool :=
  if doc.type = "closed" then .ok true else if doc.type = "open" then .ok false else .throw

/-- The attribute `is_direct`, optimal_laptime_data.h:79-84. -/
def readDirect (doc : Doc K) : Res Bool :=
  if doc.isDirect = "true" then .ok true else if doc.isDirect = "false" then .ok false else .throw

/-- `std::stoi` of the attribute `n_points`, optimal_laptime_data.h:91: it throws out of the range of `int`.
Negative numbers are left out. -/
def readPoints (doc : Doc K) : Res Nat := if doc.nPoints < 2 ^ 31 then .ok doc.nPoints else .throw

/-- The number of elements, optimal_laptime_data.h:92, of unsigned numbers of 64 bits. -/
def elementsOf (isClosed : Bool) (n : Nat) : Nat := if isClosed then n else (n + (2 ^ 64 - 1)) % 2 ^ 64

/-- `construct_from_xml`, optimal_laptime_data.h:66-155, on an object whose members are `old`. -/
def read [Zero K] [LinearOrder K] (blank : Res (List K)) (names : Names) (doc : Doc K) (old : Data K) :
    Res (Data K) :=
  (readType doc).bind fun isClosed =>
  (readDirect doc).bind fun isDirect =>
  (readPoints doc).bind fun n =>
  (number doc ["laptime"]).bind fun laptime =>
  (vector blank doc [names.key]).bind fun s =>
  (mapRes (readInput blank doc n) names.inputs).bind fun columns =>
  (mapRes (readControl blank doc isDirect) names.controls).bind fun raw =>
  (check raw).bind fun c =>
  (vector blank doc ["x"]).bind fun x =>
  (vector blank doc ["y"]).bind fun y =>
  (vector blank doc ["psi"]).bind fun psi =>
  (vector blank doc ["optimization_data", "zl"]).bind fun zl =>
  (vector blank doc ["optimization_data", "zu"]).bind fun zu =>
  (vector blank doc ["optimization_data", "lambda"]).bind fun lambda =>
  .ok { old with
    isClosed := isClosed, isDirect := isDirect, nElements := elementsOf isClosed n, nPoints := n, s := s
    inputs := byPoints n columns, controls := c.1, stats := c.2, x := x, y := y, psi := psi
    zl := zl, zu := zu, lambda := lambda, laptime := laptime }

end Verif.LapFile
