import Verif.Model.Transcription
import Verif.Model.F1
import Verif.Model.Kart

/-!
# The options of an optimal lap and the data it returns

Models src/main/c/fastestlapc.cpp:1129-1714: `Optimal_laptime_configuration`, `construct_control_variables` and
`compute_optimal_laptime`. What happens to the stored variables is in `Verif.Model.Registry`; the computation
itself is in `Verif.Model.Transcription` and `Verif.Model.SteadyState`.

The document is a tree of elements. lion finds the element of a path by taking at each step the first child
of that name, and throws if there is none. How a text is turned into a truth value, an integer, a number or a
list of numbers, and how blanks are trimmed, are parameters (`Texts`); `Verif.Model.Trim` models the latter.
-/

set_option autoImplicit false

namespace Verif.LapOptions

open Verif.Control Verif.Transcription

variable {K : Type*}

/-! ### Documents -/

/-- An element of the document (`Xml_element` of lion): name, text, attributes, children. Used at
fastestlapc.cpp:1179-1375. -/
inductive Node where
  | mk (name text : String) (attrs : List (String × String)) (children : List Node)

namespace Node

/-- `get_name()`, used at fastestlapc.cpp:1215. -/
def name : Node → String
  | mk n _ _ _ => n

/-- The text of the element, read by `get_value`, fastestlapc.cpp:1190. -/
def text : Node → String
  | mk _ t _ _ => t

/-- The attributes, read by `get_attribute`, fastestlapc.cpp:1245. -/
def attrs : Node → List (String × String)
  | mk _ _ a _ => a

/-- `get_children()`, used at fastestlapc.cpp:1214. -/
def children : Node → List Node
  | mk _ _ _ c => c

end Node

/-- `has_child`/`get_child`: the first child of that name, fastestlapc.cpp:1282-1287. -/
def child? (e : Node) (n : String) : Option Node := e.children.find? fun c => c.name = n

/-- The element reached by a path of names (fastestlapc.cpp:1190). -/
def descend : Node → List String → Option Node
  | e, [] => some e
  | e, n :: ns => match child? e n with
    | none => none
    | some c => descend c ns

/-- `has_element("options/...")` and `get_element("options/...")`: the name of the root must be `options`
(fastestlapc.cpp:1190). -/
def find? (doc : Node) (path : List String) : Option Node :=
  if doc.name = "options" then descend doc path else none

/-- A missing element, child or attribute throws (`get_element`, `get_child`, `get_attribute`,
fastestlapc.cpp:1200). -/
def orThrow {α : Type*} : Option α → Res α
  | none => .throw
  | some a => .ok a

/-- `get_attribute`, fastestlapc.cpp:1245, 1269. -/
def attr (e : Node) (n : String) : Res String :=
  orThrow ((e.attrs.find? fun a => a.1 = n).map (·.2))

/-- How texts are read: `get_value(bool())`, `get_value(int())`, `get_value(scalar())`,
`get_value(std::vector<scalar>())` of lion, used at fastestlapc.cpp:1190-1287, and `trim` (see `Verif.Model.Trim`). -/
structure Texts (K : Type*) where
  bool : String → Res Bool
  int : String → Res Int
  num : String → Res K
  nums : String → Res (List K)
  trim : String → String

/-! ### The configuration -/

/-- What the configuration takes from the type of the vehicle: the names, the outputs, the integral quantities
and the defaults of fastestlapc.cpp:1379-1442. -/
structure CarType (K : Type*) where
  key : String
  inputs : List String
  controls : List String
  outputs : List String
  quantities : List String
  isDirect : Bool
  types : Row String
  dissipations : Row K
  inputsLb : Row K
  inputsUb : Row K
  controlsLb : Row K
  controlsUb : Row K

/-- The members of `Optimal_laptime_configuration`, fastestlapc.cpp:1379-1407. `print_level` is kept as the
integer read (C++ converts it to `size_t`). -/
structure Config (K : Type*) where
  warmStart : Bool
  saveWarmStart : Bool
  writeXml : Bool
  xmlFile : String
  printLevel : Int
  speed : K
  isDirect : Bool
  isClosed : Bool
  setInitial : Bool
  sensitivity : Bool
  sigma : K
  pre : String
  vars : List String
  integral : List (String × K × K)
  types : Row String
  dissipations : Row K
  hypermeshes : Row (List K)
  qStart : Row K
  uStart : Row K
  inputsLb : Row K
  inputsUb : Row K
  controlsLb : Row K
  controlsUb : Row K

/-- The defaults, fastestlapc.cpp:1379-1407. `q_start` and `u_start` are not initialised:
`junkQ`, `junkU`. -/
def defaults [Field K] (car : CarType K) (junkQ junkU : Row K) : Config K where
  warmStart := false
  saveWarmStart := false
  writeXml := false
  xmlFile := "optimal_laptime.xml"
  printLevel := 0
  speed := 50
  isDirect := car.isDirect
  isClosed := true
  setInitial := false
  sensitivity := false
  sigma := 1 / 2
  pre := "run/"
  vars := []
  integral := []
  types := car.types
  dissipations := car.dissipations
  hypermeshes := fun _ => []
  qStart := junkQ
  uStart := junkU
  inputsLb := car.inputsLb
  inputsUb := car.inputsUb
  controlsLb := car.controlsLb
  controlsUb := car.controlsUb

/-- `if ( doc.has_element(path) ) member = doc.get_element(path).get_value(...)`, fastestlapc.cpp:1190, 1193,
1196, 1203, 1237, 1252, 1254. -/
def option {α C : Type*} (doc : Node) (path : String) (read : String → Res α) (put : C → α → C) (c : C) :
    Res C :=
  match find? doc [path] with
  | none => .ok c
  | some e => (read e.text).bind fun a => .ok (put c a)

/-- The name of the file, read when it is to be written, fastestlapc.cpp:1199-1200. -/
def fileOption (doc : Node) (c : Config K) : Res (Config K) :=
  if c.writeXml then (orThrow (find? doc ["xml_file_name"])).bind fun e => .ok { c with xmlFile := e.text }
  else .ok c

/-- All the variables of the vehicle, fastestlapc.cpp:1219-1231. -/
def allVariables (car : CarType K) : List String :=
  [car.key] ++ car.inputs ++ car.controls ++ car.outputs ++ ["laptime"] ++
    car.quantities.map fun q => "integral_quantities." ++ q

/-- The output variables, fastestlapc.cpp:1206-1233. -/
def outputOption (T : Texts K) (car : CarType K) (doc : Node) (c : Config K) : Res (Config K) :=
  match find? doc ["output_variables"] with
  | none => .ok c
  | some _ =>
    (orThrow (find? doc ["output_variables", "prefix"])).bind fun p =>
      let c := { c with pre := T.trim p.text }
      match find? doc ["output_variables", "variables"] with
      | some v => .ok { c with vars := v.children.map Node.name }
      | none => .ok { c with vars := allVariables car }

/-- The speed of the steady state, fastestlapc.cpp:1235: the test is on `steady_state_speed`, the value is
that of `initial_speed`. -/
def speedOption (T : Texts K) (doc : Node) (c : Config K) : Res (Config K) :=
  match find? doc ["steady_state_speed"] with
  | none => .ok c
  | some _ => (orThrow (find? doc ["initial_speed"])).bind fun e =>
      (T.num e.text).bind fun x => .ok { c with speed := x }

/-- `std::copy(v.cbegin(), v.cend(), a.begin())` into an array of length `n`, fastestlapc.cpp:1248-1249: a longer
vector writes past the end, a shorter one leaves the rest as it was. -/
def copyInto (n : Nat) (v : List K) (a : Row K) : Res (Row K) :=
  if v.length ≤ n then .ok fun i => v.getD i (a i) else .ub

/-- `table_vector.at(doc.get_element(path).get_attribute("from_table"))`, fastestlapc.cpp:1245-1246. -/
def fromTable (tables : String → Option (List K)) (doc : Node) (path : List String) : Res (List K) :=
  (orThrow (find? doc path)).bind fun e => (attr e "from_table").bind fun n => orThrow (tables n)

/-- The initial condition of an open simulation, fastestlapc.cpp:1240-1250. -/
def initialOption (car : CarType K) (tables : String → Option (List K)) (doc : Node) (c : Config K) :
    Res (Config K) :=
  if c.isClosed then .ok c
  else match find? doc ["initial_condition"] with
    | none => .throw
    | some _ =>
      (fromTable tables doc ["initial_condition", "q"]).bind fun q =>
      (fromTable tables doc ["initial_condition", "u"]).bind fun u =>
      (copyInto car.inputs.length q c.qStart).bind fun q =>
      (copyInto car.controls.length u c.uStart).bind fun u =>
        .ok { c with setInitial := true, qStart := q, uStart := u }

/-- `std::find` over names, fastestlapc.cpp:1262, 1340, 1357; `none` is the end iterator. -/
def position (names : List String) (n : String) : Option Nat :=
  if names.idxOf n < names.length then some (names.idxOf n) else none

/-- One turn of the loop over the control variables, fastestlapc.cpp:1259-1293. -/
def controlOption (T : Texts K) (car : CarType K) (c : Config K) (e : Node) : Res (Config K) :=
  match position car.controls e.name with
  | none => .throw
  | some i =>
    (attr e "optimal_control_type").bind fun t =>
      let c := { c with types := Function.update c.types i t }
      if t = "dont optimize" then .ok c
      else if t = "constant" then .ok c
      else if t = "hypermesh" then
        (orThrow (child? e "hypermesh")).bind fun h => (T.nums h.text).bind fun x =>
          .ok { c with hypermeshes := Function.update c.hypermeshes i x }
      else if t = "full-mesh" then
        match child? e "dissipation" with
        | none => .ok c
        | some d => (T.num d.text).bind fun x =>
            .ok { c with dissipations := Function.update c.dissipations i x }
      else .throw

/-- A loop that stops at the first failure (the `for` loops of fastestlapc.cpp:1259, 1300, 1311). -/
def loop {α C : Type*} (f : C → α → Res C) : List α → C → Res C
  | [], c => .ok c
  | a :: l, c => (f c a).bind fun c => loop f l c

/-- The control variables, fastestlapc.cpp:1257-1295. -/
def controlsOption (T : Texts K) (car : CarType K) (doc : Node) (c : Config K) : Res (Config K) :=
  match find? doc ["control_variables"] with
  | none => .ok c
  | some e => loop (controlOption T car) e.children c

/-- One integral constraint, fastestlapc.cpp:1302-1304. -/
def integralOption (T : Texts K) (c : Config K) (e : Node) : Res (Config K) :=
  (orThrow (child? e "lower_bound")).bind fun l => (T.num l.text).bind fun x =>
  (orThrow (child? e "upper_bound")).bind fun u => (T.num u.text).bind fun y =>
    .ok { c with integral := c.integral ++ [(e.name, x, y)] }

/-- The integral constraints, fastestlapc.cpp:1298-1306. -/
def integralsOption (T : Texts K) (doc : Node) (c : Config K) : Res (Config K) :=
  match find? doc ["integral_constraints"] with
  | none => .ok c
  | some e => loop (integralOption T) e.children c

/-- The children of a bounded variable: one or two, named `lower` and/or `upper`,
fastestlapc.cpp:1314-1337. -/
def wellFormedBound (e : Node) : Bool :=
  match e.children.map Node.name with
  | [a] => a = "lower" || a = "upper"
  | [a, b] => (a = "lower" && b = "upper") || (a = "upper" && b = "lower")
  | _ => false

/-- `if ( variable.has_child(n) ) bounds.at(i) = variable.get_child(n).get_value(scalar())`,
fastestlapc.cpp:1344-1352, 1361-1369. -/
def boundOption (T : Texts K) (e : Node) (n : String) (i : Nat) (b : Row K) : Res (Row K) :=
  match child? e n with
  | none => .ok b
  | some x => (T.num x.text).bind fun x => .ok (Function.update b i x)

/-- One turn of the loop over the bounded variables, fastestlapc.cpp:1311-1375. -/
def variableOption (T : Texts K) (car : CarType K) (c : Config K) (e : Node) : Res (Config K) :=
  if wellFormedBound e then
    match position car.inputs e.name with
    | some i =>
      (boundOption T e "lower" i c.inputsLb).bind fun lb => (boundOption T e "upper" i c.inputsUb).bind fun ub =>
        .ok { c with inputsLb := lb, inputsUb := ub }
    | none =>
      match position car.controls e.name with
      | some i =>
        (boundOption T e "lower" i c.controlsLb).bind fun lb =>
        (boundOption T e "upper" i c.controlsUb).bind fun ub =>
          .ok { c with controlsLb := lb, controlsUb := ub }
      | none => .throw
  else .throw

/-- The bounds of the variables, fastestlapc.cpp:1309-1376. -/
def boundsOption (T : Texts K) (car : CarType K) (doc : Node) (c : Config K) : Res (Config K) :=
  match find? doc ["variable_bounds"] with
  | none => .ok c
  | some e => loop (variableOption T car) e.children c

/-- The options as given: an empty string, a string lion cannot parse (it throws), or a document
(fastestlapc.cpp:1181-1187). -/
inductive Given where
  | empty
  | malformed
  | doc (d : Node)

/-- The constructor of `Optimal_laptime_configuration`, fastestlapc.cpp:1179-1376. `tables` is the table of
vectors. -/
def configure [Field K] (T : Texts K) (car : CarType K) (tables : String → Option (List K))
    (junkQ junkU : Row K) : Given → Res (Config K)
  | .empty => .ok (defaults car junkQ junkU)
  | .malformed => .throw
  | .doc d =>
    (option d "warm_start" T.bool (fun c b => { c with warmStart := b }) (defaults car junkQ junkU)).bind fun c =>
    (option d "save_warm_start" T.bool (fun c b => { c with saveWarmStart := b }) c).bind fun c =>
    (option d "write_xml" T.bool (fun c b => { c with writeXml := b }) c).bind fun c =>
    (fileOption d c).bind fun c =>
    (option d "print_level" T.int (fun c b => { c with printLevel := b }) c).bind fun c =>
    (outputOption T car d c).bind fun c =>
    (speedOption T d c).bind fun c =>
    (option d "closed_simulation" T.bool (fun c b => { c with isClosed := b }) c).bind fun c =>
    (initialOption car tables d c).bind fun c =>
    (option d "sigma" T.num (fun c b => { c with sigma := b }) c).bind fun c =>
    (option d "compute_sensitivity" T.bool (fun c b => { c with sensitivity := b }) c).bind fun c =>
    (controlsOption T car d c).bind fun c =>
    (integralsOption T d c).bind fun c =>
    boundsOption T car d c

/-! ### What is computed -/

/-- One control variable of `construct_control_variables`, fastestlapc.cpp:1453-1486. A type that is none of
the four leaves the default-constructed variable, whose type is not initialised: `unknown`. -/
def controlVariable [Zero K] (c : Config K) (n : Nat) (u : K) (j : Nat) : CV K :=
  if c.types j = "dont optimize" then createDontOptimize
  else if c.types j = "constant" then createConstant u
  else if c.types j = "hypermesh" then
    createHypermesh (c.hypermeshes j) (List.replicate (c.hypermeshes j).length u)
  else if c.types j = "full-mesh" then
    if c.isDirect then createFullMesh (List.replicate n u) (c.dissipations j)
    else createFullMeshD (List.replicate n u) (List.replicate n 0) (c.dissipations j)
  else ⟨.unknown, [], [], [], 0⟩

/-- `construct_control_variables`, fastestlapc.cpp:1445-1488. -/
def controlVariables [Zero K] (c : Config K) (nControls n : Nat) (u : Row K) : List (CV K) :=
  (List.range nControls).map fun j => controlVariable c n (u j) j

/-- The control of the first point, set for a full-mesh variable, fastestlapc.cpp:1552-1555: `front()` of an
empty vector is undefined. -/
def startControl (u : K) (c : CV K) : Res (CV K) :=
  if c.kind = .fullMesh then
    match c.controls with
    | [] => .ub
    | _ :: l => .ok { c with controls := u :: l }
  else .ok c

/-- The controls of the first point, fastestlapc.cpp:1550-1556. -/
def startControls (u : Row K) : Nat → List (CV K) → Res (List (CV K))
  | _, [] => .ok []
  | j, c :: cs => (startControl (u j) c).bind fun c =>
      (startControls u (j + 1) cs).bind fun cs => .ok (c :: cs)

/-- `opts`, fastestlapc.cpp:1521-1536. -/
def lapSettings (c : Config K) : Options K where
  inputsLb := c.inputsLb
  inputsUb := c.inputsUb
  controlsLb := c.controlsLb
  controlsUb := c.controlsUb
  integral := c.integral.map fun q => (q.1.toList, q.2.1, q.2.2)
  sigma := c.sigma

/-- What is kept of a lap for the next warm start: the members read at fastestlapc.cpp:1563-1567. -/
structure Warm (K : Type*) where
  s : List K
  isClosed : Bool
  isDirect : Bool
  inputs : List (Row K)
  controls : List (CV K)
  zl : List K
  zu : List K
  lambda : List K

/-- The call of the constructor of `Optimal_laptime`, fastestlapc.cpp:1539-1568: `s` are the given points, `q`
and `u` the steady state at 0 g. -/
def lapRequest [Zero K] (c : Config K) (nControls : Nat) (s : List K) (q u : Row K) (warm : Warm K) :
    Res (Request K) :=
  if c.warmStart then
    .ok { s := warm.s, isClosed := warm.isClosed, isDirect := warm.isDirect, inputs := warm.inputs,
          controls := warm.controls, warm := some (warm.zl, warm.zu, warm.lambda), opts := lapSettings c }
  else
    let q0 := List.replicate s.length q
    let cs := controlVariables c nControls s.length u
    let start : Res (List (Row K) × List (CV K)) :=
      if c.setInitial then
        match q0 with
        | [] => .ub
        | _ :: l => (startControls c.uStart 0 cs).bind fun cs => .ok (c.qStart :: l, cs)
      else .ok (q0, cs)
    start.bind fun p =>
      .ok { s := s, isClosed := c.isClosed, isDirect := c.isDirect, inputs := p.1, controls := p.2,
            warm := none, opts := lapSettings c }

/-- The controls of the steady state used as initial guess, fastestlapc.cpp:1509-1512: for the kart the second
control is replaced by zero. -/
def startingControls [Zero K] (isKart : Bool) (u : Row K) : Row K :=
  if isKart then Function.update u 1 0 else u

/-! ### What is returned -/

/-- The value of a variable at one point, fastestlapc.cpp:1657-1677: the key, then the inputs, then the controls,
then the outputs of the vehicle (`outputs_map.at` throws). -/
def valueAt (car : CarType K) (s : K) (q : Row K) (u : List K) (out : String → Option K) (v : String) : Res K :=
  if v = car.key then .ok s
  else match position car.inputs v with
    | some j => .ok (q j)
    | none => match position car.controls v with
      | some j => idx u j
      | none => orThrow (out v)

/-- One point of the loop, fastestlapc.cpp:1646-1679. `dflt` are the default controls of the vehicle, `eval` the
outputs of the vehicle at a point. -/
def pointData [LinearOrder K] (car : CarType K) (dflt : List K) (eval : Row K → List K → K → String → Option K)
    (inputs : List (Row K)) (controls : List (CV K)) (vars : List String) (i : Nat) (s : K) : Res (List K) :=
  (controlArrayAtS controls dflt i s).bind fun u =>
  (idx inputs i).bind fun q => mapRes (valueAt car s q u (eval q u s)) vars

/-- The loop over the points from number `i` on, fastestlapc.cpp:1646-1679: one list per point. -/
def lapRows [LinearOrder K] (car : CarType K) (dflt : List K) (eval : Row K → List K → K → String → Option K)
    (inputs : List (Row K)) (controls : List (CV K)) (vars : List String) : Nat → List K → Res (List (List K))
  | _, [] => .ok []
  | i, s :: ss => (pointData car dflt eval inputs controls vars i s).bind fun r =>
      (lapRows car dflt eval inputs controls vars (i + 1) ss).bind fun rs => .ok (r :: rs)

/-- `data`, fastestlapc.cpp:1643-1685: one vector per variable, of one entry per given point. -/
def lapData [LinearOrder K] [Zero K] (car : CarType K) (dflt : List K)
    (eval : Row K → List K → K → String → Option K) (s : List K) (inputs : List (Row K))
    (controls : List (CV K)) (vars : List String) : Res (List (List K)) :=
  (lapRows car dflt eval inputs controls vars 0 s).map fun rows =>
    (List.range vars.length).map fun k => rows.map fun r => r.getD k 0

/-- `ddatadp`, fastestlapc.cpp:1689-1706: the derivatives of one variable, one vector per parameter. `dq p i` are the
derivatives of the inputs of point `i`, `iVelocity` and `iTime` the positions of the velocity and of the time. -/
def lapSensitivity [Zero K] (iVelocity iTime n : Nat) (dq : Nat → Nat → Row K) (nParameters : Nat) (v : String) :
    List (List K) :=
  (List.range nParameters).map fun p => (List.range n).map fun i =>
    if v = "chassis.velocity.x" then dq p i iVelocity
    else if v = "time" then dq p i iTime
    else 0

/-! ### The two vehicles -/

/-- The Formula 1 car: names of limebeer2014f1.h and the defaults of fastestlapc.cpp:1412-1440. The bounds and the
names of the outputs are parameters. -/
def f1Type [Field K] (outputs : List String) (inputsLb inputsUb controlsLb controlsUb : Row K) : CarType K where
  key := F1.keyName .curvilinear
  inputs := (List.range F1.nInputs).map (F1.inputNames .curvilinear)
  controls := (List.range 4).map F1.controlNames
  outputs := outputs
  quantities := F1.integralNames
  isDirect := true
  types := fun j => ["full-mesh", "dont optimize", "full-mesh", "dont optimize"].getD j ""
  dissipations := fun j => [50, 20 * (8 / 10 ^ 4), 20 * (8 / 10 ^ 4), 0].getD j 0
  inputsLb := inputsLb
  inputsUb := inputsUb
  controlsLb := controlsLb
  controlsUb := controlsUb

/-- The kart: names of lot2016kart.h and the defaults of fastestlapc.cpp:1412-1440. -/
def kartType [Field K] (outputs : List String) (inputsLb inputsUb controlsLb controlsUb : Row K) : CarType K where
  key := F1.keyName .curvilinear
  inputs := (List.range Kart.nInputs).map (Kart.inputNames .curvilinear)
  controls := (List.range 2).map Kart.controlNames
  outputs := outputs
  quantities := []
  isDirect := false
  types := fun j => ["full-mesh", "full-mesh"].getD j ""
  dissipations := fun j => [1 / 10 ^ 2, 200 * 200 * (1 / 10 ^ 10)].getD j 0
  inputsLb := inputsLb
  inputsUb := inputsUb
  controlsLb := controlsLb
  controlsUb := controlsUb

end Verif.LapOptions
