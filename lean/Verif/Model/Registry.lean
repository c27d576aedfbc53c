import Verif.Model.Pattern

/-!
# The variables stored by the C interface (src/main/c/fastestlapc.cpp)

The interface keeps five global tables of named variables. A call that throws leaves whatever it had
already inserted, so every call below returns the tables it leaves behind together with its outcome.
Vehicles, tracks and numbers are abstract types. What other parts of the library compute (reading
an XML file, solving an optimal control problem, ...) enters as data of the call.
-/

set_option autoImplicit false

namespace Verif.Registry

/-- A `std::unordered_map<std::string, V>`, as the finite map it represents
(src/main/c/fastestlapc.cpp:31-35). Iteration order is never observable in the calls modelled. -/
abbrev Table (V : Type) := Name → Option V

/-- The five tables, src/main/c/fastestlapc.cpp:31-35. -/
structure Reg (Kart F1 Track K : Type) where
  kart : Table Kart
  f1 : Table F1
  track : Table Track
  scalar : Table K
  vector : Table (List K)

variable {Kart F1 Track K : Type}

/-- Tables when the library is loaded (fastestlapc.cpp:31-35). -/
def Reg.empty : Reg Kart F1 Track K := ⟨fun _ => none, fun _ => none, fun _ => none, fun _ => none,
  fun _ => none⟩

/-- `std::unordered_map::insert`: keeps the old element if the key is already there. Used on the
tables of fastestlapc.cpp:31-35. -/
def put {V : Type} (t : Table V) (k : Name) (v : V) : Table V :=
  fun n => if n = k then (match t k with | some x => some x | none => some v) else t n

/-- `table.at(k) = v` for a key that is there (in-place modification of an element). Used on the
tables of fastestlapc.cpp:31-35. -/
def overwrite {V : Type} (t : Table V) (k : Name) (v : V) : Table V :=
  fun n => if n = k then some v else t n

/-- `std::unordered_map::erase(key)`. Used on the tables of fastestlapc.cpp:31-35. -/
def drop {V : Type} (t : Table V) (k : Name) : Table V := fun n => if n = k then none else t n

/-- Erase loop over one table, src/main/c/fastestlapc.cpp:850-857 (and 861-901). -/
def dropIf {V : Type} (t : Table V) (p : Name → Bool) : Table V := fun n => if p n then none else t n

/-- `check_variable_exists_in_tables`, src/main/c/fastestlapc.cpp:74-90: true when it throws. -/
def taken (r : Reg Kart F1 Track K) (n : Name) : Bool :=
  (r.kart n).isSome || (r.f1 n).isSome || (r.track n).isSome || (r.scalar n).isSome ||
    (r.vector n).isSome

/-- What a call gives back to the caller. The functions of fastestlapc.cpp:103-1000, 1717-1990. -/
inductive Ret (K : Type) where
  | unit
  | num (x : K)
  | arr (x : List K)
  | size (n : Nat)
  | name (n : Name)
  deriving DecidableEq

/-- Content of the XML file given to `create_vehicle_from_xml` (fastestlapc.cpp:103-143). -/
inductive VehicleFile (Kart F1 : Type) where
  | unreadable
  | kart (built : Res Kart)
  | f1 (built : Res F1)
  | other

/-- Content of the XML file given to `create_track_from_xml` (fastestlapc.cpp:176-204). -/
inductive TrackFile (Track : Type) where
  | unreadable
  | discrete (built : Res Track)
  | otherFormat

/-- Data of a call to `optimal_laptime` whose vehicle and track exist: the options that decide what
is saved, and the results of the computation (src/main/c/fastestlapc.cpp:1492-1714). -/
structure LapJob (K : Type) where
  /-- `conf.output_variables_prefix` -/
  pre : Name
  /-- `conf.variables_to_save` -/
  vars : List Name
  /-- `opts.check_optimality` -/
  sens : Bool
  /-- `parameter_aliases` -/
  aliases : List Name
  /-- everything before saving: options, steady state, solver, xml file (1494-1576) -/
  solved : Res Unit
  laptime : K
  dlaptime : Name → K
  /-- value of an integral quantity; `none` for an unknown name (1629-1637) -/
  integral : Name → Option K
  /-- value of a vector variable; `none` when `outputs_map.at` throws (1676) -/
  vec : Name → Option (List K)
  dvec : Name → Name → List K

/-- Data of a call to `circuit_preprocessor`, src/main/c/fastestlapc.cpp:1931-2131. -/
structure CircuitJob (Track K : Type) where
  /-- configuration, KML files and optimization (1937-1978) -/
  built : Res Track
  /-- `conf.insert_table_name` if `conf.save_to_table` -/
  saveTo : Option Name
  /-- writing the XML file, if requested -/
  xml : Res Unit
  /-- `conf.output_variables_prefix` if `conf.output_variables_to_table` -/
  outputs : Option Name
  /-- data of each output, copied before it is stored (2007-2127) -/
  data : Name → Res (List K)

/-- Calls of the C interface. The functions of fastestlapc.cpp:103-1000, 1717-1990. -/
inductive Op (Kart F1 Track K : Type) where
  | createVehicleXml (name : Name) (file : VehicleFile Kart F1)
  | createVehicleEmpty (name type : Name) (built : F1)
  | createTrackXml (name : Name) (file : TrackFile Track)
  | createVector (name : Name) (n : Int) (data : List K)
  | createScalar (name : Name) (value : K)
  | copy (old new : Name)
  | move (old new : Name)
  | delete (pattern : Name)
  | downloadScalar (name : Name)
  | downloadVector (name : Name) (n : Int)
  | downloadVectorSize (name : Name)
  | variableType (name : Name)
  /-- `vehicle_set_parameter`: new vehicle and outcome -/
  | setParameter (name : Name) (work : F1 → F1 × Res Unit)
  /-- `vehicle_declare_new_constant_parameter`, `vehicle_declare_new_variable_parameter` -/
  | declareParameter (name : Name) (workF1 : F1 → F1 × Res Unit) (workKart : Kart → Kart × Res Unit)
  /-- `vehicle_get_output`, `vehicle_save_as_xml` (unknown vehicle throws), `steady_state`,
  `gg_diagram`, `propagate_vehicle` without circuit (unknown vehicle ignored) -/
  | useVehicle (name : Name) (unknownThrows : Bool) (workKart : Kart → Kart × Res (Ret K))
      (workF1 : F1 → F1 × Res (Ret K))
  /-- `vehicle_change_track`, `propagate_vehicle` with circuit -/
  | useVehicleOnTrack (name track : Name) (workKart : Kart → Track → Kart × Res Unit)
      (workF1 : F1 → Track → F1 × Res Unit)
  /-- `track_set_track_limit_correction` -/
  | setTrackLimit (track : Name) (work : Track → Track × Res Unit)
  | optimalLaptime (name track : Name) (workKart : Kart → Track → Kart)
      (workF1 : F1 → Track → F1) (job : LapJob K)
  | circuitPreprocessor (job : CircuitJob Track K)

/-- `insert` of a list of scalars in order (fastestlapc.cpp:1560-1715). -/
def putScalars (r : Reg Kart F1 Track K) (l : List (Name × K)) : Reg Kart F1 Track K :=
  { r with scalar := l.foldl (fun t p => put t p.1 p.2) r.scalar }

/-- `insert` of a list of vectors in order (fastestlapc.cpp:1560-1715). -/
def putVectors (r : Reg Kart F1 Track K) (l : List (Name × List K)) : Reg Kart F1 Track K :=
  { r with vector := l.foldl (fun t p => put t p.1 p.2) r.vector }

/-- `prefix + "derivatives/" + variable + "/" + alias`, src/main/c/fastestlapc.cpp:1595, 1618, 1703. -/
def derivativeName (pre var al : Name) : Name := pre ++ "derivatives/".toList ++ var ++ '/' :: al

/-- The checks before saving, src/main/c/fastestlapc.cpp:1588-1598: true when one throws. -/
def lapNamesTaken (r : Reg Kart F1 Track K) (job : LapJob K) : Bool :=
  job.vars.any fun v => taken r (job.pre ++ v) ||
    (job.sens && job.aliases.any fun a => taken r (derivativeName job.pre v a))

/-- `variable_name.find("integral_quantities.") == 0`, src/main/c/fastestlapc.cpp:1602. -/
def integralPrefix : Name := "integral_quantities.".toList

/-- Variables saved as integral quantities, src/main/c/fastestlapc.cpp:1600-1605. -/
def integralVars (job : LapJob K) : List Name :=
  job.vars.filter fun v => v ≠ "laptime".toList ∧ integralPrefix.isPrefixOf v = true

/-- Variables saved as vectors, src/main/c/fastestlapc.cpp:1600-1605. -/
def vectorVars (job : LapJob K) : List Name :=
  job.vars.filter fun v => v ≠ "laptime".toList ∧ integralPrefix.isPrefixOf v = false

/-- Laptime and its derivatives, src/main/c/fastestlapc.cpp:1609-1620. -/
def laptimeScalars (job : LapJob K) : List (Name × K) :=
  if "laptime".toList ∈ job.vars then
    (job.pre ++ "laptime".toList, job.laptime) ::
      (if job.sens then
        job.aliases.map fun a => (derivativeName job.pre "laptime".toList a, job.dlaptime a)
      else [])
  else []

/-- Integral quantities in order, stopping at the first unknown one, src/main/c/fastestlapc.cpp:1623-1643:
pairs inserted, and whether an unknown name was met. -/
def integralScalars (job : LapJob K) : List Name → List (Name × K) × Bool
  | [] => ([], false)
  | v :: vs =>
    match job.integral (v.drop integralPrefix.length) with
    | none => ([], true)
    | some x =>
      let rest := integralScalars job vs
      ((job.pre ++ v, x) :: rest.1, rest.2)

/-- Vector variables, src/main/c/fastestlapc.cpp:1646-1684; `none` if one is unknown. -/
def vectorPairs (job : LapJob K) : List Name → Option (List (Name × List K))
  | [] => some []
  | v :: vs =>
    match job.vec v, vectorPairs job vs with
    | some x, some rest => some ((job.pre ++ v, x) :: rest)
    | _, _ => none

/-- Derivatives of the vector variables, src/main/c/fastestlapc.cpp:1687-1706. -/
def vectorDerivatives (job : LapJob K) : List (Name × List K) :=
  if job.sens then
    (vectorVars job).flatMap fun v =>
      job.aliases.map fun a => (derivativeName job.pre v a, job.dvec v a)
  else []

/-- The saving part of `compute_optimal_laptime`, src/main/c/fastestlapc.cpp:1578-1713. -/
def saveLap (r : Reg Kart F1 Track K) (job : LapJob K) : Reg Kart F1 Track K × Res (Ret K) :=
  match job.solved with
  | .throw => (r, .throw)
  | .ub => (r, .ub)
  | .ok _ =>
    if lapNamesTaken r job then (r, .throw)
    else
      let r1 := putScalars r (laptimeScalars job)
      let ints := integralScalars job (integralVars job)
      let r2 := putScalars r1 ints.1
      if ints.2 then (r2, .throw)
      else
        match vectorPairs job (vectorVars job) with
        | none => (r2, .throw)
        | some vs => (putVectors (putVectors r2 vs) (vectorDerivatives job), .ok .unit)

/-- Output names of `circuit_preprocessor` in the order of src/main/c/fastestlapc.cpp:1999-2127. -/
def circuitOutputs : List Name :=
  ["arclength", "centerline/x", "centerline/y", "left/x", "left/y", "right/x", "right/y",
    "left_measured/x", "left_measured/y", "right_measured/x", "right_measured/y", "yaw_dot", "nl",
    "nr"].map String.toList

/-- Outputs one after the other, each checked against the vector table only,
src/main/c/fastestlapc.cpp:1999-2127. -/
def saveOutputs (pre : Name) (data : Name → Res (List K)) :
    List Name → Reg Kart F1 Track K → Reg Kart F1 Track K × Res (Ret K)
  | [], r => (r, .ok .unit)
  | o :: os, r =>
    if (r.vector (pre ++ o)).isSome then (r, .throw)
    else match data o with
      | .throw => (r, .throw)
      | .ub => (r, .ub)
      | .ok v => saveOutputs pre data os { r with vector := put r.vector (pre ++ o) v }

/-- `circuit_preprocessor`, src/main/c/fastestlapc.cpp:1931-2131. -/
def runCircuit (r : Reg Kart F1 Track K) (job : CircuitJob Track K) :
    Reg Kart F1 Track K × Res (Ret K) :=
  match job.built with
  | .throw => (r, .throw)
  | .ub => (r, .ub)
  | .ok t =>
    let afterTrack : Option (Reg Kart F1 Track K) :=
      match job.saveTo with
      | none => some r
      | some n => if (r.track n).isSome then none else some { r with track := put r.track n t }
    match afterTrack with
    | none => (r, .throw)
    | some r1 =>
      match job.xml with
      | .throw => (r1, .throw)
      | .ub => (r1, .ub)
      | .ok _ =>
        match job.outputs with
        | none => (r1, .ok .unit)
        | some pre => saveOutputs pre job.data circuitOutputs r1

/-- Outcome without a value. The functions of fastestlapc.cpp:103-1000, 1717-1990. -/
def done : Res Unit → Res (Ret K)
  | .ok _ => .ok .unit
  | .throw => .throw
  | .ub => .ub

/-- One call of the C interface. `lib` answers for regular expressions outside the modelled fragment
(see `Pattern.selects`). The functions of fastestlapc.cpp:103-1000, 1717-1990, each cited at its
definition above. -/
def step (lib : Name → Option (Name → Bool)) (op : Op Kart F1 Track K) (r : Reg Kart F1 Track K) :
    Reg Kart F1 Track K × Res (Ret K) :=
  match op with
  -- src/main/c/fastestlapc.cpp:103-142
  | .createVehicleXml n file =>
    if taken r n then (r, .throw)
    else match file with
      | .unreadable => (r, .throw)
      | .other => (r, .throw)
      | .kart (.ok k) => ({ r with kart := put r.kart n k }, .ok .unit)
      | .f1 (.ok k) => ({ r with f1 := put r.f1 n k }, .ok .unit)
      | .kart .throw => (r, .throw)
      | .kart .ub => (r, .ub)
      | .f1 .throw => (r, .throw)
      | .f1 .ub => (r, .ub)
  -- src/main/c/fastestlapc.cpp:145-173
  | .createVehicleEmpty n type built =>
    if taken r n then (r, .throw)
    else if type = "kart-6dof".toList then (r, .throw)
    else if type = "f1-3dof".toList then ({ r with f1 := put r.f1 n built }, .ok .unit)
    else (r, .throw)
  -- src/main/c/fastestlapc.cpp:176-203
  | .createTrackXml n file =>
    if taken r n then (r, .throw)
    else match file with
      | .unreadable => (r, .throw)
      | .otherFormat => (r, .throw)
      | .discrete (.ok t) => ({ r with track := put r.track n t }, .ok .unit)
      | .discrete .throw => (r, .throw)
      | .discrete .ub => (r, .ub)
  -- src/main/c/fastestlapc.cpp:810-822; reading outside `data` is undefined
  | .createVector n len data =>
    if taken r n then (r, .throw)
    else if len < 0 ∨ (data.length : Int) < len then (r, .ub)
    else ({ r with vector := put r.vector n (data.take len.toNat) }, .ok .unit)
  -- src/main/c/fastestlapc.cpp:825-837
  | .createScalar n x =>
    if taken r n then (r, .throw) else ({ r with scalar := put r.scalar n x }, .ok .unit)
  -- src/main/c/fastestlapc.cpp:206-243
  | .copy old new =>
    if taken r new then (r, .throw)
    else match r.kart old, r.f1 old, r.track old, r.vector old, r.scalar old with
      | some x, _, _, _, _ => ({ r with kart := put r.kart new x }, .ok .unit)
      | none, some x, _, _, _ => ({ r with f1 := put r.f1 new x }, .ok .unit)
      | none, none, some x, _, _ => ({ r with track := put r.track new x }, .ok .unit)
      | none, none, none, some x, _ => ({ r with vector := put r.vector new x }, .ok .unit)
      | none, none, none, none, some x => ({ r with scalar := put r.scalar new x }, .ok .unit)
      | none, none, none, none, none => (r, .throw)
  -- src/main/c/fastestlapc.cpp:245-287
  | .move old new =>
    if taken r new then (r, .throw)
    else match r.kart old, r.f1 old, r.track old, r.vector old, r.scalar old with
      | some x, _, _, _, _ => ({ r with kart := drop (put r.kart new x) old }, .ok .unit)
      | none, some x, _, _, _ => ({ r with f1 := drop (put r.f1 new x) old }, .ok .unit)
      | none, none, some x, _, _ => ({ r with track := drop (put r.track new x) old }, .ok .unit)
      | none, none, none, some x, _ =>
        ({ r with vector := drop (put r.vector new x) old }, .ok .unit)
      | none, none, none, none, some x =>
        ({ r with scalar := drop (put r.scalar new x) old }, .ok .unit)
      | none, none, none, none, none => (r, .throw)
  -- src/main/c/fastestlapc.cpp:840-904
  | .delete pattern =>
    match Pattern.selects lib pattern with
    | none => (r, .throw)
    | some p =>
      (⟨dropIf r.kart p, dropIf r.f1 p, dropIf r.track p, dropIf r.scalar p, dropIf r.vector p⟩,
        .ok .unit)
  -- src/main/c/fastestlapc.cpp:647-664
  | .downloadScalar n =>
    match r.scalar n with | none => (r, .throw) | some x => (r, .ok (.num x))
  -- src/main/c/fastestlapc.cpp:667-693
  | .downloadVector n len =>
    match r.vector n with
    | none => (r, .throw)
    | some x => if x.length ≠ Buffer.toSize len then (r, .throw) else (r, .ok (.arr x))
  -- src/main/c/fastestlapc.cpp:594-612
  | .downloadVectorSize n =>
    match r.vector n with | none => (r, .throw) | some x => (r, .ok (.size x.length))
  -- src/main/c/fastestlapc.cpp:615-644 (the caller's buffer is in `Buffer.variableTypeCopy`)
  | .variableType n =>
    (r, if (r.f1 n).isSome then .ok (.name "f1-3dof".toList)
      else if (r.kart n).isSome then .ok (.name "kart-6dof".toList)
      else if (r.track n).isSome then .ok (.name "track".toList)
      else if (r.scalar n).isSome then .ok (.name "scalar".toList)
      else if (r.vector n).isSome then .ok (.name "vector".toList)
      else .throw)
  -- src/main/c/fastestlapc.cpp:907-918
  | .setParameter n work =>
    match r.f1 n with
    | none => (r, .ok .unit)
    | some v => ({ r with f1 := overwrite r.f1 n (work v).1 }, done (work v).2)
  -- src/main/c/fastestlapc.cpp:921-938, 973-982
  | .declareParameter n workF1 workKart =>
    match r.f1 n, r.kart n with
    | some v, _ => ({ r with f1 := overwrite r.f1 n (workF1 v).1 }, done (workF1 v).2)
    | none, some v => ({ r with kart := overwrite r.kart n (workKart v).1 }, done (workKart v).2)
    | none, none => (r, .throw)
  -- src/main/c/fastestlapc.cpp:414-455, 1028-1094, 1111-1126
  | .useVehicle n unknownThrows workKart workF1 =>
    match r.kart n, r.f1 n with
    | some v, _ => ({ r with kart := overwrite r.kart n (workKart v).1 }, (workKart v).2)
    | none, some v => ({ r with f1 := overwrite r.f1 n (workF1 v).1 }, (workF1 v).2)
    | none, none => (r, if unknownThrows then .throw else .ok .unit)
  -- src/main/c/fastestlapc.cpp:1738-1757, 1028-1061
  | .useVehicleOnTrack n tn workKart workF1 =>
    match r.kart n, r.f1 n with
    | some v, _ =>
      (match r.track tn with
      | none => (r, .throw)
      | some t => ({ r with kart := overwrite r.kart n (workKart v t).1 }, done (workKart v t).2))
    | none, some v =>
      (match r.track tn with
      | none => (r, .throw)
      | some t => ({ r with f1 := overwrite r.f1 n (workF1 v t).1 }, done (workF1 v t).2))
    | none, none => (r, .ok .unit)
  -- src/main/c/fastestlapc.cpp:1760-1784
  | .setTrackLimit tn work =>
    match r.track tn with
    | none => (r, .throw)
    | some t => ({ r with track := overwrite r.track tn (work t).1 }, done (work t).2)
  -- src/main/c/fastestlapc.cpp:1717-1735
  | .optimalLaptime n tn workKart workF1 job =>
    match r.kart n, r.f1 n with
    | some v, _ =>
      (match r.track tn with
      | none => (r, .throw)
      | some t => saveLap { r with kart := overwrite r.kart n (workKart v t) } job)
    | none, some v =>
      (match r.track tn with
      | none => (r, .throw)
      | some t => saveLap { r with f1 := overwrite r.f1 n (workF1 v t) } job)
    | none, none => (r, .ok .unit)
  -- src/main/c/fastestlapc.cpp:1931-2131
  | .circuitPreprocessor job => runCircuit r job

/-- A history of calls by a caller that catches exceptions and goes on; `none` once a call has
undefined behaviour. The functions of fastestlapc.cpp:103-1000, 1717-1990. -/
def run (lib : Name → Option (Name → Bool)) :
    List (Op Kart F1 Track K) → Reg Kart F1 Track K → Option (Reg Kart F1 Track K)
  | [], r => some r
  | op :: ops, r =>
    match (step lib op r).2 with
    | .ub => none
    | _ => run lib ops (step lib op r).1

end Verif.Registry
