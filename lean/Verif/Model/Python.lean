import Verif.Model.VehicleNames
import Verif.Model.TrackDownload
import Verif.Model.SteadyCommand

/-!
# The Python module

Models src/main/python/fastest_lap.py on top of the C interface. Python calls the library through `ctypes`. A C++
exception that leaves the library is not seen by Python: the process ends. A string given to the library ends at its
first null character; otherwise characters stand for their encoding. Numbers are handed over unchanged.

Not modelled: the plots (340-406), `set_print_level` and `print_variables` (18-24). `print_variable` (26-34) is in
`Verif.Model.PythonPrint` and `vehicle_get_output` (196-209) in `Verif.Model.PythonOutput`. The functions that only forward
their arguments (37-59, 77-96, 211-216, 241-267) are the calls of `Verif.Model.Registry`.
-/

set_option autoImplicit false

namespace Verif.Python

open Verif.Registry

variable {Kart F1 Track K : Type}

/-- How a Python call ends: with a value, with a Python exception, with the end of the process (a C++ exception left
the library, fastestlapc.cpp:14-28), or undefined. The functions of fastest_lap.py. -/
inductive Py (α : Type) where
  | ret (a : α)
  | raised
  | aborted
  | undefined

/-- One statement after the other, as in fastest_lap.py:61-338. -/
def Py.bind {α β : Type} : Py α → (α → Py β) → Py β
  | .ret a, f => f a
  | .raised, _ => .raised
  | .aborted, _ => .aborted
  | .undefined, _ => .undefined

/-- A call of the library, `c_lib.f(...)`, fastest_lap.py:11. -/
def ofC {α : Type} : Res α → Py α
  | .ok a => .ret a
  | .throw => .aborted
  | .ub => .undefined

/-- `c.c_char_p(name.encode('utf-8'))` as the library reads it, and `.value.decode()` of what the library wrote: up
to the first null character (fastest_lap.py:62, 107). -/
def cstr (n : Name) : Name := n.takeWhile (· ≠ '\x00')

/-- `c.c_int(n)`, and the conversion of a `size_t` to the `int` returned by the library: 32 bits
(fastest_lap.py:69, 133, fastestlapc.cpp:609). -/
def cInt (n : Int) : Int := n.bmod (2 ^ 32)

/-- `create_vector`, fastest_lap.py:61-70. -/
def createVector (lib : Name → Option (Name → Bool)) (name : Name) (data : List K) (r : Reg Kart F1 Track K) :
    Reg Kart F1 Track K × Py Unit :=
  let x := step lib (.createVector (cstr name) (cInt data.length) data) r
  (x.1, (ofC x.2).bind fun _ => .ret ())

/-- `create_scalar`, fastest_lap.py:72-75. -/
def createScalar (lib : Name → Option (Name → Bool)) (name : Name) (x : K) (r : Reg Kart F1 Track K) :
    Reg Kart F1 Track K × Py Unit :=
  let x := step lib (.createScalar (cstr name) x) r
  (x.1, (ofC x.2).bind fun _ => .ret ())

/-- The name in the result of a call of the library; the other results do not occur (fastest_lap.py:105). -/
def asName : Ret K → Py Name
  | .name n => .ret n
  | _ => .undefined

/-- The number in the result of a call of the library (fastest_lap.py:125). -/
def asNum : Ret K → Py K
  | .num x => .ret x
  | _ => .undefined

/-- The size in the result of a call of the library (fastest_lap.py:129). -/
def asSize : Ret K → Py Nat
  | .size n => .ret n
  | _ => .undefined

/-- The array filled by a call of the library (fastest_lap.py:136). -/
def asArr : Ret K → Py (List K)
  | .arr x => .ret x
  | _ => .undefined

/-- `variable_type`, fastest_lap.py:100-107: a buffer of 99 blanks (and a null character, which is not counted). -/
def variableType (name : Name) (r : Reg Kart F1 Track K) : Py Name :=
  (ofC (step (fun _ => none) (.variableType (cstr name)) r).2).bind fun t => (asName t).bind fun t =>
  (ofC (Buffer.variableTypeCopy 99 t)).bind fun b => .ret (cstr b)

/-- `download_scalar`, fastest_lap.py:123-125. -/
def downloadScalar (name : Name) (r : Reg Kart F1 Track K) : Py K :=
  (ofC (step (fun _ => none) (.downloadScalar (cstr name)) r).2).bind asNum

/-- `download_vector_size`, fastest_lap.py:127-129. -/
def downloadVectorSize (name : Name) (r : Reg Kart F1 Track K) : Py Int :=
  (ofC (step (fun _ => none) (.downloadVectorSize (cstr name)) r).2).bind fun n => (asSize n).bind fun n =>
  .ret (cInt n)

/-- `download_vector`, fastest_lap.py:131-141: an array type of negative size raises. -/
def downloadVector (name : Name) (r : Reg Kart F1 Track K) : Py (List K) :=
  (downloadVectorSize name r).bind fun n =>
  if n < 0 then .raised
  else (ofC (step (fun _ => none) (.downloadVector (cstr name) (cInt n)) r).2).bind asArr

/-- What `download_variables` puts in its dictionary (fastest_lap.py:113, 116). -/
inductive Item (K : Type) where
  | num (x : K)
  | arr (x : List K)

/-- One turn of the loop, fastest_lap.py:112-119. -/
def downloadItem (name : Name) (r : Reg Kart F1 Track K) : Py (Item K) :=
  (variableType name r).bind fun t =>
  if t = "scalar".toList then (downloadScalar name r).bind fun x => .ret (.num x)
  else (variableType name r).bind fun t =>
    if t = "vector".toList then (downloadVector name r).bind fun x => .ret (.arr x)
    else .raised

/-- The loop of `download_variables` from a dictionary on, fastest_lap.py:111-119. -/
def downloadLoop (pre : Name) (r : Reg Kart F1 Track K) : List Name → (Name → Option (Item K)) →
    Py (Name → Option (Item K))
  | [], d => .ret d
  | v :: vs, d => (downloadItem (pre ++ v) r).bind fun x => downloadLoop pre r vs fun n => if n = v then some x else d n

/-- `download_variables`, fastest_lap.py:109-121; a dictionary is a finite map. -/
def downloadVariables (pre : Name) (vars : List Name) (r : Reg Kart F1 Track K) : Py (Name → Option (Item K)) :=
  downloadLoop pre r vars fun _ => none

/-- `vehicle_type_get_sizes`, fastest_lap.py:143-152. -/
def typeSizes (type : Name) : Py (Nat × Nat × Nat) := ofC (VehicleNames.typeSizes (cstr type))

/-- `vehicle_type_get_names`, fastest_lap.py:155-194: buffers of 99 blanks, as many as `vehicle_type_get_sizes`
says. -/
def typeNames (type : Name) : Py (Name × List Name × List Name × List Name) :=
  (typeSizes type).bind fun _ =>
  (ofC (VehicleNames.typeNames 99 (cstr type))).bind fun x =>
  .ret (cstr x.1, x.2.1.map cstr, x.2.2.1.map cstr, x.2.2.2.map cstr)

/-- The variables named by the options, fastest_lap.py:305-327: `root` is the document as parsed by
`xml.etree.ElementTree`, whose `text` is `None` when there is none; `strip` is that of Python. `prefix` is not bound
when there is no `output_variables`. `find('*')` is the first child, or `None`, over which one cannot iterate; the loop
runs over the children of that child, and its body names a variable that does not exist. -/
def requested (names : Py (Name × List Name × List Name × List Name)) (strip : String → String)
    (root : LapOptions.Node) : Py (Name × List Name) :=
  match LapOptions.child? root "output_variables" with
  | none => .raised
  | some o =>
    let list : Py (List Name) :=
      match LapOptions.child? o "variables" with
      | some v =>
        match v.children with
        | [] => .raised
        | e :: _ => if e.children.isEmpty then .ret [] else .raised
      | none => names.bind fun n => .ret ([n.1] ++ n.2.1 ++ n.2.2.1 ++ n.2.2.2)
    list.bind fun l =>
    match LapOptions.child? o "prefix" with
    | none => .ret ((strip "").toList, l)
    | some p => if p.text = "" then .raised else .ret ((strip p.text).toList, l)

/-- `optimal_laptime`, fastest_lap.py:289-327: first the lap is computed (`job`, as in `Verif.Model.Registry`), then
the options are parsed; an empty or malformed text raises. -/
def optimalLaptime (lib : Name → Option (Name → Bool)) (strip : String → String) (vehicle track : Name)
    (options : LapOptions.Given) (w1 : Kart → Track → Kart) (w2 : F1 → Track → F1) (job : LapJob K)
    (r : Reg Kart F1 Track K) : Reg Kart F1 Track K × Py (Name × List Name) :=
  let x := step lib (.optimalLaptime (cstr vehicle) (cstr track) w1 w2 job) r
  (x.1, (ofC x.2).bind fun _ =>
    match options with
    | .empty => .raised
    | .malformed => .raised
    | .doc root => requested ((variableType vehicle x.1).bind typeNames) strip root)

/-- `track_download_data`, fastest_lap.py:222-236, with the two calls of the library
(fastestlapc.cpp:458-474, 477-570). -/
def trackData (tracks : Name → Option (TrackData K)) (track var : Name) : Py (List K) :=
  match tracks (cstr track) with
  | none => .aborted
  | some t =>
    if cInt t.nPoints < 0 then .raised
    else ofC (trackDownload t (cInt (cInt t.nPoints)) (cstr var))

/-- `track_coordinates`, fastest_lap.py:329-338. -/
def trackCoordinates (tracks : Name → Option (TrackData K)) (track : Name) :
    Py (List K × List K × List K × List K × List K × List K × List K) :=
  (trackData tracks track "centerline.x".toList).bind fun xc =>
  (trackData tracks track "centerline.y".toList).bind fun yc =>
  (trackData tracks track "left.x".toList).bind fun xl =>
  (trackData tracks track "left.y".toList).bind fun yl =>
  (trackData tracks track "right.x".toList).bind fun xr =>
  (trackData tracks track "right.y".toList).bind fun yr =>
  (trackData tracks track "heading-angle".toList).bind fun th => .ret (xc, yc, xl, yl, xr, yr, th)

/-- `gg_diagram`, fastest_lap.py:269-287: new arrays hold zeros. The number of points is below `2 ^ 31`. The four
results are `ay`, `ay_minus`, `ax_max`, `ax_min`. -/
noncomputable def ggDiagram (S : Steady.SolverAD ℝ) (karts f1s : Name → Option SteadyVehicles.Entry) (name : Name)
    (speed : ℝ) (n : Nat) : Py (List ℝ × List ℝ × List ℝ × List ℝ) :=
  let zeros := List.replicate n (0 : ℝ)
  let a := SteadyVehicles.ggDiagram S karts f1s (cstr name) speed n (zeros, zeros, zeros)
  (ofC a.result).bind fun _ =>
  .ret (a.mem.1.map (· / (981 / 100)), (a.mem.1.map (· / (981 / 100))).map fun x => -x,
    a.mem.2.1.map (· / (981 / 100)), a.mem.2.2.map (· / (981 / 100)))

end Verif.Python
