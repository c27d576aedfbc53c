import Verif.Model.LapOptions
import Verif.Model.CircuitFile
import Verif.Model.Registry

/-!
# The options of the circuit preprocessor and the data it returns

Models src/main/c/fastestlapc.cpp:1787-2131: `Circuit_preprocessor_configuration` and `circuit_preprocessor`. Documents are
those of `Verif.Model.LapOptions`; what happens to the stored variables is `runCircuit` of `Verif.Model.Registry`. Reading
a KML file and the constructors of `Circuit_preprocessor` (`Verif.Model.Preprocessor`, `Verif.Model.Mesh`) are
parameters. The track that is stored is represented by the circuit it is built from.
-/

set_option autoImplicit false

namespace Verif.CircuitOptions

open Verif.LapOptions (Node find? orThrow Texts)
open Verif.CircuitFile (Options Circuit)

variable {K : Type*}

/-- `Mode` with the data of each mode, fastestlapc.cpp:1804, 1838-1863: `n_el`, or `s_distribution` and
`ds_distribution`. -/
inductive Mesh (K : Type*) where
  | elements (n : Nat)
  | refined (s ds : List K)
  deriving DecidableEq

/-- The members of `Circuit_preprocessor_configuration`, fastestlapc.cpp:1900-1927. A name is kept together with the flag
that says whether it is used. -/
structure Config (K : Type*) where
  left : String
  right : String
  isClosed : Bool
  mesh : Mesh K
  options : Options K
  xmlFile : Option String
  outputs : Option String
  table : Option String

/-- A mandatory node, fastestlapc.cpp:1814-1820. -/
def need (d : Node) (path : List String) : Res Node := orThrow (find? d path)

/-- The value of an `int` in a `size_t` of 64 bits, fastestlapc.cpp:1843. -/
def toSize (i : Int) : Nat := (i % 2 ^ 64).toNat

/-- An option of type scalar, fastestlapc.cpp:1867-1876. -/
def number (T : Texts K) (d : Node) (path : List String) (dflt : K) : Res K :=
  match find? d path with
  | none => .ok dflt
  | some e => T.num e.text

/-- The data of the mode, fastestlapc.cpp:1822-1863: `mode` is its text, known when `is_closed` is read. -/
def readMesh (T : Texts K) (d : Node) (mode : String) : Res (Mesh K) :=
  if mode = "equally-spaced" then
    (need d ["number_of_elements"]).bind fun e => (T.int e.text).bind fun n => .ok (.elements (toSize n))
  else
    (need d ["mesh_refinement"]).bind fun _ => (need d ["mesh_refinement", "s"]).bind fun s =>
      (need d ["mesh_refinement", "ds"]).bind fun ds => (T.nums s.text).bind fun s => (T.nums ds.text).bind fun ds =>
        .ok (.refined s ds)

/-- The weights and limits of the optimisation, fastestlapc.cpp:1866-1876, on top of the defaults. -/
def readWeights [Field K] (T : Texts K) (d : Node) (o : Options K) : Res (Options K) :=
  let opt := "optimization"
  match find? d [opt] with
  | none => .ok o
  | some _ =>
    (number T d [opt, "cost_curvature"] o.epsK).bind fun k =>
    (number T d [opt, "cost_track_limits_smoothness"] o.epsN).bind fun n =>
    (number T d [opt, "cost_track_limits_errors"] o.epsD).bind fun e =>
    (number T d [opt, "cost_centerline"] o.epsC).bind fun c =>
    (number T d [opt, "maximum_yaw_dot"] o.maximumYawDot).bind fun y =>
    (number T d [opt, "maximum_dyaw_dot"] o.maximumDyawDot).bind fun dy =>
    .ok { o with epsK := k, epsN := n, epsD := e, epsC := c, maximumYawDot := y, maximumDyawDot := dy }

/-- The options of the optimisation, fastestlapc.cpp:1866-1878. `trunc` is the conversion of a scalar to an `int`. -/
def readOptions [Field K] (T : Texts K) (trunc : K → Int) (d : Node) : Res (Options K) :=
  (readWeights T d Options.default).bind fun o =>
    match find? d ["print_level"] with
    | none => .ok o
    | some e => (T.num e.text).bind fun p => .ok { o with printLevel := trunc p }

/-- The prefix of the outputs, fastestlapc.cpp:1887-1892. -/
def readPrefix (d : Node) : Res (Option String) :=
  match find? d ["output_variables"] with
  | none => .ok none
  | some _ => (need d ["output_variables", "prefix"]).bind fun e => .ok (some e.text)

/-- The constructor of `Circuit_preprocessor_configuration`, fastestlapc.cpp:1806-1899. `none` is a text that is not a
document. -/
def configure [Field K] (T : Texts K) (trunc : K → Int) : Option Node → Res (Config K)
  | none => .throw
  | some d =>
    (need d ["kml_files"]).bind fun _ => (need d ["kml_files", "left"]).bind fun l =>
    (need d ["kml_files", "right"]).bind fun r => (need d ["mode"]).bind fun m =>
    if m.text ≠ "equally-spaced" ∧ m.text ≠ "refined" then .throw
    else (need d ["is_closed"]).bind fun c => (T.bool c.text).bind fun closed =>
      if closed = false ∧ m.text = "refined" then .throw
      else (readMesh T d m.text).bind fun mesh => (readOptions T trunc d).bind fun o =>
        (readPrefix d).bind fun p =>
          .ok { left := l.text, right := r.text, isClosed := closed, mesh := mesh, options := o,
                xmlFile := (find? d ["xml_file_name"]).map Node.text, outputs := p,
                table := (find? d ["insert_table_name"]).map Node.text }

/-- The circuit, fastestlapc.cpp:1939-1982: `files` reads a file, `build` is the constructor of `Circuit_preprocessor` for
closed circuits, with a number of elements or a distribution. -/
def circuit {F : Type*} (files : String → Res F) (build : F → F → Options K → Mesh K → Res (Circuit K)) (c : Config K) :
    Res (Circuit K) :=
  (files c.left).bind fun l => (files c.right).bind fun r =>
    match c.mesh with
    | .elements n => if c.isClosed then build l r c.options (.elements n) else .throw
    | .refined s ds => build l r c.options (.refined s ds)

/-- A `std::vector` of `n` zeros into which a list is copied with `std::transform`, fastestlapc.cpp:2010-2012. -/
def copied [Zero K] (n : Nat) (l : List K) : Res (List K) :=
  if l.length ≤ n then .ok (l ++ List.replicate (n - l.length) 0) else .ub

/-- The outputs with their data, in the order of fastestlapc.cpp:1999-2127. -/
def outputTable [Zero K] (c : Circuit K) : List (String × Res (List K)) :=
  let n := c.s.length
  [("arclength", .ok c.s),
   ("centerline/x", copied n (c.rCenterline.map (·.1))),
   ("centerline/y", copied n (c.rCenterline.map (·.2.1))),
   ("left/x", copied n (c.rLeft.map (·.1))),
   ("left/y", copied n (c.rLeft.map (·.2.1))),
   ("right/x", copied n (c.rRight.map (·.1))),
   ("right/y", copied n (c.rRight.map (·.2.1))),
   ("left_measured/x", copied n (c.rLeftMeasured.map (·.1))),
   ("left_measured/y", copied n (c.rLeftMeasured.map (·.2.1))),
   ("right_measured/x", copied n (c.rRightMeasured.map (·.1))),
   ("right_measured/y", copied n (c.rRightMeasured.map (·.2.1))),
   ("yaw_dot", .ok c.yawDot),
   ("nl", .ok c.nl),
   ("nr", .ok c.nr)]

/-- The data of an output, fastestlapc.cpp:1999-2127; there are no others. -/
def outputData [Zero K] (c : Circuit K) (name : Verif.Name) : Res (List K) :=
  match (outputTable c).find? fun o => o.1.toList = name with
  | some o => o.2
  | none => .throw

/-- Writing the file, if one is named, fastestlapc.cpp:1994-1997. -/
def written (save : String → Circuit K → Res Unit) (f : Option String) (t : Circuit K) : Res Unit :=
  match f with
  | none => .ok ()
  | some f => save f t

/-- `circuit_preprocessor`, fastestlapc.cpp:1931-2131, as a job of the registry: `save` writes a file (1996). -/
def job {K F : Type} [Field K] (T : Texts K) (trunc : K → Int) (files : String → Res F)
    (build : F → F → Options K → Mesh K → Res (Circuit K)) (save : String → Circuit K → Res Unit) (text : Option Node) :
    Registry.CircuitJob (Circuit K) K :=
  match configure T trunc text with
  | .throw => ⟨.throw, none, .ok (), none, fun _ => .throw⟩
  | .ub => ⟨.ub, none, .ok (), none, fun _ => .throw⟩
  | .ok c =>
    match circuit files build c with
    | .throw => ⟨.throw, none, .ok (), none, fun _ => .throw⟩
    | .ub => ⟨.ub, none, .ok (), none, fun _ => .throw⟩
    | .ok t =>
      ⟨.ok t, c.table.map String.toList, written save c.xmlFile t,
        c.outputs.map String.toList, outputData t⟩

end Verif.CircuitOptions
