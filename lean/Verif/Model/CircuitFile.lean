import Verif.Model.LapFile
import Verif.Model.Kerb

/-!
# The file of a preprocessed circuit

Models the constructor of `Circuit_preprocessor` from a document and its `xml()`
(src/core/applications/circuit_preprocessor.hpp:64-258 and 762-1086), and the same two functions of `Kerb`
(src/core/vehicles/kerb.h:159-188). An XML element is its path and the numbers of its text; elements that only
group others are left out, since an element inside of them cannot exist without them. Numbers printed with 17
digits are read back exactly; `std::to_string` of a scalar is a parameter (`printed`), and so are `to_bool` of lion
(`toBool`) and what lion returns as the vector of an element without text (`blank`). The `assert`s are not active
(`NDEBUG`).
-/

set_option autoImplicit false

namespace Verif.CircuitFile

open Verif.Kerbs (Kerb)
open Verif.LapFile (vec coords)

variable {K : Type*}

/-- An element of the document, circuit_preprocessor.hpp:781-1073. -/
structure Elem (K : Type*) where
  path : List String
  text : List K
  deriving DecidableEq

/-- The element of a kerb, kerb.h:180-184: its attribute and its three elements, if they are there. -/
structure KerbElem (K : Type*) where
  used : String
  start : Option K
  finish : Option K
  width : Option K
  deriving DecidableEq

/-- The document: attributes (circuit_preprocessor.hpp:772-779, 839), elements, and the element of the kerbs with
its elements `left` and `right` (1075-1083). -/
structure Doc (K : Type*) where
  format : String
  type : String
  dimensions : Option String
  nPoints : Nat
  elems : List (Elem K)
  kerbs : Option (Option (List (KerbElem K)) × Option (List (KerbElem K)))
  deriving DecidableEq

/-- `Circuit_preprocessor::Options`, circuit_preprocessor.h:27-53. -/
structure Options (K : Type*) where
  withElevation : Bool
  epsD : K
  epsK : K
  epsN : K
  epsC : K
  epsPitch : K
  epsRoll : K
  maximumYawDot : K
  maximumDyawDot : K
  maximumDn : K
  maximumDistanceFind : K
  adaptionAspectRatioMax : K
  printLevel : Int
  computeKerbs : Bool
  kerbWidth : K
  useKerbs : Bool
  exteriorKerbsDirection : Int
  deriving DecidableEq

/-- `Circuit_preprocessor`, circuit_preprocessor.h:215-227, with its base `Circuit_geometry`,
circuit_geometry.h:6-36. -/
structure Circuit (K : Type*) where
  options : Options K
  x0 : K
  y0 : K
  roll0 : K
  yaw0 : K
  rollRef : K
  rEarth : K
  leftKerb : List (Kerb K)
  rightKerb : List (Kerb K)
  nElements : Nat
  nPoints : Nat
  isClosed : Bool
  direction : Int
  rLeft : List (K × K × K)
  rLeftMeasured : List (K × K × K)
  rRight : List (K × K × K)
  rRightMeasured : List (K × K × K)
  rCenterline : List (K × K × K)
  s : List K
  yaw : List K
  pitch : List K
  roll : List K
  yawDot : List K
  pitchDot : List K
  rollDot : List K
  nl : List K
  nr : List K
  dyawDot : List K
  dpitchDot : List K
  drollDot : List K
  dnl : List K
  dnr : List K
  trackLength : K
  leftMaxError : K
  rightMaxError : K
  leftL2Error : K
  rightL2Error : K
  deriving DecidableEq

/-- The default values of the options, circuit_preprocessor.h:29-52 (`Kerb::Direction::inside` is -1). -/
def Options.default [Field K] : Options K :=
  { withElevation := true, epsD := 1 / 10, epsK := 50000, epsN := 1 / 10, epsC := 1 / 10, epsPitch := 1000000
    epsRoll := 1000000, maximumYawDot := 1 / 10, maximumDyawDot := 2 / 100, maximumDn := 1
    maximumDistanceFind := 50, adaptionAspectRatioMax := 12 / 10, printLevel := 0, computeKerbs := false
    kerbWidth := 1, useKerbs := false, exteriorKerbsDirection := -1 }

/-! ### Writing -/

/-- `Kerb::xml`, kerb.h:175-188. -/
def writeKerb (printed : K → K) (ks : List (Kerb K)) : List (KerbElem K) :=
  ks.map fun k => ⟨if k.used then "1" else "0", some (printed k.start), some (printed k.finish),
    some (printed k.width)⟩

/-- The numbers of header, weights and geographic coordinates, circuit_preprocessor.hpp:781-835. `rad` is the
constant `RAD`. -/
def writeScalars [Mul K] (printed : K → K) (rad : K) (c : Circuit K) : List (Elem K) :=
  [⟨["header", "track_length"], [c.trackLength]⟩,
   ⟨["header", "L2_error_left"], [c.leftL2Error]⟩,
   ⟨["header", "L2_error_right"], [c.rightL2Error]⟩,
   ⟨["header", "max_error_left"], [c.leftMaxError]⟩,
   ⟨["header", "max_error_right"], [c.rightMaxError]⟩,
   ⟨["optimization", "cost_curvature"], [printed c.options.epsK]⟩,
   ⟨["optimization", "cost_track_limits_smoothness"], [printed c.options.epsN]⟩,
   ⟨["optimization", "cost_track_limits_errors"], [printed c.options.epsD]⟩,
   ⟨["optimization", "cost_centerline"], [printed c.options.epsC]⟩,
   ⟨["optimization", "cost_pitch"], [printed c.options.epsPitch]⟩,
   ⟨["optimization", "cost_roll"], [printed c.options.epsRoll]⟩,
   ⟨["optimization", "maximum_yaw_dot"], [printed c.options.maximumYawDot]⟩,
   ⟨["optimization", "maximum_dyaw_dot"], [printed c.options.maximumDyawDot]⟩,
   ⟨["GPS_parameters", "origin_longitude"], [c.yaw0 * rad]⟩,
   ⟨["GPS_parameters", "origin_latitude"], [c.roll0 * rad]⟩,
   ⟨["GPS_parameters", "earth_radius"], [c.rEarth]⟩,
   ⟨["GPS_parameters", "reference_latitude"], [c.rollRef * rad]⟩]

/-- The vectors with one entry per point, printed by a loop over `n_points - 1` points followed by the last entry
(circuit_preprocessor.hpp:842-844 and so on), and the measured boundaries, printed in full (925-927 and so on):
paths and vectors in the order of the code, circuit_preprocessor.hpp:841-1073. -/
def vectors (c : Circuit K) : List (List String × Bool × List K) :=
  [(["data", "arclength"], true, c.s),
   (["data", "centerline", "x"], true, c.rCenterline.map (·.1)),
   (["data", "centerline", "y"], true, c.rCenterline.map (·.2.1)),
   (["data", "centerline", "z"], true, c.rCenterline.map (·.2.2)),
   (["data", "left_boundary", "x"], true, c.rLeft.map (·.1)),
   (["data", "left_boundary", "y"], true, c.rLeft.map (·.2.1)),
   (["data", "left_boundary", "z"], true, c.rLeft.map (·.2.2)),
   (["data", "right_boundary", "x"], true, c.rRight.map (·.1)),
   (["data", "right_boundary", "y"], true, c.rRight.map (·.2.1)),
   (["data", "right_boundary", "z"], true, c.rRight.map (·.2.2)),
   (["data", "left_measured_boundary", "x"], false, c.rLeftMeasured.map (·.1)),
   (["data", "left_measured_boundary", "y"], false, c.rLeftMeasured.map (·.2.1)),
   (["data", "left_measured_boundary", "z"], false, c.rLeftMeasured.map (·.2.2)),
   (["data", "right_measured_boundary", "x"], false, c.rRightMeasured.map (·.1)),
   (["data", "right_measured_boundary", "y"], false, c.rRightMeasured.map (·.2.1)),
   (["data", "right_measured_boundary", "z"], false, c.rRightMeasured.map (·.2.2)),
   (["data", "yaw"], true, c.yaw),
   (["data", "pitch"], true, c.pitch),
   (["data", "roll"], true, c.roll),
   (["data", "yaw_dot"], true, c.yawDot),
   (["data", "pitch_dot"], true, c.pitchDot),
   (["data", "roll_dot"], true, c.rollDot),
   (["data", "nl"], true, c.nl),
   (["data", "nr"], true, c.nr),
   (["data", "dyaw_dot"], true, c.dyawDot),
   (["data", "dpitch_dot"], true, c.dpitchDot),
   (["data", "droll_dot"], true, c.drollDot),
   (["data", "dnl"], true, c.dnl),
   (["data", "dnr"], true, c.dnr)]

/-- Printing one vector, circuit_preprocessor.hpp:842-847: with `n_points = 0` or an empty vector `- 1` wraps around
and the loop reads past the end. -/
def writeVector (n : Nat) (v : List String × Bool × List K) : Res (Elem K) :=
  (if v.2.1 then coords n v.2.2 else vec v.2.2).map fun l => ⟨v.1, l⟩

/-- `xml`, circuit_preprocessor.hpp:762-1086. -/
def write [Mul K] (printed : K → K) (rad : K) (c : Circuit K) : Res (Doc K) :=
  (mapRes (writeVector c.nPoints) (vectors c)).map fun vs =>
    { format := "discrete"
      type := if c.isClosed then "closed" else "open"
      dimensions := some (if c.options.withElevation then "3" else "2")
      nPoints := c.nPoints
      elems := writeScalars printed rad c ++ vs
      kerbs := if c.options.computeKerbs then
          some (some (writeKerb printed c.leftKerb), some (writeKerb printed c.rightKerb))
        else none }

/-! ### Reading -/

/-- `get_child` of lion: the first element of that path, or an exception. Used at
circuit_preprocessor.hpp:100-240. -/
def child (doc : Doc K) (p : List String) : Res (Elem K) :=
  match doc.elems.find? (fun e => decide (e.path = p)) with
  | some e => .ok e
  | none => .throw

/-- `get_child(..).get_value(scalar())` of lion. Used at circuit_preprocessor.hpp:102-129. -/
def number (doc : Doc K) (p : List String) : Res K :=
  (child doc p).bind fun e =>
    match e.text with
    | [] => .throw
    | a :: _ => .ok a

/-- `get_child(..).get_value(std::vector<scalar>())` of lion. Used at circuit_preprocessor.hpp:137-240. -/
def vector (blank : Res (List K)) (doc : Doc K) (p : List String) : Res (List K) :=
  (child doc p).bind fun e =>
    match e.text with
    | [] => blank
    | _ :: _ => .ok e.text

/-- The first `n` entries of three vectors as points, e.g. circuit_preprocessor.hpp:147-149. -/
def points (n : Nat) (x y z : List K) : Res (List (K × K × K)) :=
  mapRes (fun i => (idx x i).bind fun a => (idx y i).bind fun b => (idx z i).bind fun c => .ok (a, b, c))
    (List.range n)

/-- A boundary with one point per station, circuit_preprocessor.hpp:139-149, 151-160, 162-171: without elevation the
heights are the zeros set at 143. -/
def readBoundary [Zero K] (blank : Res (List K)) (doc : Doc K) (elevation : Bool) (n : Nat) (name : String) :
    Res (List (K × K × K)) :=
  (vector blank doc ["data", name, "x"]).bind fun x =>
  (vector blank doc ["data", name, "y"]).bind fun y =>
  (if elevation then vector blank doc ["data", name, "z"] else .ok (List.replicate n 0)).bind fun z =>
  points n x y z

/-- A measured boundary, circuit_preprocessor.hpp:173-186, 188-201: as many points as numbers in `x`. -/
def readMeasured [Zero K] (blank : Res (List K)) (doc : Doc K) (elevation : Bool) (name : String) :
    Res (List (K × K × K)) :=
  (vector blank doc ["data", name, "x"]).bind fun x =>
  (vector blank doc ["data", name, "y"]).bind fun y =>
  (if elevation then vector blank doc ["data", name, "z"] else .ok (List.replicate x.length 0)).bind fun z =>
  points x.length x y z

/-- A vector that is only read with elevation, circuit_preprocessor.hpp:206-210, 215-219, 230-234. -/
def readIf (blank : Res (List K)) (doc : Doc K) (elevation : Bool) (p : List String) : Res (List K) :=
  if elevation then vector blank doc p else .ok []

/-- A number of a kerb that has to be there, kerb.h:164-166. -/
def need (v : Option K) : Res K :=
  match v with
  | some a => .ok a
  | none => .throw

/-- The constructor of `Kerb` from an element, kerb.h:159-172. -/
def readKerb (toBool : String → Res Bool) (es : List (KerbElem K)) : Res (List (Kerb K)) :=
  mapRes (fun e => (need e.start).bind fun a => (need e.finish).bind fun b => (need e.width).bind fun w =>
    (toBool e.used).bind fun u => .ok ⟨a, b, w, u⟩) es

/-- The attribute `type`, circuit_preprocessor.hpp:71-76. -/
def readType (doc : Doc K) : Res Bool :=
  if doc.type = "closed" then .ok true else if doc.type = "open" then .ok false else .throw

/-- The attribute `dimensions`, circuit_preprocessor.hpp:78-97. -/
def readDimensions (doc : Doc K) : Res Bool :=
  match doc.dimensions with
  | some d => if d = "2" then .ok false else if d = "3" then .ok true else .throw
  | none => .throw

/-- The options, circuit_preprocessor.hpp:109-122, over the default ones. -/
def readOptions [Field K] (doc : Doc K) (elevation : Bool) : Res (Options K) :=
  (number doc ["optimization", "cost_curvature"]).bind fun k =>
  (number doc ["optimization", "cost_track_limits_smoothness"]).bind fun n =>
  (number doc ["optimization", "cost_track_limits_errors"]).bind fun d =>
  (number doc ["optimization", "cost_centerline"]).bind fun c =>
  (number doc ["optimization", "maximum_yaw_dot"]).bind fun yd =>
  (number doc ["optimization", "maximum_dyaw_dot"]).bind fun dyd =>
  (if elevation then number doc ["optimization", "cost_pitch"] else .ok Options.default.epsPitch).bind fun p =>
  (if elevation then number doc ["optimization", "cost_roll"] else .ok Options.default.epsRoll).bind fun r =>
  .ok { Options.default with
    withElevation := elevation, epsK := k, epsN := n, epsD := d, epsC := c, maximumYawDot := yd
    maximumDyawDot := dyd, epsPitch := p, epsRoll := r }

/-- The direction, circuit_preprocessor.hpp:242-244: only of closed circuits, otherwise the uninitialised value
`old` stays; `back` and `front` of an empty vector are undefined. -/
def readDirection [LinearOrder K] (isClosed : Bool) (yaw : List K) (old : Int) : Res Int :=
  if isClosed then
    match yaw.head?, yaw.getLast? with
    | some a, some b => .ok (if b > a then 1 else -1)
    | _, _ => .ub
  else .ok old

/-- The kerbs, circuit_preprocessor.hpp:246-257: whether they are there, left and right. -/
def readKerbs (toBool : String → Res Bool) (doc : Doc K) : Res (Bool × List (Kerb K) × List (Kerb K)) :=
  match doc.kerbs with
  | none => .ok (false, [], [])
  | some (left, right) =>
    (match left with | some es => readKerb toBool es | none => .throw).bind fun l =>
    (match right with | some es => readKerb toBool es | none => .throw).bind fun r =>
    .ok (true, l, r)

/-- `Circuit_preprocessor(Xml_document&)`, circuit_preprocessor.hpp:64-258. `deg` is the constant `DEG`; the members
that are not set keep what was in memory (`old`). `n_points` is read by `std::stoi` (133), which throws out of the
range of `int`; negative numbers are left out. -/
def read [Field K] [LinearOrder K] (deg : K) (toBool : String → Res Bool) (blank : Res (List K)) (doc : Doc K)
    (old : Circuit K) : Res (Circuit K) :=
  (if doc.format = "discrete" then Res.ok () else .throw).bind fun _ =>
  (readType doc).bind fun isClosed =>
  (readDimensions doc).bind fun elevation =>
  (number doc ["header", "track_length"]).bind fun trackLength =>
  (number doc ["header", "L2_error_left"]).bind fun leftL2Error =>
  (number doc ["header", "L2_error_right"]).bind fun rightL2Error =>
  (number doc ["header", "max_error_left"]).bind fun leftMaxError =>
  (number doc ["header", "max_error_right"]).bind fun rightMaxError =>
  (readOptions doc elevation).bind fun options =>
  (number doc ["GPS_parameters", "origin_longitude"]).bind fun yaw0 =>
  (number doc ["GPS_parameters", "origin_latitude"]).bind fun roll0 =>
  (number doc ["GPS_parameters", "earth_radius"]).bind fun rEarth =>
  (number doc ["GPS_parameters", "reference_latitude"]).bind fun rollRef =>
  (if doc.nPoints < 2 ^ 31 then Res.ok doc.nPoints else .throw).bind fun n =>
  (vector blank doc ["data", "arclength"]).bind fun s =>
  (readBoundary blank doc elevation n "centerline").bind fun rCenterline =>
  (readBoundary blank doc elevation n "left_boundary").bind fun rLeft =>
  (readBoundary blank doc elevation n "right_boundary").bind fun rRight =>
  (readMeasured blank doc elevation "left_measured_boundary").bind fun rLeftMeasured =>
  (readMeasured blank doc elevation "right_measured_boundary").bind fun rRightMeasured =>
  (vector blank doc ["data", "yaw"]).bind fun yaw =>
  (readIf blank doc elevation ["data", "pitch"]).bind fun pitch =>
  (readIf blank doc elevation ["data", "roll"]).bind fun roll =>
  (vector blank doc ["data", "yaw_dot"]).bind fun yawDot =>
  (readIf blank doc elevation ["data", "pitch_dot"]).bind fun pitchDot =>
  (readIf blank doc elevation ["data", "roll_dot"]).bind fun rollDot =>
  (vector blank doc ["data", "nl"]).bind fun nl =>
  (vector blank doc ["data", "nr"]).bind fun nr =>
  (vector blank doc ["data", "dyaw_dot"]).bind fun dyawDot =>
  (readIf blank doc elevation ["data", "dpitch_dot"]).bind fun dpitchDot =>
  (readIf blank doc elevation ["data", "droll_dot"]).bind fun drollDot =>
  (vector blank doc ["data", "dnl"]).bind fun dnl =>
  (vector blank doc ["data", "dnr"]).bind fun dnr =>
  (readDirection isClosed yaw old.direction).bind fun direction =>
  (readKerbs toBool doc).bind fun kerbs =>
  .ok
    { options := { options with computeKerbs := kerbs.1 }
      x0 := old.x0, y0 := old.y0, roll0 := roll0 * deg, yaw0 := yaw0 * deg, rollRef := rollRef * deg, rEarth := rEarth
      leftKerb := kerbs.2.1, rightKerb := kerbs.2.2
      nElements := LapFile.elementsOf isClosed n, nPoints := n, isClosed := isClosed, direction := direction
      rLeft := rLeft, rLeftMeasured := rLeftMeasured, rRight := rRight, rRightMeasured := rRightMeasured
      rCenterline := rCenterline, s := s, yaw := yaw, pitch := pitch, roll := roll, yawDot := yawDot
      pitchDot := pitchDot, rollDot := rollDot, nl := nl, nr := nr, dyawDot := dyawDot, dpitchDot := dpitchDot
      drollDot := drollDot, dnl := dnl, dnr := dnr, trackLength := trackLength, leftMaxError := leftMaxError
      rightMaxError := rightMaxError, leftL2Error := leftL2Error, rightL2Error := rightL2Error }

end Verif.CircuitFile
