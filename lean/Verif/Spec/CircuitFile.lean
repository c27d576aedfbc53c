import Verif.Model.CircuitFile
import Verif.Model.Track

/-! # Vocabulary of the properties of the file of a circuit -/

set_option autoImplicit false

namespace Verif.CircuitFile

open Verif.Kerbs (Kerb)

variable {K : Type*}

/-- The numbers of entries of the vectors with one entry per point. -/
def Circuit.sizes (c : Circuit K) : List Nat :=
  [c.s.length, c.rCenterline.length, c.rLeft.length, c.rRight.length, c.yaw.length, c.pitch.length, c.roll.length,
    c.yawDot.length, c.pitchDot.length, c.rollDot.length, c.nl.length, c.nr.length, c.dyawDot.length,
    c.dpitchDot.length, c.drollDot.length, c.dnl.length, c.dnr.length]

/-- The members of a computed circuit fit together: one entry per point in all vectors, measured boundaries, heights
equal to zero if it has no elevation, kerbs only if they were asked for. -/
structure Circuit.Complete [Zero K] (c : Circuit K) : Prop where
  some : 0 < c.nPoints
  small : c.nPoints < 2 ^ 31
  sizes : ∀ k ∈ c.sizes, k = c.nPoints
  elements : c.nElements = if c.isClosed then c.nPoints else c.nPoints - 1
  measured : c.rLeftMeasured ≠ [] ∧ c.rRightMeasured ≠ []
  flat : c.options.withElevation = false →
    ∀ r ∈ c.rCenterline ++ c.rLeft ++ c.rRight ++ c.rLeftMeasured ++ c.rRightMeasured, r.2.2 = 0
  kerbs : c.options.computeKerbs = false → c.leftKerb = [] ∧ c.rightKerb = []

/-- A kerb with its numbers as they are printed. -/
def printedKerb (printed : K → K) (k : Kerb K) : Kerb K :=
  ⟨printed k.start, printed k.finish, printed k.width, k.used⟩

/-- All vectors have enough entries to be printed: one, and one per point but the last. -/
structure Circuit.Filled (c : Circuit K) : Prop where
  some : c.nPoints ≠ 0
  sizes : ∀ k ∈ c.sizes, k ≠ 0 ∧ c.nPoints ≤ k + 1
  measured : c.rLeftMeasured ≠ [] ∧ c.rRightMeasured ≠ []

/-- The element is in the document. -/
def Doc.Has (doc : Doc K) (p : List String) : Prop := ∃ e ∈ doc.elems, e.path = p

/-- The elements without which no circuit can be read. -/
def required : List (List String) :=
  [["header", "track_length"], ["header", "L2_error_left"], ["header", "L2_error_right"],
   ["header", "max_error_left"], ["header", "max_error_right"],
   ["optimization", "cost_curvature"], ["optimization", "cost_track_limits_smoothness"],
   ["optimization", "cost_track_limits_errors"], ["optimization", "cost_centerline"],
   ["optimization", "maximum_yaw_dot"], ["optimization", "maximum_dyaw_dot"],
   ["GPS_parameters", "origin_longitude"], ["GPS_parameters", "origin_latitude"],
   ["GPS_parameters", "earth_radius"], ["GPS_parameters", "reference_latitude"],
   ["data", "arclength"], ["data", "centerline", "x"], ["data", "centerline", "y"],
   ["data", "left_boundary", "x"], ["data", "left_boundary", "y"],
   ["data", "right_boundary", "x"], ["data", "right_boundary", "y"],
   ["data", "left_measured_boundary", "x"], ["data", "left_measured_boundary", "y"],
   ["data", "right_measured_boundary", "x"], ["data", "right_measured_boundary", "y"],
   ["data", "yaw"], ["data", "yaw_dot"], ["data", "nl"], ["data", "nr"], ["data", "dyaw_dot"], ["data", "dnl"],
   ["data", "dnr"]]

/-- The elements a circuit with elevation needs besides. -/
def requiredElevation : List (List String) :=
  [["optimization", "cost_pitch"], ["optimization", "cost_roll"], ["data", "centerline", "z"],
   ["data", "left_boundary", "z"], ["data", "right_boundary", "z"], ["data", "left_measured_boundary", "z"],
   ["data", "right_measured_boundary", "z"], ["data", "pitch"], ["data", "roll"], ["data", "pitch_dot"],
   ["data", "roll_dot"], ["data", "dpitch_dot"], ["data", "droll_dot"]]

/-- What is wrong with a file that cannot be read: an attribute with another value than the recognised ones, a number
of points out of range, a missing element, or kerbs on one side only. -/
def Doc.Wrong (doc : Doc K) : Prop :=
  doc.format ≠ "discrete" ∨ doc.type ∉ ["closed", "open"] ∨ doc.dimensions ∉ [some "2", some "3"] ∨
  2 ^ 31 ≤ doc.nPoints ∨ (∃ p ∈ required, ¬ doc.Has p) ∨
  (doc.dimensions = some "3" ∧ ∃ p ∈ requiredElevation, ¬ doc.Has p) ∨
  ∃ l r, doc.kerbs = some (l, r) ∧ (l = none ∨ r = none)

/-- The coordinates of the boundaries have as many numbers as points, those of the measured boundaries as many as the
first coordinate, and there is a heading. -/
structure Doc.LongEnough (doc : Doc K) : Prop where
  points : ∀ e ∈ doc.elems, ∀ b ∈ ["centerline", "left_boundary", "right_boundary"], ∀ a ∈ ["x", "y", "z"],
    e.path = ["data", b, a] → doc.nPoints ≤ e.text.length
  measured : ∀ e ∈ doc.elems, ∀ f ∈ doc.elems, ∀ b ∈ ["left_measured_boundary", "right_measured_boundary"],
    ∀ a ∈ ["y", "z"], e.path = ["data", b, "x"] → f.path = ["data", b, a] → e.text.length ≤ f.text.length
  yaw : ∀ e ∈ doc.elems, e.path = ["data", "yaw"] → e.text ≠ []

/-- Nothing is left blank: all elements have text, and the kerbs start, finish, width and a readable mark of use. -/
structure Doc.NotBlank (toBool : String → Res Bool) (doc : Doc K) : Prop where
  text : ∀ e ∈ doc.elems, e.text ≠ []
  kerbs : ∀ l r, doc.kerbs = some (some l, some r) → ∀ k ∈ l ++ r,
    k.start ≠ none ∧ k.finish ≠ none ∧ k.width ≠ none ∧ ∃ b, toBool k.used = .ok b

/-- What is in a circuit `c'` that was read from the file of the circuit `c`; `old` is what was in memory before. -/
structure ReadBack [Field K] [LinearOrder K] (printed : K → K) (c old c' : Circuit K) : Prop where
  counts : c'.isClosed = c.isClosed ∧ c'.nPoints = c.nPoints ∧ c'.nElements = c.nElements
  origin : c'.yaw0 = c.yaw0 ∧ c'.roll0 = c.roll0 ∧ c'.rollRef = c.rollRef ∧ c'.rEarth = c.rEarth
  errors : c'.leftL2Error = c.leftL2Error ∧ c'.rightL2Error = c.rightL2Error ∧ c'.leftMaxError = c.leftMaxError ∧
    c'.rightMaxError = c.rightMaxError
  length : c'.trackLength = c.trackLength ∧ c'.s = c.s
  boundaries : c'.rCenterline = c.rCenterline ∧ c'.rLeft = c.rLeft ∧ c'.rRight = c.rRight ∧
    c'.rLeftMeasured = c.rLeftMeasured ∧ c'.rRightMeasured = c.rRightMeasured
  shape : c'.yaw = c.yaw ∧ c'.yawDot = c.yawDot ∧ c'.dyawDot = c.dyawDot ∧ c'.nl = c.nl ∧ c'.nr = c.nr ∧
    c'.dnl = c.dnl ∧ c'.dnr = c.dnr
  elevated : c.options.withElevation = true → c'.pitch = c.pitch ∧ c'.roll = c.roll ∧ c'.pitchDot = c.pitchDot ∧
    c'.rollDot = c.rollDot ∧ c'.dpitchDot = c.dpitchDot ∧ c'.drollDot = c.drollDot
  flat : c.options.withElevation = false → c'.pitch = [] ∧ c'.roll = [] ∧ c'.pitchDot = [] ∧ c'.rollDot = [] ∧
    c'.dpitchDot = [] ∧ c'.drollDot = []
  kerbs : c'.leftKerb = c.leftKerb.map (printedKerb printed) ∧ c'.rightKerb = c.rightKerb.map (printedKerb printed)
  weights : c'.options.epsK = printed c.options.epsK ∧ c'.options.epsN = printed c.options.epsN ∧
    c'.options.epsD = printed c.options.epsD ∧ c'.options.epsC = printed c.options.epsC ∧
    c'.options.maximumYawDot = printed c.options.maximumYawDot ∧
    c'.options.maximumDyawDot = printed c.options.maximumDyawDot
  weightsElevated : c.options.withElevation = true → c'.options.epsPitch = printed c.options.epsPitch ∧
    c'.options.epsRoll = printed c.options.epsRoll
  choices : c'.options.withElevation = c.options.withElevation ∧ c'.options.computeKerbs = c.options.computeKerbs
  lost : c'.options.maximumDn = 1 ∧ c'.options.maximumDistanceFind = 50 ∧
    c'.options.adaptionAspectRatioMax = 12 / 10 ∧ c'.options.printLevel = 0 ∧ c'.options.kerbWidth = 1 ∧
    c'.options.useKerbs = false ∧ c'.options.exteriorKerbsDirection = -1
  lostFlat : c.options.withElevation = false → c'.options.epsPitch = 1000000 ∧ c'.options.epsRoll = 1000000
  unset : c'.x0 = old.x0 ∧ c'.y0 = old.y0 ∧ (c.isClosed = false → c'.direction = old.direction)
  direction : c.isClosed = true → ∀ a b, c.yaw.head? = some a → c.yaw.getLast? = some b →
    c'.direction = if a < b then 1 else -1

/-- What the track takes from a circuit: the entries of the vectors, point by point (track_by_polynomial.hpp:80-91,
circuit_geometry.h:6-36). -/
def Circuit.toTrack (c : Circuit ℝ) : Track.Circuit :=
  { closed := c.isClosed
    withElevation := c.options.withElevation
    s := c.s
    pts := (List.range c.nPoints).map fun i =>
      { x := (c.rCenterline.getD i 0).1, y := (c.rCenterline.getD i 0).2.1, z := (c.rCenterline.getD i 0).2.2
        yaw := c.yaw.getD i 0, pitch := c.pitch.getD i 0, roll := c.roll.getD i 0, yawDot := c.yawDot.getD i 0
        pitchDot := c.pitchDot.getD i 0, rollDot := c.rollDot.getD i 0, nl := c.nl.getD i 0, nr := c.nr.getD i 0
        dyawDot := c.dyawDot.getD i 0, dpitchDot := c.dpitchDot.getD i 0, drollDot := c.drollDot.getD i 0
        dnl := c.dnl.getD i 0, dnr := c.dnr.getD i 0 }
    leftKerbs := c.leftKerb
    rightKerbs := c.rightKerb
    trackLength := c.trackLength }

end Verif.CircuitFile
