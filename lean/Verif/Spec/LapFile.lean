import Verif.Model.LapFile
import Verif.Spec.Control

/-! # Vocabulary of the properties of the file of an optimal lap -/

set_option autoImplicit false

namespace Verif.LapFile

open Verif.Control

variable {K : Type*}

/-- The names of the other elements at the top of the document. -/
def reserved : List String := ["laptime", "control_variables", "x", "y", "psi", "optimization_data"]

/-- No two elements of the document get the same path. -/
structure Names.Distinct (names : Names) : Prop where
  top : (names.key :: names.inputs ++ reserved).Nodup
  controls : names.controls.Nodup

/-- The members of a computed lap fit together: as many entries as points, as many inputs and controls as
names, controls that passed the check; derivatives of the controls on the full mesh exactly if they are
optimised through their derivatives. -/
structure Data.Coherent [Zero K] [LinearOrder K] (names : Names) (d : Data K) : Prop where
  rows : ∀ r ∈ d.inputs, r.length = names.inputs.length
  points : d.inputs.length = d.nPoints
  some : 0 < d.nPoints
  small : d.nPoints < 2 ^ 31
  elements : d.nElements = if d.isClosed then d.nPoints else d.nPoints - 1
  s : d.s ≠ []
  x : d.x.length = d.nPoints
  y : d.y.length = d.nPoints
  psi : d.psi.length = d.nPoints
  zl : d.zl ≠ []
  zu : d.zu ≠ []
  lambda : d.lambda ≠ []
  controls : d.controls.length = names.controls.length
  checked : check d.controls = .ok (d.controls, d.stats)
  values : ∀ c ∈ d.controls, c.kind = .hypermesh ∨ c.kind = .fullMesh → c.controls ≠ []
  derivatives : ∀ c ∈ d.controls, c.kind = .fullMesh → (c.dcontrolsDt = [] ↔ d.isDirect = true)

/-- A control without its dissipation. -/
def undamped [Zero K] (c : CV K) : CV K := { c with dissipation := 0 }

/-- All vectors that are written are long enough: there is at least one point, arclength and multiplier of
each kind, a value of each control that is optimised (with a mesh if on a hypermesh, and a derivative if on
the full mesh and optimised through its derivative), and coordinates for all points but perhaps one. -/
structure Data.Filled (names : Names) (d : Data K) : Prop where
  inputs : d.inputs ≠ []
  s : d.s ≠ []
  x : d.x ≠ [] ∧ d.inputs.length ≤ d.x.length + 1
  y : d.y ≠ [] ∧ d.inputs.length ≤ d.y.length + 1
  psi : d.psi ≠ [] ∧ d.inputs.length ≤ d.psi.length + 1
  zl : d.zl ≠ []
  zu : d.zu ≠ []
  lambda : d.lambda ≠ []
  controls : ∀ c ∈ d.controls,
    (c.kind = .constant ∨ c.kind = .hypermesh ∨ c.kind = .fullMesh → c.controls ≠ []) ∧
    (c.kind = .hypermesh → c.sHypermesh ≠ []) ∧
    (c.kind = .fullMesh → d.isDirect = false → c.dcontrolsDt ≠ [])

/-- The elements without which a lap cannot be read. -/
def required (names : Names) : List (List String) :=
  [["laptime"], [names.key], ["x"], ["y"], ["psi"], ["optimization_data", "zl"], ["optimization_data", "zu"],
    ["optimization_data", "lambda"]] ++ names.inputs.map (fun n => [n]) ++
  names.controls.flatMap fun n => [["control_variables", n], ["control_variables", n, "values"]]

/-- The element is in the document. -/
def Doc.Has (doc : Doc K) (p : List String) : Prop := ∃ e ∈ doc.elems, e.path = p

/-- The recognised types of a control. -/
def kinds : List String := ["dont optimize", "constant", "hypermesh", "full-mesh"]

/-- What is wrong with a file that cannot be read: an attribute with another value than the recognised ones, a
number of points out of range, a missing element, or a control of another type. -/
def Doc.Wrong (names : Names) (doc : Doc K) : Prop :=
  doc.type ∉ ["closed", "open"] ∨ doc.isDirect ∉ ["true", "false"] ∨ 2 ^ 31 ≤ doc.nPoints ∨
  (∃ p ∈ required names, ¬ doc.Has p) ∨
  ∃ n ∈ names.controls, ∀ e ∈ doc.elems, e.path = ["control_variables", n] → ∀ k ∈ kinds, e.kind ≠ some k

/-- The elements of the inputs have at least as many numbers as points. -/
def Doc.LongEnough (names : Names) (doc : Doc K) : Prop :=
  ∀ e ∈ doc.elems, ∀ n ∈ names.inputs, e.path = [n] → doc.nPoints ≤ e.text.length

end Verif.LapFile
