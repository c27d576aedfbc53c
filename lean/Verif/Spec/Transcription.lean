import Verif.Model.Transcription
import Verif.Spec.Control

/-! Vocabulary of the transcription properties (C01..C05, C13..C15, C64..C66): who sits where in
the optimisation vector, and which requests are acceptable. It uses the data of requests and
problems and the sizes, not the packing and loading functions. -/

set_option autoImplicit false

namespace Verif.Transcription

open Verif.Control

variable {K : Type*}

/-- Facts guaranteed by the types of the vehicle (compile-time constants): the lateral
displacement follows the time, every input but the time has one equation, and there is one
default per control. -/
structure Vehicle.WellFormed (v : Vehicle K) (nControls : Nat) : Prop where
  lateral : v.iTime + 1 < v.nInputs
  equations : v.timeIds.length + v.algIds.length = v.nInputs - 1
  defaults : v.controlsDef.length = nControls

/-- The vehicle gives a lower and an upper rate bound for every control that is optimised at every
node. -/
def Vehicle.RatesBounded (v : Vehicle K) (controls : List (CV K)) : Prop :=
  ∀ (c : Nat) (cv : CV K), controls[c]? = some cv → cv.kind = .fullMesh →
    c < v.dcontrolsLb.length ∧ c < v.dcontrolsUb.length

/-- A request the user may submit. -/
structure Acceptable [Field K] [LinearOrder K] (v : Vehicle K) (r : Request K) : Prop where
  two : 2 ≤ r.s.length
  closedEnds : r.isClosed = true → ∀ a b, r.s.head? = some a → r.s.getLast? = some b →
    |a| ≤ 1 / 10 ^ 12 ∧ b ≤ v.trackLength - 1 / 10 ^ 10
  openEnds : r.isClosed = false → ∀ a b, r.s.head? = some a → r.s.getLast? = some b →
    -(1 / 10 ^ 12) ≤ a ∧ b ≤ v.trackLength
  inputs : r.inputs.length = r.s.length
  consistent : ∀ c ∈ r.controls, Consistent c
  full : ∀ c ∈ r.controls, c.kind = .fullMesh → c.controls.length = r.s.length ∧
    c.dcontrolsDt.length = if r.isDirect then 0 else r.s.length
  names : ∀ q ∈ r.opts.integral, q.1 ∈ v.integralNames
  ready : v.ready = true

/-- The last request for the integral quantity called `nm`, if there is one. -/
def lastRequest (nm : Name) (rs : List (Name × K × K)) : Option (Name × K × K) :=
  rs.reverse.find? fun r => decide (r.1 = nm)

/-- What becomes of an accepted request. -/
structure Accepted [Field K] [LinearOrder K] (lowest max : K) (v : Vehicle K) (r : Request K)
    (p : Problem K) : Prop where
  s : p.s = if r.isClosed then 0 :: r.s.tail else r.s
  isClosed : p.isClosed = r.isClosed
  isDirect : p.isDirect = r.isDirect
  nPoints : p.nPoints = r.s.length
  nElements : p.nElements = if r.isClosed then r.s.length else r.s.length - 1
  inputs : p.inputs = r.inputs
  controls : p.controls = r.controls.map meaningful
  stats : p.stats = ⟨r.controls.countP (fun c => c.kind = .constant),
    ((r.controls.filter (fun c => c.kind = .hypermesh)).map (fun c => c.sHypermesh.length)).sum,
    r.controls.countP (fun c => c.kind = .fullMesh)⟩
  nQuantities : p.quantities.length = v.integralNames.length
  quantities : v.integralNames.Nodup → ∀ (k : Nat) (nm : Name), v.integralNames[k]? = some nm →
    p.quantities[k]? = some (match lastRequest nm r.opts.integral with
      | some (_, lb, ub) => ⟨0, true, lb, ub⟩
      | none => ⟨0, false, lowest, max⟩)
  warm : p.warm = r.warm
  opts : p.opts = r.opts

/-! ### Layout of the optimisation vector -/

/-- Number of full-mesh controls. -/
def nFullMesh (cs : List (CV K)) : Nat := cs.countP (fun c => c.kind = .fullMesh)

/-- Number of values of the constant and hypermesh controls. -/
def nOther (cs : List (CV K)) : Nat :=
  ((cs.filter fun c => c.kind = .constant ∨ c.kind = .hypermesh).map fun c => c.controls.length).sum

/-- Size of the block of a node: all inputs but the time, and one (direct) or two values per
full-mesh control. -/
def blockSize (v : Vehicle K) (isDirect : Bool) (cs : List (CV K)) : Nat :=
  v.nInputs - 1 + (if isDirect then nFullMesh cs else 2 * nFullMesh cs)

/-- The first optimised node. -/
def firstNode (isClosed : Bool) : Nat := if isClosed then 0 else 1

/-- Index of an input inside the block of its node: the time is skipped. -/
def inputSlot (v : Vehicle K) (j : Nat) : Nat := if j < v.iTime then j else j - 1

/-- Start of the block of node `i`. -/
def blockStart (v : Vehicle K) (p : Problem K) (i : Nat) : Nat :=
  (i - firstNode p.isClosed) * blockSize v p.isDirect p.controls

/-- Where input `j` of node `i` is. -/
def inputPos (v : Vehicle K) (p : Problem K) (i j : Nat) : Nat := blockStart v p i + inputSlot v j

/-- Where the value at node `i` of the full-mesh control number `c` is. -/
def fullPos (v : Vehicle K) (p : Problem K) (i c : Nat) : Nat :=
  blockStart v p i + (v.nInputs - 1) + nFullMesh (p.controls.take c)

/-- Where the rate at node `i` of the full-mesh control number `c` is (derivative form). -/
def ratePos (v : Vehicle K) (p : Problem K) (i c : Nat) : Nat :=
  blockStart v p i + (v.nInputs - 1) + nFullMesh p.controls + nFullMesh (p.controls.take c)

/-- Where the `k`-th value of the constant or hypermesh control number `c` is: after all the
blocks. -/
def otherPos (v : Vehicle K) (p : Problem K) (c k : Nat) : Nat :=
  (p.nPoints - firstNode p.isClosed) * blockSize v p.isDirect p.controls + nOther (p.controls.take c) + k

/-- Node `i` is optimised. -/
def Optimised (p : Problem K) (i : Nat) : Prop := firstNode p.isClosed ≤ i ∧ i < p.nPoints

/-- Every optimised quantity of the inputs and controls is found in `x` at its position. -/
structure Holds (v : Vehicle K) (p : Problem K) (inputs : List (Row K)) (controls : List (CV K))
    (x : List K) : Prop where
  inputs : ∀ (i j : Nat) (row : Row K), Optimised p i → j < v.nInputs → j ≠ v.iTime →
    inputs[i]? = some row → x[inputPos v p i j]? = some (row j)
  full : ∀ (i c : Nat) (cv : CV K), Optimised p i → controls[c]? = some cv → cv.kind = .fullMesh →
    ∃ a, cv.controls[i]? = some a ∧ x[fullPos v p i c]? = some a
  rates : p.isDirect = false → ∀ (i c : Nat) (cv : CV K), Optimised p i → controls[c]? = some cv →
    cv.kind = .fullMesh → ∃ a, cv.dcontrolsDt[i]? = some a ∧ x[ratePos v p i c]? = some a
  other : ∀ (c k : Nat) (cv : CV K), controls[c]? = some cv →
    (cv.kind = .constant ∨ cv.kind = .hypermesh) → k < cv.controls.length →
    ∃ a, cv.controls[k]? = some a ∧ x[otherPos v p c k]? = some a

/-- Two controls with the same definition (kind, hypermesh, dissipation) and the same sizes. -/
structure SameFrame (c c' : CV K) : Prop where
  kind : c'.kind = c.kind
  mesh : c'.sHypermesh = c.sHypermesh
  diss : c'.dissipation = c.dissipation
  nValues : c'.controls.length = c.controls.length
  nRates : c'.dcontrolsDt.length = c.dcontrolsDt.length

/-- Content of the cost-function object that belongs to problem `p`: one row per node and
controls with the definitions and sizes of those of `p`. -/
structure FitsProblem (p : Problem K) (st : Loaded K) : Prop where
  inputs : st.inputs.length = p.nPoints
  controls : st.controls.length = p.controls.length
  frames : ∀ (c : Nat) (cv cv' : CV K), p.controls[c]? = some cv → st.controls[c]? = some cv' →
    SameFrame cv cv'

/-- What the cost-function object holds after loading `x` over the content `st`: every optimised
quantity comes from its position in `x`; the first node of an open simulation is the initial
point; everything else (the times, the definitions of the controls, the controls that are not
optimised) is as before. -/
structure Decoded (v : Vehicle K) (p : Problem K) (ini : Initial K) (st st' : Loaded K)
    (x : List K) : Prop where
  fits : FitsProblem p st'
  holds : Holds v p st'.inputs st'.controls x
  time : ∀ (i : Nat) (ra rb : Row K), Optimised p i → st.inputs[i]? = some ra →
    st'.inputs[i]? = some rb → rb v.iTime = ra v.iTime
  firstInputs : p.isClosed = false → st'.inputs[0]? = some ini.inputs
  firstControls : p.isClosed = false → ∀ (c : Nat) (cv : CV K), st'.controls[c]? = some cv →
    cv.kind = .fullMesh → cv.controls[0]? = (ini.controls[c]?).map Prod.fst ∧
      (p.isDirect = false → cv.dcontrolsDt[0]? = (ini.controls[c]?).map Prod.snd)
  others : ∀ (c : Nat) (cv cv' : CV K), st.controls[c]? = some cv → st'.controls[c]? = some cv' →
    cv.kind ≠ .constant → cv.kind ≠ .hypermesh → cv.kind ≠ .fullMesh → cv' = cv

/-- Same inputs but for the time, at the nodes selected by `sel`. -/
def SameInputsButTime (v : Vehicle K) (sel : Nat → Prop) (a b : List (Row K)) : Prop :=
  ∀ (i : Nat) (ra rb : Row K), sel i → a[i]? = some ra → b[i]? = some rb →
    ∀ j, j < v.nInputs → j ≠ v.iTime → ra j = rb j

end Verif.Transcription
